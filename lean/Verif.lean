import Verif.Props.Bits
import Verif.Props.Hex
import Verif.Props.Bip39
import Verif.Props.Mnemonic
import Verif.Props.KeyPath
import Verif.Props.Secp
import Verif.Props.Keys
import Verif.Props.Crypt
import Verif.Props.Data
import Verif.Props.Load
import Verif.Props.Manager
import Verif.Props.Random
import Verif.Props.CApi
import Verif.Props.CMemory
import Verif.Props.CRandom
import Verif.Props.Real
import Verif.Props.RealEd
import Verif.Props.Tamper
import Verif.Props.Languages
import Verif.Props.ErrorTexts
import Verif.Props.CSession
import Verif.Props.CReal
import Verif.Real.Vectors
import Verif.Spec.Passwords
import Verif.Proofs.Passwords
import Verif.Props.Passwords
import Verif.Spec.WordLists
import Verif.Real.Lists
import Verif.Real.ListsA
import Verif.Real.ListsB
import Verif.Real.ListsC
import Verif.Props.WordLists
import Verif.Real.PublicForms
import Verif.Props.PublicForms
import Verif.Real.EdDecode
import Verif.Props.EdDecode
import Verif.Spec.Rfc6979
import Verif.Real.Rfc6979
import Verif.Props.Nonces
import Verif.Props.Uniform
import Verif.Props.Sizes
import Verif.Props.Nfkd
import Verif.Props.Panics
import Verif.Props.Leaks
import Verif.Props.Malleable
import Verif.Props.Exported
import Verif.Spec.Le
import Verif.Spec.Sha2
import Verif.Spec.Keccak
import Verif.Spec.Ripemd
import Verif.Spec.Hmac
import Verif.Spec.Chacha
import Verif.Real.Sha2Spec
import Verif.Real.KeccakSpec
import Verif.Real.RipemdSpec
import Verif.Real.ChachaSpec
import Verif.Real.HmacSpec
import Verif.Props.Standards
import Verif.Props.Capstone
import Verif.Props.Seeds
import Verif.Props.Cases
import Verif.Props.Secrets
import Verif.Props.CPrograms
import Verif.Real.Pbkdf2Fast
import Verif.Real.AbandonKey
import Verif.Real.AbandonRun1
import Verif.Real.AbandonRun2
import Verif.Real.AbandonRun3
import Verif.Real.AbandonRun4
import Verif.Real.AbandonSeed
import Verif.Props.PhraseCases
import Verif.Props.Small
import Verif.Spec.Archive
import Verif.Props.Archive
import Verif.Props.ArchiveCase
import Verif.Spec.Concurrent
import Verif.Props.Concurrent
import Verif.Props.Derived
import Verif.Props.CArchive
import Verif.Props.Usize
import Verif.Props.Builds
import Verif.Props.Repeats
import Verif.Props.Features
import Verif.Props.Abbrev
import Verif.Props.LastWord
import Verif.Props.Foreign
import Verif.Real.TwoKeys
import Verif.Props.TwoPasswords
import Verif.Props.WhoseSignature
import Verif.Props.Mixed
import Verif.Props.Points
import Verif.Props.Copies
import Verif.Props.Custom
import Verif.Props.Live
import Verif.Props.Birthday
import Verif.Props.KeyCount
import Verif.Props.OpenCount
import Verif.Props.AcceptCount
import Verif.Props.DataCount
import Verif.Props.PathCount
import Verif.Props.PanicTexts
import Verif.Props.CReuse
import Verif.Props.CCopies
import Verif.Props.PanicHook
import Verif.Props.CExact
import Verif.Model.Residue
import Verif.Props.Residue
