import Verif.Model.Mnemonic
/-
The published word lists of BIP-39, by their SHA-256.
-/
namespace KC.Spec.WordLists
open KC.Mnemonic (Language)

/-- The words one per line, each line ended. -/
def lines (ws : List Str) : Str := ws.flatMap fun w => w ++ ['\n']

/-- SHA-256 of the word lists of BIP-39 (files bip-0039/*.txt of the BIP repository, one word per line), as numbers.  From a file of /repo:
`grep -o '"[^"]*"' bip39/src/dicts/bip39_english.txt | tr -d '"' | sha256sum`. -/
def published : Language → Nat
  | .english => 0x2f5eed53a4727b4bf8880d8f3f199efc90e58503646d9ff8eff3a2ed3b24dbda
  | .french => 0xebc3959ab7801a1df6bac4fa7d970652f1df76b683cd2f4003c941c63d517e59
  | .japanese => 0x2eed0aef492291e061633d7ad8117f1a2b03eb80a29d0e4e3117ac2528d05ffd
  | .korean => 0x9e95f86c167de88f450f0aaf89e87f6624a57f973c67b516e338e8e8b8897f60
  | .chineseSimplified => 0x5c5942792bd8340cb8b27cd592f1015edf56a8c5b26276ee18a482428e7c5726
  | .chineseTraditional => 0x417b26b3d8500a4ae3d59717d7011952db6fc2fb84b807f3f94ac734e89c1b5f
  | .italian => 0xd392c49fdb700a24cd1fceb237c1f65dcc128f6b34a8aacb58b59384b5c648c2
  | .spanish => 0x46846a5a0139d1e3cb77293e521c2865f7bcdb82c44e8d0a06a2cd0ecba48c0b

end KC.Spec.WordLists
