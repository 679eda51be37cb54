import Verif.Model.Manager
import Verif.Model.Hex
/-
The texts of errors: `impl Display` of bip39/src/{bip39,util/hex}.rs, secp256k1_bip32/src/error.rs and keychain/src/{mnemonic,key_path,key,
network,crypt,error}.rs, networks/cardano/key.rs.
-/
namespace KC

/-- `Display` of an unsigned integer. -/
def showNat (n : Nat) : Str := Nat.toDigits 10 n

/-- `{:08b}`: binary, at least eight digits. -/
def showBin8 (n : Nat) : Str :=
  let d := Nat.toDigits 2 n
  List.replicate (8 - d.length) '0' ++ d

/-- bip39/src/util/hex.rs:25-31 `Display for Error`. -/
def Hex.Error.display : Hex.Error → Str
  | .unknownSymbol i => "Unknown symbol at byte index ".toList ++ showNat i

/-- keychain/src/crypt.rs:33-40 `Display for DecryptError`. -/
def Crypt.DecryptError.display : Crypt.DecryptError → Str
  | .notEnoughData => "Not enough data for decryption.".toList
  | .decryptionFailed => "Decryption failed. Check your key".toList

/-- bip39/src/bip39.rs:867-875 `Display for dictionary::Error`. -/
def Bip39.DictError.display : Bip39.DictError → Str
  | .wordNotFound w => "Mnemonic word not found in dictionary \"".toList ++ w ++ "\"".toList

/-- bip39/src/bip39.rs:89-103 `Display for Error`. -/
def Bip39.Error.display : Bip39.Error → Str
  | .invalidSeedSize n => "Invalid Seed Size, expected 64 bytes, but received ".toList ++ showNat n ++ " bytes.".toList
  | .wrongNumberOfWords n => "Unsupported number of mnemonic words: ".toList ++ showNat n
  | .wrongKeySize n => "Unsupported mnemonic entropy size: ".toList ++ showNat n
  | .mnemonicOutOfBound m => "The given mnemonic is out of bound, ".toList ++ showNat m.toNat
  | .languageError _ => "Unknown mnemonic word".toList
  | .invalidChecksum a b => "Invalid Entropy's Checksum, expected ".toList ++ showBin8 a.toNat ++ " but found ".toList ++ showBin8 b.toNat

/-- secp256k1_bip32/src/error.rs:20-40 `Display for KeyError`. -/
def Secp.KeyError.display : Secp.KeyError → Str
  | .invalidSignature bad good => "Invalid signature ".toList ++ showNat bad ++ ", expected ".toList ++ showNat good
  | .invalidPublicKey => "Invalid public key".toList
  | .invalidSecretKey => "Invalid secret key".toList
  | .invalidRecoveryId => "Invalid recovery id".toList
  | .invalidMessage => "Invalid message".toList
  | .invalidInputLength => "Invalid input length".toList
  | .tweakOutOfRange => "Tweak out of range".toList
  | .invalidDataSize bad good => "Invalid key data size ".toList ++ showNat bad ++ ", expected ".toList ++ showNat good
  | .invalidEntropySize n => "Invalid entropy size ".toList ++ showNat n
  | .internalError => "Unknown internal error".toList
  | .deriveDepthTooBig => "Derive depth is too big".toList

/-- keychain/src/networks/cardano/key.rs:22-30 `Display for KeyError`. -/
def Cardano.KeyError.display : Cardano.KeyError → Str
  | .lengthInvalid n => "Invalid data length ".toList ++ showNat n
  | .highestBitsInvalid => "Highest bits is invalid".toList
  | .lowestBitsInvalid => "Lowest bits is invalid".toList

/-- keychain/src/mnemonic.rs:50-63 `Display for Error`. -/
def Mnemonic.Error.display : Mnemonic.Error → Str
  | .mnemonicToShort size min => "Mnemonic ".toList ++ showNat size ++ " too short. Min: ".toList ++ showNat min
  | .mnemonicToLong size max => "Mnemonic ".toList ++ showNat size ++ " too short. Max: ".toList ++ showNat max
  | .wrongNumberOfWords n => "Wrong number of words ".toList ++ showNat n
  | .unsupportedWordFound w => "Unsupported word found '".toList ++ w ++ "'. Maybe wrong dictionary?".toList
  | .invalidEntropySize n => "Invalid entropy size ".toList ++ showNat n
  | .unknownError e => "Unknown mnemonic error: ".toList ++ e.display

/-- `Display for std::num::ParseIntError`. -/
def KeyPath.ParseIntError.display : KeyPath.ParseIntError → Str
  | .empty => "cannot parse integer from empty string".toList
  | .invalidDigit => "invalid digit found in string".toList
  | .posOverflow => "number too large to fit in target type".toList

/-- keychain/src/key_path.rs:25-48 `Display for Error`. -/
def KeyPath.Error.display : KeyPath.Error → Str
  | .invalidPartsCount n => "Invalid parts count ".toList ++ showNat n ++ ", expected: ".toList ++ showNat partsCount
  | .invalidPurpose got expected => "Invalid purpose ".toList ++ showNat got.toNat ++ ", expected: ".toList ++ showNat expected.toNat
  | .invalidPathMarker m => "Invalid path marker '".toList ++ m ++ "', expected: 'm'".toList
  | .invalidCoin got accepts => "Invalid coin ".toList ++ showNat got.toNat ++ ", expected: ".toList ++ showNat accepts.toNat
  | .invalidAccount n => "Invalid account ".toList ++ showNat n.toNat
  | .invalidChange n => "Invalid change ".toList ++ showNat n.toNat
  | .invalidAddress n => "Invalid address ".toList ++ showNat n.toNat
  | .emptyValueAtIndex i => "Found empty value at index: ".toList ++ showNat i
  | .parseErrorAtIndex i e => "Can't parse number at index ".toList ++ showNat i ++ ", error: ".toList ++ e.display

/-- keychain/src/network.rs:25-29 `Display for Network`. -/
def Network.display (n : Network) : Str := "Network(".toList ++ showNat n.toNat ++ ")".toList

/-- Texts that come from outside the modelled code: of a `serde_json` error, and of the error of a custom network. -/
structure Texts where
  serde : Str
  custom : Nat → Str

/-- The `Box<dyn Error>` of a key error. -/
def Key.Inner.display (T : Texts) : Key.Inner → Str
  | .secp e => e.display
  | .cardano e => e.display
  | .custom c => T.custom c

/-- keychain/src/key.rs:19-33 `Display for Error`. -/
def Key.Error.display (T : Texts) : Key.Error → Str
  | .invalidKeyPath e => "Key Path error: ".toList ++ e.display
  | .invalidMnemonic e => "Mnemonic error: ".toList ++ e.display
  | .invalidKeySize size good => "Invalid key size ".toList ++ showNat size ++ ", accepts ".toList ++ showNat good
  | .invalidKeyData e => "Invalid key data: ".toList ++ e.display T
  | .invalidSignatureSize size good => "Invalid signature size ".toList ++ showNat size ++ ", accepts ".toList ++ showNat good
  | .signError e => "Sign error: ".toList ++ e.display T

/-- keychain/src/error.rs:26-45 `Display for Error`. -/
def Error.display (T : Texts) : Error → Str
  | .wrongPassword => "Wrong password".toList
  | .notEnoughData => "Not enough data to load keychain".toList
  | .seedIsNotSaved => "Seed is not saved".toList
  | .cantCalculateSeedSize min max =>
    "Can't calculate seed size for networks: min(".toList ++ showNat min ++ "), max(".toList ++ showNat max ++ ")".toList
  | .invalidSeedSize n => "Invalid seed size ".toList ++ showNat n
  | .keyDoesNotExist n => "Key for ".toList ++ n.display ++ " doesn't exist".toList
  | .keyAlreadyExist n => "Key for ".toList ++ n.display ++ " already exist in keychain".toList
  | .networkIsNotSupported n => "Network ".toList ++ n.display ++ " is not supported".toList
  | .dataError => "Data parsing error ".toList ++ T.serde
  | .keyError n e => "Key error ".toList ++ e.display T ++ " for network ".toList ++ n.display
  | .mnemonicError e => "Mnemonic error ".toList ++ e.display
  | .keyPathError e => "Key path error ".toList ++ e.display

end KC
