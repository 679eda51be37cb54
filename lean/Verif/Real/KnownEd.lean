import Verif.Real.EdSign
import Verif.Real.Hashes
/-
Known answers for `Real.Ed25519`, evaluated by the kernel: RFC 8032, 7.1 (tests 1 to 3), and the test vector of `ed25519-bip32`.
-/
namespace KC.Real.Ed25519

/-- An extended key from its bytes. -/
def key (b : Bytes) : Cardano.XPrv := if h : b.length = 96 then ⟨b, h⟩ else ⟨List.replicate 96 0, rfl⟩

/-- RFC 8032, 7.1, test 1: the key is the hash of the secret, clamped (the chain code plays no part). -/
def test1 : Cardano.XPrv := key
  [48, 124, 131, 134, 79, 40, 51, 203, 66, 122, 46, 241, 192, 10, 1, 60, 253, 255, 39, 104, 217, 128, 192, 163, 165, 32, 240, 6, 144, 77, 233, 79, 155, 79, 10, 254, 40, 11, 116, 106, 119, 134, 132, 231, 84, 66, 80, 32, 87, 183, 71, 58, 3, 240, 143, 150, 245, 163, 142, 146, 135, 224, 31, 143, 0, 0, 0, 0, 0, 0, 0, 0, 0, 0, 0, 0, 0, 0, 0, 0, 0, 0, 0, 0, 0, 0, 0, 0, 0, 0, 0, 0, 0, 0, 0, 0]

example : ((Real.sha512 [157, 97, 177, 157, 239, 253, 90, 96, 186, 132, 74, 244, 146, 236, 44, 196, 68, 73, 197, 105, 123, 50, 105, 25, 112, 59, 172, 3, 28, 174, 127, 96]).drop 1).take 30 = (test1.val.drop 1).take 30 := by decide +kernel
example : pubBytes test1 = [215, 90, 152, 1, 130, 177, 10, 183, 213, 75, 254, 211, 201, 100, 7, 58, 14, 225, 114, 243, 218, 166, 35, 37, 175, 2, 26, 104, 247, 7, 81, 26] := by decide +kernel
example : sign Real.hashes test1 [] =
    [229, 86, 67, 0, 195, 96, 172, 114, 144, 134, 226, 204, 128, 110, 130, 138, 132, 135, 127, 30, 184, 229, 217, 116, 216, 115, 224, 101, 34, 73, 1, 85, 95, 184, 130, 21, 144, 163, 59, 172, 198, 30, 57, 112, 28, 249, 180, 107, 210, 91, 245, 240, 89, 91, 190, 36, 101, 81, 65, 67, 142, 122, 16, 11] := by decide +kernel

/-- RFC 8032, 7.1, test 2: the key is the hash of the secret, clamped (the chain code plays no part). -/
def test2 : Cardano.XPrv := key
  [104, 189, 158, 215, 88, 130, 213, 40, 21, 169, 117, 133, 202, 244, 121, 10, 127, 108, 107, 59, 127, 130, 28, 94, 37, 154, 36, 176, 46, 80, 46, 81, 69, 102, 132, 130, 145, 218, 202, 242, 37, 204, 99, 222, 179, 72, 218, 49, 142, 44, 46, 23, 176, 11, 129, 96, 249, 206, 107, 250, 4, 114, 145, 29, 0, 0, 0, 0, 0, 0, 0, 0, 0, 0, 0, 0, 0, 0, 0, 0, 0, 0, 0, 0, 0, 0, 0, 0, 0, 0, 0, 0, 0, 0, 0, 0]

example : ((Real.sha512 [76, 205, 8, 155, 40, 255, 150, 218, 157, 182, 195, 70, 236, 17, 78, 15, 91, 138, 49, 159, 53, 171, 166, 36, 218, 140, 246, 237, 79, 184, 166, 251]).drop 1).take 30 = (test2.val.drop 1).take 30 := by decide +kernel
example : pubBytes test2 = [61, 64, 23, 195, 232, 67, 137, 90, 146, 183, 10, 167, 77, 27, 126, 188, 156, 152, 44, 207, 46, 196, 150, 140, 192, 205, 85, 241, 42, 244, 102, 12] := by decide +kernel
example : sign Real.hashes test2 [114] =
    [146, 160, 9, 169, 240, 212, 202, 184, 114, 14, 130, 11, 95, 100, 37, 64, 162, 178, 123, 84, 22, 80, 63, 143, 179, 118, 34, 35, 235, 219, 105, 218, 8, 90, 193, 228, 62, 21, 153, 110, 69, 143, 54, 19, 208, 241, 29, 140, 56, 123, 46, 174, 180, 48, 42, 238, 176, 13, 41, 22, 18, 187, 12, 0] := by decide +kernel

/-- RFC 8032, 7.1, test 3: the key is the hash of the secret, clamped (the chain code plays no part). -/
def test3 : Cardano.XPrv := key
  [144, 154, 139, 117, 94, 217, 2, 132, 144, 35, 165, 91, 21, 194, 61, 17, 186, 77, 127, 78, 197, 194, 245, 27, 19, 37, 161, 129, 153, 30, 169, 92, 102, 8, 200, 102, 107, 156, 222, 35, 37, 245, 57, 215, 216, 51, 134, 254, 129, 135, 198, 190, 97, 216, 167, 12, 36, 113, 144, 214, 78, 223, 95, 30, 0, 0, 0, 0, 0, 0, 0, 0, 0, 0, 0, 0, 0, 0, 0, 0, 0, 0, 0, 0, 0, 0, 0, 0, 0, 0, 0, 0, 0, 0, 0, 0]

example : ((Real.sha512 [197, 170, 141, 244, 63, 159, 131, 123, 237, 183, 68, 47, 49, 220, 183, 177, 102, 211, 133, 53, 7, 111, 9, 75, 133, 206, 58, 46, 11, 68, 88, 247]).drop 1).take 30 = (test3.val.drop 1).take 30 := by decide +kernel
example : pubBytes test3 = [252, 81, 205, 142, 98, 24, 161, 163, 141, 164, 126, 208, 2, 48, 240, 88, 8, 22, 237, 19, 186, 51, 3, 172, 93, 235, 145, 21, 72, 144, 128, 37] := by decide +kernel
example : sign Real.hashes test3 [175, 130] =
    [98, 145, 214, 87, 222, 236, 36, 2, 72, 39, 230, 156, 58, 190, 1, 163, 12, 229, 72, 162, 132, 116, 58, 68, 94, 54, 128, 215, 219, 90, 195, 172, 24, 255, 155, 83, 141, 22, 242, 144, 174, 103, 247, 96, 152, 77, 198, 89, 74, 124, 21, 233, 113, 110, 210, 141, 192, 39, 190, 206, 234, 30, 196, 10] := by decide +kernel

/-- The key of the tests of `ed25519-bip32`. -/
def d1 : Cardano.XPrv := key
  [248, 162, 146, 49, 238, 56, 214, 197, 191, 113, 93, 91, 172, 33, 199, 80, 87, 122, 163, 121, 139, 34, 215, 157, 101, 191, 151, 214, 250, 222, 161, 90, 220, 209, 238, 26, 189, 247, 139, 212, 190, 100, 115, 26, 18, 222, 185, 77, 54, 113, 120, 65, 18, 235, 111, 54, 75, 135, 24, 81, 253, 28, 154, 36, 115, 132, 219, 154, 214, 0, 59, 189, 8, 179, 177, 221, 192, 208, 122, 89, 114, 147, 255, 133, 233, 97, 191, 37, 43, 51, 18, 98, 237, 223, 173, 13]

/-- Its child 0x80000000. -/
def d1h0 : Bytes :=
  [96, 211, 153, 218, 131, 239, 128, 216, 212, 248, 210, 35, 35, 158, 253, 194, 184, 254, 243, 135, 225, 181, 33, 145, 55, 255, 180, 232, 251, 222, 161, 90, 220, 147, 102, 183, 208, 3, 175, 55, 193, 19, 150, 222, 154, 131, 115, 78, 48, 224, 94, 133, 30, 250, 50, 116, 92, 156, 215, 180, 39, 18, 200, 144, 96, 135, 99, 119, 14, 221, 247, 114, 72, 171, 101, 41, 132, 178, 27, 132, 151, 96, 209, 218, 116, 166, 245, 189, 99, 60, 228, 26, 220, 238, 240, 122]

theorem d1_h0 : deriveBytes Real.hashes d1 0x80000000 = d1h0 := by decide +kernel

/-! Verifying, and refusing a changed signature. -/

example : verify Real.hashes (fun s => decide (s < Spec.Ed25519.l)) test2 [114] (sign Real.hashes test2 [114]) = true := by decide +kernel
example : verify Real.hashes (fun s => decide (s < Spec.Ed25519.l)) test2 [115] (sign Real.hashes test2 [114]) = false := by decide +kernel

end KC.Real.Ed25519
