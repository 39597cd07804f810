import Verif.Spec.Deep
import Verif.Spec.Shuffle
/-!
# Specification of the decoders to 30-bit RGB
-/
namespace Verif.Spec

/-- A component of a sample triple of depth `d`, from its 14-bit fixed-point value `s`: rounded to 10
bits (ties down) and saturated to `[0, 1023]`. -/
def ar30Comp (d : Nat) (s : Int) : Nat := saturate 10 (roundShift (2 ^ (d + 3) - 1) (d + 4) s)

/-- Red, green and blue of a sample triple of depth `d` in 10 bits. -/
def ar30R (d : Nat) (rg : YuvRange) (m : Matrix) (y v : Nat) : Nat :=
  let c := getYuvRange d rg
  ar30Comp d (linR (searchInverse 14 d rg m) c.biasY c.biasUv y v)
def ar30G (d : Nat) (rg : YuvRange) (m : Matrix) (y u v : Nat) : Nat :=
  let c := getYuvRange d rg
  ar30Comp d (linG (searchInverse 14 d rg m) c.biasY c.biasUv y u v)
def ar30B (d : Nat) (rg : YuvRange) (m : Matrix) (y u : Nat) : Nat :=
  let c := getYuvRange d rg
  ar30Comp d (linB (searchInverse 14 d rg m) c.biasY c.biasUv y u)

/-- The four bytes of the pixel: every component in its own 10-bit field, opaque alpha. -/
def ar30Pixel (h : HostOrder) (o : ByteOrder30) (l : Rgb30) (d : Nat) (rg : YuvRange) (m : Matrix)
    (y u v : Nat) : Buf :=
  pixel30 h o l (ar30R d rg m y v) (ar30G d rg m y u v) (ar30B d rg m y u) 3

end Verif.Spec
