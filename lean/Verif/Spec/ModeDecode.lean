import Verif.Spec.Frame
import Verif.Spec.VecDeep
/-!
# What the professional and fast semi-planar decoders compute on x86 processors
-/
namespace Verif.Spec

/-- Professional mode: the fixed-point decoding of precision 14, with luma below black taken as black
and the coefficient of red reduced to 16 bits. -/
def profDecoded (t : InvCoef) (biasY y u v : Nat) : Nat × Nat × Nat :=
  decodeRGB 14 8 { t with cr := int16 t.cr } biasY 128 (max y biasY) u v

/-- The pixel of the professional mode. -/
def profDecodedPixel (ch : Channels) (rg : YuvRange) (m : Matrix) (y u v : Nat) : Buf :=
  let c := profDecoded (searchInverse 14 8 rg m) (getYuvRange 8 rg).biasY y u v
  layout ch c.1 c.2.1 c.2.2 255

/-- Fast mode: coefficients of precision 6, 16-bit sums that wrap, no rounding. -/
def fastDecoded (t : InvCoef) (biasY y u v : Nat) : Nat × Nat × Nat :=
  let sat := fun s : Int => (max (min (int16 s / 2 ^ 6) 255) 0).toNat
  let dy := ((y - biasY : Nat) : Int) * t.y
  let cb := (u : Int) - 128
  let cr := (v : Int) - 128
  (sat (dy + t.cr * cr), sat (dy - (t.g1 * cr + t.g2 * cb)), sat (dy + t.cb * cb))

/-- The pixel of the fast mode. -/
def fastDecodedPixel (ch : Channels) (rg : YuvRange) (m : Matrix) (y u v : Nat) : Buf :=
  let c := fastDecoded (searchInverse 6 8 rg m) (getYuvRange 8 rg).biasY y u v
  layout ch c.1 c.2.1 c.2.2 255

end Verif.Spec
