import Verif.Spec.ModeDecode
/-!
# What the fast semi-planar decoders compute on 64-bit ARM

In the professional mode they compute `profDecodedPixel`, as on x86 processors.
-/
namespace Verif.Spec

/-- Fast mode: coefficients of precision 6, 16-bit sums that wrap, rounded to nearest with ties up. -/
def neonFastDecoded (t : InvCoef) (biasY y u v : Nat) : Nat × Nat × Nat :=
  let sat := fun s : Int => (max (min ((int16 s + 32) / 2 ^ 6) 255) 0).toNat
  let dy := ((y - biasY : Nat) : Int) * t.y
  let cb := (u : Int) - 128
  let cr := (v : Int) - 128
  (sat (dy + t.cr * cr), sat (dy - (t.g1 * cr + t.g2 * cb)), sat (dy + t.cb * cb))

/-- The pixel of the fast mode. -/
def neonFastPixel (ch : Channels) (rg : YuvRange) (m : Matrix) (y u v : Nat) : Buf :=
  let c := neonFastDecoded (searchInverse 6 8 rg m) (getYuvRange 8 rg).biasY y u v
  layout ch c.1 c.2.1 c.2.2 255

end Verif.Spec
