import Verif.Spec.VecYuy2
/-! # What the NEON decoders of packed 4:2:2 really write -/
namespace Verif.Spec

/-- The pixel of column `x`, row `y`.  The vector code takes the first columns, in steps of 16, and leaves at
least one; there luma below the offset counts as the offset, and a result half way between two values is
rounded up instead of down. -/
def neonYuyPixel (t : Yuy2) (ch : Channels) (i : Packed) (rg : YuvRange) (m : Matrix) (x y : Nat) : Buf :=
  if x < (i.width - 1) / 16 * 16 then
    fixedPixel (2 ^ 5) 6 8 (computedInverse 6 8 rg m) ch rg (max (Packed.Y t i x y) (getYuvRange 8 rg).biasY)
      (Packed.U t i x y) (Packed.V t i x y)
  else
    fixedPixel (2 ^ 5 - 1) 6 8 (computedInverse 6 8 rg m) ch rg (Packed.Y t i x y) (Packed.U t i x y)
      (Packed.V t i x y)

end Verif.Spec
