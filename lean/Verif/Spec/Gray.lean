import Verif.Spec.PixelMap
import Verif.Spec.Encode
/-!
# Specification of the grey converters
-/
namespace Verif.Spec

/-- A grey image whose samples are below `B`. -/
structure GoodGray (i : Gray) (B : Nat) : Prop where
  wpos : 0 < i.width
  hpos : 0 < i.height
  w32 : U32 i.width
  h32 : U32 i.height
  y : GoodPlane i.y i.yStride i.width i.height B

/-- A grey image with an alpha plane. -/
structure GoodGrayAlpha (i : GrayAlpha) (B : Nat) : Prop where
  wpos : 0 < i.width
  hpos : 0 < i.height
  w32 : U32 i.width
  h32 : U32 i.height
  y : GoodPlane i.y i.yStride i.width i.height B
  a : GoodPlane i.a i.aStride i.width i.height B

/-- The grey level of a luma sample at depth `d`: the sample itself in full range, the sample
expanded with the luma coefficient of the matrix, rounded and saturated, in limited range. -/
def grayLevel (d : Nat) (rg : YuvRange) (m : Matrix) (y : Nat) : Nat :=
  match rg with
  | .full => y
  | .limited =>
    (max (min ((((y : Int) - (getYuvRange d .limited).biasY) * (searchInverse 13 d .limited m).y
      + (2 ^ 12 - 1)) / 2 ^ 13) (2 ^ d - 1)) 0).toNat

end Verif.Spec
