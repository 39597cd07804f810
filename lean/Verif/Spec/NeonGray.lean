import Verif.Spec.NeonEncode
/-!
# Specification of the grey encoder with NEON
-/
namespace Verif.Spec

/-- Luma as the code without the rounding multiply-accumulate instructions computes it: the offset is not
scaled like the products, and the result is rounded down. -/
def rawLuma (ch : Channels) (rg : YuvRange) (m : Matrix) (px : Buf) : Nat :=
  let t := searchForward 13 8 rg m
  low8 ((red ch px * t.yr + green ch px * t.yg + blue ch px * t.yb + (getYuvRange 8 rg).biasY) / 2 ^ 13)

/-- The luma sample stored in column `x` of a row of `w` pixels: groups of eight pixels are computed by the
vector code, the last pixels, one to eight, by the portable code. -/
def neonGrayLuma (rdm : Bool) (ch : Channels) (rg : YuvRange) (m : Matrix) (w x : Nat) (px : Buf) : Nat :=
  if x < 8 * ((w - 1) / 8) then (if rdm then (neonVals true ch rg m).y px else rawLuma ch rg m px)
  else luma8 13 ch rg m px

end Verif.Spec
