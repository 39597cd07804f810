import Verif.Spec.VecEncode
import Verif.Spec.Gray
/-!
# Specification of the x86 grey converters
-/
namespace Verif.Spec

/-- The grey level the kernels compute from the luma above its offset, limited range. -/
def vecGray (m : Matrix) (yo : Nat) : Nat :=
  byteSat (mulRound (expand10 yo) (searchInverse 13 8 .limited m).y)

/-- The grey level of a luma sample in limited range. -/
def vecGrayLevel (m : Matrix) (y : Nat) : Nat := vecGray m (y - (getYuvRange 8 .limited).biasY)

/-- The grey level of a luma sample in the 8-pixel steps of the SSE kernels, limited range. -/
def vecGraySigned (m : Matrix) (y : Nat) : Nat :=
  vecGray m (signedLuma (getYuvRange 8 .limited).biasY y)

/-- The level in column `x` of a row of `w` pixels decoded by the SSE kernel: 16 pixels at a time
while more than 16 remain, then steps of 8. -/
def sseGrayLevel (m : Matrix) (w x y : Nat) : Nat :=
  if x < 16 * ((w - 1) / 16) then vecGrayLevel m y else vecGraySigned m y

/-- The level in column `x` of a row of `w` pixels decoded by the kernels for images with alpha (both
AVX2 and SSE4.1): 16 pixels at a time while more than 16 remain, 8 more if more than 8 remain, the
scalar code does the rest. -/
def vecGrayAlphaLevel (m : Matrix) (w x y : Nat) : Nat :=
  if x < 16 * ((w - 1) / 16) then vecGrayLevel m y
  else if x < 8 * ((w - 1) / 8) then vecGraySigned m y
  else grayLevel 8 .limited m y

/-- The luma sample in column `x` of a row of `w` pixels encoded by the AVX2 kernel: 32 pixels at a
time while more than 32 remain, then 16 at a time, of which the last 8 are lost. -/
def avx2ToGrayLuma (ch : Channels) (rg : YuvRange) (m : Matrix) (w x : Nat) (px : Buf) : Nat :=
  if 32 * ((w - 1) / 32) ≤ x ∧ 8 ≤ x % 16 then 0 else vecLuma ch rg m px

end Verif.Spec
