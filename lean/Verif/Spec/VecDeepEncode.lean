import Verif.Spec.DeepEncode
import Verif.Spec.VecNvDeep
/-!
# Specification of the x86 encoding arithmetic of 10- to 16-bit images
-/
namespace Verif.Spec

/-- One row of the forward matrix in the vector code: the sum of `encVal` at precision 15, wrapped to 32
bits before the shift, saturated to 16 bits after it. -/
def sumWord (bias : Nat) (k : Int × Int × Int) (r g b : Nat) : Nat :=
  saturate 16 (int32 (r * k.1 + g * k.2.1 + b * k.2.2 + (bias * 2 ^ 15 + (2 ^ 14 - 1))) / 2 ^ 15)

/-- The component a chroma sample is computed from, given the components of the pixels it covers, row by
row: two are averaged, halves up; of four the two of each column are averaged first, then the two
averages. -/
def vecMean : List Nat → Nat
  | [a] => a
  | [a, b] => (a + b + 1) / 2
  | [a, b, c, d] => ((a + c + 1) / 2 + (b + d + 1) / 2 + 1) / 2
  | _ => 0

/-- Luma at depth `d` of a red, a green and a blue component. -/
def vecLumaOf (d : Nat) (rg : YuvRange) (m : Matrix) (r g b : Nat) : Nat :=
  let t := searchForward 15 d rg m
  sumWord (getYuvRange d rg).biasY (t.yr, t.yg, t.yb) r g b
/-- Luma of a pixel at depth `d`. -/
def vecDeepLuma (d : Nat) (ch : Channels) (rg : YuvRange) (m : Matrix) (px : Buf) : Nat :=
  vecLumaOf d rg m (red ch px) (green ch px) (blue ch px)
/-- Luma of the red and blue of a pixel and of the green of the pixel above it. -/
def mixedDeepLuma (d : Nat) (ch : Channels) (rg : YuvRange) (m : Matrix) (above px : Buf) : Nat :=
  vecLumaOf d rg m (red ch px) (green ch above) (blue ch px)
/-- Cb of a block of pixels. -/
def vecDeepCb (d : Nat) (ch : Channels) (rg : YuvRange) (m : Matrix) (blk : List Buf) : Nat :=
  let t := searchForward 15 d rg m
  sumWord (getYuvRange d rg).biasUv (t.cbR, t.cbG, t.cbB) (vecMean (blk.map (red ch)))
    (vecMean (blk.map (green ch))) (vecMean (blk.map (blue ch)))
/-- Cr of a block of pixels. -/
def vecDeepCr (d : Nat) (ch : Channels) (rg : YuvRange) (m : Matrix) (blk : List Buf) : Nat :=
  let t := searchForward 15 d rg m
  sumWord (getYuvRange d rg).biasUv (t.crR, t.crG, t.crB) (vecMean (blk.map (red ch)))
    (vecMean (blk.map (green ch))) (vecMean (blk.map (blue ch)))

end Verif.Spec
