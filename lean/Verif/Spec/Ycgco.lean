import Verif.Spec.Encode
import Verif.Spec.Itu
import Verif.Spec.Alpha
import Verif.Model.Ycgco
/-!
# Specification of YCgCo

H.273 equations for MatrixCoefficients 8: `Y = (R + 2G + B) / 4`, `Cg = (2G - R - B) / 4`,
`Co = (R - B) / 2`, scaled and offset like luma and chroma of the other matrices.
-/
namespace Verif.Spec

/-- Exact luma code value of an RGB triple. -/
def ycgY (d : Nat) (rg : YuvRange) (r g b : Rat) : Rat :=
  offY d rg + gainY d rg * ((r + 2 * g + b) / 4 / maxV d)
/-- Exact Cg code value. -/
def ycgCg (d : Nat) (rg : YuvRange) (r g b : Rat) : Rat :=
  offC d + gainC d rg * ((2 * g - r - b) / 4 / maxV d)
/-- Exact Co code value. -/
def ycgCo (d : Nat) (rg : YuvRange) (r _g b : Rat) : Rat :=
  offC d + gainC d rg * ((r - b) / 2 / maxV d)

/-- Exact components of a Y/Cg/Co triple: `R = Y - Cg + Co`, `G = Y + Cg`, `B = Y - Cg - Co`. -/
def ycgR (d : Nat) (rg : YuvRange) (y cg co : Rat) : Rat :=
  maxV d * (normY d rg y - normC d rg cg + normC d rg co)
def ycgG (d : Nat) (rg : YuvRange) (y cg _co : Rat) : Rat :=
  maxV d * (normY d rg y + normC d rg cg)
def ycgB (d : Nat) (rg : YuvRange) (y cg co : Rat) : Rat :=
  maxV d * (normY d rg y - normC d rg cg - normC d rg co)

/-- Rounding to nearest (ties down) after 13 fraction bits, saturated to depth `d`. -/
def cgcoSat (d : Nat) (x : Int) : Nat := (max (min ((x + 4095) / 8192) (2 ^ d - 1)) 0).toNat

/-- Luma and chroma of a sample, as 13-bit fixed-point differences from their offsets. -/
def cgcoLumaPart (d : Nat) (rg : YuvRange) (y : Nat) : Int :=
  ((y : Int) - (getYuvRange d rg).biasY) * cgcoInv d (getYuvRange d rg).rangeY
def cgcoChromaPart (d : Nat) (rg : YuvRange) (c : Nat) : Int :=
  ((c : Int) - (getYuvRange d rg).biasUv) * cgcoInv d (getYuvRange d rg).rangeUv

/-- Decoded red, green and blue of a Y/Cg/Co triple. -/
def cgcoR (d : Nat) (rg : YuvRange) (y u v : Nat) : Nat :=
  cgcoSat d (cgcoLumaPart d rg y - cgcoChromaPart d rg u + cgcoChromaPart d rg v)
def cgcoG (d : Nat) (rg : YuvRange) (y u _v : Nat) : Nat :=
  cgcoSat d (cgcoLumaPart d rg y + cgcoChromaPart d rg u)
def cgcoB (d : Nat) (rg : YuvRange) (y u v : Nat) : Nat :=
  cgcoSat d (cgcoLumaPart d rg y - cgcoChromaPart d rg u - cgcoChromaPart d rg v)

/-- The decoded pixel with alpha `a`. -/
def cgcoPixel (d : Nat) (ch : Channels) (rg : YuvRange) (a y u v : Nat) : Buf :=
  layout ch (cgcoR d rg y u v) (cgcoG d rg y u v) (cgcoB d rg y u v) a

/-- Fixed-point luma of an RGB triple whose components are scaled by `k`. -/
def cgcoYVal (k : Int) (bias r g b : Nat) : Int :=
  (g * k / 2 + (r * k + b * k) / 4 + (bias * 8192 + 4095)) / 8192
/-- Fixed-point Cg and Co of an RGB triple whose components are scaled by `kr`, `kg`, `kb`. -/
def cgcoCgVal (kr kg kb : Int) (bias r g b : Nat) : Int :=
  (g * kg / 2 - (r * kr + b * kb) / 4 + (bias * 8192 + 4095)) / 8192
def cgcoCoVal (kr kb : Int) (bias r b : Nat) : Int :=
  ((r * kr - b * kb) / 2 + (bias * 8192 + 4095)) / 8192

/-- Luma factor and chroma factor of a range. -/
def cgcoKY (rg : YuvRange) : Int := cgcoFwd (getYuvRange 8 rg).rangeY
def cgcoKC (rg : YuvRange) : Int := cgcoFwd (getYuvRange 8 rg).rangeUv

/-- The factors for red, green and blue in a chroma sample made of `n` pixels. -/
def cgcoScale (s : Sampling) (rg : YuvRange) (n : Nat) : Int × Int × Int :=
  if n = 1 then
    match s with
    | .yuv444 => (cgcoKY rg, cgcoKY rg, cgcoKY rg)
    | _ => (cgcoKY rg, cgcoKC rg, cgcoKC rg)
  else (cgcoKC rg, cgcoKC rg, cgcoKC rg)

/-- Stored luma of an RGB triple. -/
def cgcoY8 (rg : YuvRange) (r g b : Nat) : Nat :=
  low8 (cgcoYVal (cgcoKY rg) (getYuvRange 8 rg).biasY r g b)
/-- Stored Cg and Co of an RGB triple averaged from `n` pixels. -/
def cgcoCg8 (s : Sampling) (rg : YuvRange) (n r g b : Nat) : Nat :=
  let k := cgcoScale s rg n
  low8 (cgcoCgVal k.1 k.2.1 k.2.2 (getYuvRange 8 rg).biasUv r g b)
def cgcoCo8 (s : Sampling) (rg : YuvRange) (n r b : Nat) : Nat :=
  let k := cgcoScale s rg n
  low8 (cgcoCoVal k.1 k.2.2 (getYuvRange 8 rg).biasUv r b)

end Verif.Spec
