import Verif.Model.Support
/-!
# Specification: the ITU-R (H.273) colour equations, over the rationals

`kr`, `kb` are the decimal weights the crate assigns to each matrix name;
`h273Kr`, `h273Kb` are the weights H.273 (table 4) publishes for that name. They
agree except for SMPTE 240 (exchanged in the crate) and BT.470 System B/G: see C49 in
`Props/Coefficients.lean`. Sample values are normalised
as in H.273 (8.3): luma by offset 16·2^(n-8) and gain 219·2^(n-8), chroma by
offset 2^(n-1) and gain 224·2^(n-8) in limited ("narrow") range; gain 2^n-1 and
luma offset 0 in full range.
-/
namespace Verif.Spec

/-- `K_R` of each named matrix. -/
def kr : Matrix → Rat
  | .bt601 => 299 / 1000 | .bt709 => 2126 / 10000 | .bt2020 => 2627 / 10000
  | .smpte240 => 87 / 1000 | .bt470_6 => 222 / 1000 | .fcc => 30 / 100

/-- `K_B` of each named matrix. -/
def kb : Matrix → Rat
  | .bt601 => 114 / 1000 | .bt709 => 722 / 10000 | .bt2020 => 593 / 10000
  | .smpte240 => 212 / 1000 | .bt470_6 => 713 / 10000 | .fcc => 11 / 100

/-- `K_R` as published in H.273 table 4 (MatrixCoefficients 6, 1, 9, 7, 5, 4). -/
def h273Kr : Matrix → Rat
  | .bt601 => 299 / 1000 | .bt709 => 2126 / 10000 | .bt2020 => 2627 / 10000
  | .smpte240 => 212 / 1000 | .bt470_6 => 299 / 1000 | .fcc => 30 / 100

/-- `K_B` as published in H.273 table 4. -/
def h273Kb : Matrix → Rat
  | .bt601 => 114 / 1000 | .bt709 => 722 / 10000 | .bt2020 => 593 / 10000
  | .smpte240 => 87 / 1000 | .bt470_6 => 114 / 1000 | .fcc => 11 / 100

/-- `K_G = 1 - K_R - K_B`. -/
def kg (m : Matrix) : Rat := 1 - kr m - kb m

/-- Luma offset. -/
def offY (d : Nat) : YuvRange → Rat
  | .limited => 16 * 2 ^ (d - 8) | .full => 0
/-- Chroma offset. -/
def offC (d : Nat) : Rat := 2 ^ (d - 1)
/-- Luma gain. -/
def gainY (d : Nat) : YuvRange → Rat
  | .limited => 219 * 2 ^ (d - 8) | .full => 2 ^ d - 1
/-- Chroma gain. -/
def gainC (d : Nat) : YuvRange → Rat
  | .limited => 224 * 2 ^ (d - 8) | .full => 2 ^ d - 1
/-- Largest code value of a full-scale component. -/
def maxV (d : Nat) : Rat := 2 ^ d - 1

/-- Normalised luma of code value `y`. -/
def normY (d : Nat) (r : YuvRange) (y : Rat) : Rat := (y - offY d r) / gainY d r
/-- Normalised chroma of code value `c`. -/
def normC (d : Nat) (r : YuvRange) (c : Rat) : Rat := (c - offC d) / gainC d r

/-- Exact red component (in code values of depth `d`) of a Y/Cb/Cr triple. -/
def exactR (d : Nat) (r : YuvRange) (m : Matrix) (y _cb cr : Rat) : Rat :=
  maxV d * (normY d r y + 2 * (1 - kr m) * normC d r cr)
/-- Exact blue component. -/
def exactB (d : Nat) (r : YuvRange) (m : Matrix) (y cb _cr : Rat) : Rat :=
  maxV d * (normY d r y + 2 * (1 - kb m) * normC d r cb)
/-- Exact green component. -/
def exactG (d : Nat) (r : YuvRange) (m : Matrix) (y cb cr : Rat) : Rat :=
  maxV d * (normY d r y - 2 * (1 - kr m) * kr m / kg m * normC d r cr
    - 2 * (1 - kb m) * kb m / kg m * normC d r cb)

/-- Exact normalised luma of an RGB triple of depth `d`: `K_R R + K_G G + K_B B`. -/
def exactLuma (d : Nat) (m : Matrix) (r g b : Rat) : Rat :=
  (kr m * r + kg m * g + kb m * b) / maxV d
/-- Exact luma code value. -/
def exactY (d : Nat) (rg : YuvRange) (m : Matrix) (r g b : Rat) : Rat :=
  offY d rg + gainY d rg * exactLuma d m r g b
/-- Exact Cb code value: `(B - Y) / (2 (1 - K_B))`. -/
def exactCb (d : Nat) (rg : YuvRange) (m : Matrix) (r g b : Rat) : Rat :=
  offC d + gainC d rg * ((b / maxV d - exactLuma d m r g b) / (2 * (1 - kb m)))
/-- Exact Cr code value: `(R - Y) / (2 (1 - K_R))`. -/
def exactCr (d : Nat) (rg : YuvRange) (m : Matrix) (r g b : Rat) : Rat :=
  offC d + gainC d rg * ((r / maxV d - exactLuma d m r g b) / (2 * (1 - kr m)))

/-- Saturation of a real component to `[0, 2^d - 1]`. -/
def satQ (d : Nat) (x : Rat) : Rat := max 0 (min x (maxV d))

/-- Bit depths the crate supports. -/
def Depth (d : Nat) : Prop := d = 8 ∨ d = 10 ∨ d = 12 ∨ d = 14 ∨ d = 16

/-- Fixed-point precisions the crate uses somewhere. -/
def Prec (p : Nat) : Prop := p = 6 ∨ p = 7 ∨ p = 13 ∨ p = 14 ∨ p = 15

end Verif.Spec

namespace Verif.Spec

/-! ## The exact coefficients of the two linear maps -/

/-- Coefficient of `Y - offset` in R, G and B. -/
def invY (d : Nat) (r : YuvRange) : Rat := maxV d / gainY d r
/-- Coefficient of `Cr - offset` in R. -/
def invCr (d : Nat) (r : YuvRange) (m : Matrix) : Rat := 2 * (1 - kr m) * (maxV d / gainC d r)
/-- Coefficient of `Cb - offset` in B. -/
def invCb (d : Nat) (r : YuvRange) (m : Matrix) : Rat := 2 * (1 - kb m) * (maxV d / gainC d r)
/-- Minus the coefficient of `Cr - offset` in G. -/
def invG1 (d : Nat) (r : YuvRange) (m : Matrix) : Rat :=
  2 * (1 - kr m) * kr m / kg m * (maxV d / gainC d r)
/-- Minus the coefficient of `Cb - offset` in G. -/
def invG2 (d : Nat) (r : YuvRange) (m : Matrix) : Rat :=
  2 * (1 - kb m) * kb m / kg m * (maxV d / gainC d r)

/-- Coefficients of R, G, B in `Y - offset`. -/
def fwdYR (d : Nat) (r : YuvRange) (m : Matrix) : Rat := kr m * (gainY d r / maxV d)
def fwdYG (d : Nat) (r : YuvRange) (m : Matrix) : Rat := kg m * (gainY d r / maxV d)
def fwdYB (d : Nat) (r : YuvRange) (m : Matrix) : Rat := kb m * (gainY d r / maxV d)
/-- Coefficients of R, G, B in `Cb - offset`. -/
def fwdCbR (d : Nat) (r : YuvRange) (m : Matrix) : Rat :=
  -(kr m / (2 * (1 - kb m)) * (gainC d r / maxV d))
def fwdCbG (d : Nat) (r : YuvRange) (m : Matrix) : Rat :=
  -(kg m / (2 * (1 - kb m)) * (gainC d r / maxV d))
def fwdCbB (d : Nat) (r : YuvRange) : Rat := 1 / 2 * (gainC d r / maxV d)
/-- Coefficients of R, G, B in `Cr - offset`. -/
def fwdCrR (d : Nat) (r : YuvRange) : Rat := 1 / 2 * (gainC d r / maxV d)
def fwdCrG (d : Nat) (r : YuvRange) (m : Matrix) : Rat :=
  -(kg m / (2 * (1 - kr m)) * (gainC d r / maxV d))
def fwdCrB (d : Nat) (r : YuvRange) (m : Matrix) : Rat :=
  -(kb m / (2 * (1 - kr m)) * (gainC d r / maxV d))

/-- The integer coefficient `c` is the real coefficient `q` scaled by `2^p` and
rounded to a nearest integer. -/
def NearestCoef (p : Nat) (c : Int) (q : Rat) : Prop :=
  (c : Rat) - q * 2 ^ p ≤ 1 / 2 ∧ q * 2 ^ p - (c : Rat) ≤ 1 / 2

instance (p : Nat) (c : Int) (q : Rat) : Decidable (NearestCoef p c q) := by
  unfold NearestCoef; infer_instance

end Verif.Spec
