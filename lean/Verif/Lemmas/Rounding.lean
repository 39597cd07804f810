import Verif.Lemmas.Kernels
import Verif.Props.Coefficients
import Mathlib.Tactic.Positivity
/-! # Rounding shifts and saturation, against rational arithmetic -/
namespace Verif
open Spec

theorem two_pow_split {p : Nat} (hp : 0 < p) : (2 : Int) ^ p = 2 * 2 ^ (p - 1) := by
  obtain ⟨k, rfl⟩ : ∃ k, p = k + 1 := ⟨p - 1, by omega⟩
  rw [Nat.add_sub_cancel, pow_succ]; ring

theorem one_le_two_pow (k : Nat) : (1 : Int) ≤ 2 ^ k := by
  have := Nat.pow_le_pow_right (show 0 < 2 by decide) (show 0 ≤ k by omega)
  exact_mod_cast this

/-- `n` is a nearest integer to `v / 2^p`. -/
def NearestShift (p : Nat) (n v : Int) : Prop :=
  2 * (n * 2 ^ p - v) ≤ 2 ^ p ∧ 2 * (v - n * 2 ^ p) ≤ 2 ^ p

theorem floor_bounds (a : Int) {b : Int} (hb : 0 < b) : a / b * b ≤ a ∧ a < a / b * b + b := by
  have h1 := Int.mul_ediv_add_emod a b
  have h2 := Int.emod_nonneg a (show b ≠ 0 by omega)
  have h3 := Int.emod_lt_of_pos a hb
  rw [Int.mul_comm] at h1
  omega

theorem shift_near_down {p : Nat} (hp : 0 < p) (v : Int) :
    NearestShift p ((v + (2 ^ (p - 1) - 1)) / 2 ^ p) v := by
  have h1 := one_le_two_pow (p - 1)
  have h2 := two_pow_split hp
  have h3 := floor_bounds (v + (2 ^ (p - 1) - 1)) (b := 2 ^ p) (by omega)
  unfold NearestShift
  omega

theorem shift_near_up {p : Nat} (hp : 0 < p) (v : Int) :
    NearestShift p ((v + 2 ^ (p - 1)) / 2 ^ p) v := by
  have h1 := one_le_two_pow (p - 1)
  have h2 := two_pow_split hp
  have h3 := floor_bounds (v + 2 ^ (p - 1)) (b := 2 ^ p) (by omega)
  unfold NearestShift
  omega

/-- Saturation of an integer. -/
def satI (d : Nat) (n : Int) : Int := max (min n (2 ^ d - 1)) 0

theorem satI_range (d : Nat) (n : Int) : 0 ≤ satI d n ∧ satI d n ≤ 2 ^ d - 1 := by
  have := one_le_two_pow d
  unfold satI; omega

theorem satI_cast (d : Nat) (n : Int) : ((satI d n : Int) : Rat) = satQ d (n : Rat) := by
  unfold satI satQ maxV
  rw [max_comm]
  push_cast
  rfl

theorem satQ_lipschitz (d : Nat) (a b : Rat) : |satQ d a - satQ d b| ≤ |a - b| := by
  unfold satQ
  calc |max 0 (min a (maxV d)) - max 0 (min b (maxV d))|
      ≤ |min a (maxV d) - min b (maxV d)| := abs_max_sub_max_le_abs' _ _ _
    _ ≤ |a - b| := abs_min_sub_min_le_abs' _ _ _
where
  abs_max_sub_max_le_abs' (c a b : Rat) : |max c a - max c b| ≤ |a - b| := by
    rcases le_total c a with h1 | h1 <;> rcases le_total c b with h2 | h2 <;>
      simp only [max_eq_left, max_eq_right, h1, h2] <;>
      rw [abs_le] <;> constructor <;>
      rcases abs_cases (a - b) with ⟨h, _⟩ | ⟨h, _⟩ <;> rw [h] <;> linarith
  abs_min_sub_min_le_abs' (a b c : Rat) : |min a c - min b c| ≤ |a - b| := by
    rcases le_total a c with h1 | h1 <;> rcases le_total b c with h2 | h2 <;>
      simp only [min_eq_left, min_eq_right, h1, h2] <;>
      rw [abs_le] <;> constructor <;>
      rcases abs_cases (a - b) with ⟨h, _⟩ | ⟨h, _⟩ <;> rw [h] <;> linarith

/-- A value in range is its own saturation. -/
theorem satQ_id {d : Nat} {x : Rat} (h0 : 0 ≤ x) (h1 : x ≤ maxV d) : satQ d x = x := by
  unfold satQ; rw [min_eq_left h1, max_eq_right h0]

theorem near_rat {p : Nat} {n v : Int} (h : NearestShift p n v) :
    |(n : Rat) - v / 2 ^ p| ≤ 1 / 2 := by
  obtain ⟨h1, h2⟩ := h
  have hp : (0 : Rat) < 2 ^ p := by positivity
  have h1' : 2 * ((n : Rat) * 2 ^ p - v) ≤ 2 ^ p := by exact_mod_cast h1
  have h2' : 2 * ((v : Rat) - n * 2 ^ p) ≤ 2 ^ p := by exact_mod_cast h2
  have e : (n : Rat) - v / 2 ^ p = (n * 2 ^ p - v) / 2 ^ p := by field_simp
  rw [e, abs_le]
  constructor
  · rw [le_div_iff₀ hp]; linarith
  · rw [div_le_iff₀ hp]; linarith

/-- Error of one product when the integer coefficient is a nearest one. -/
theorem coef_err {p : Nat} {c : Int} {q x X : Rat} (h : NearestCoef p c q) (hx : |x| ≤ X) :
    |(c : Rat) * x / 2 ^ p - q * x| ≤ X / (2 * 2 ^ p) := by
  obtain ⟨h1, h2⟩ := h
  have hp : (0 : Rat) < 2 ^ p := by positivity
  have e : (c : Rat) * x / 2 ^ p - q * x = ((c - q * 2 ^ p) * x) / 2 ^ p := by field_simp
  have hc : |(c : Rat) - q * 2 ^ p| ≤ 1 / 2 := by rw [abs_le]; constructor <;> linarith
  rw [e, abs_div, abs_of_pos hp, abs_mul, div_le_div_iff₀ hp (by positivity)]
  have h3 : |(c : Rat) - q * 2 ^ p| * |x| ≤ 1 / 2 * X :=
    mul_le_mul hc hx (abs_nonneg _) (by norm_num)
  have := mul_le_mul_of_nonneg_right h3 (show (0 : Rat) ≤ 2 * 2 ^ p by positivity)
  linarith

theorem sat_close {d p : Nat} {n v : Int} {E D : Rat} (h : NearestShift p n v)
    (hE : |(v : Rat) / 2 ^ p - E| ≤ D) : |((satI d n : Int) : Rat) - satQ d E| ≤ 1 / 2 + D := by
  rw [satI_cast]
  refine le_trans (satQ_lipschitz d _ _) ?_
  have h1 := near_rat h
  calc |(n : Rat) - E| = |((n : Rat) - v / 2 ^ p) + ((v : Rat) / 2 ^ p - E)| := by ring_nf
    _ ≤ |(n : Rat) - v / 2 ^ p| + |(v : Rat) / 2 ^ p - E| := abs_add_le _ _
    _ ≤ 1 / 2 + D := add_le_add h1 hE

/-! ## The exact decoder and encoder as linear maps with the exact coefficients -/

theorem exactR_eq {d : Nat} (r : YuvRange) (m : Matrix) (y cb cr : Rat) :
    exactR d r m y cb cr = invY d r * (y - offY d r) + invCr d r m * (cr - offC d) := by
  unfold exactR invY invCr normY normC; ring
theorem exactB_eq {d : Nat} (r : YuvRange) (m : Matrix) (y cb cr : Rat) :
    exactB d r m y cb cr = invY d r * (y - offY d r) + invCb d r m * (cb - offC d) := by
  unfold exactB invY invCb normY normC; ring
theorem exactG_eq {d : Nat} (r : YuvRange) (m : Matrix) (y cb cr : Rat) :
    exactG d r m y cb cr = invY d r * (y - offY d r) - invG1 d r m * (cr - offC d)
      - invG2 d r m * (cb - offC d) := by
  unfold exactG invY invG1 invG2 normY normC; ring

theorem exactY_eq {d : Nat} (rg : YuvRange) (m : Matrix) (r g b : Rat) :
    exactY d rg m r g b = offY d rg + (fwdYR d rg m * r + fwdYG d rg m * g + fwdYB d rg m * b) := by
  unfold exactY exactLuma fwdYR fwdYG fwdYB; ring
theorem exactCb_eq {d : Nat} (rg : YuvRange) (m : Matrix) (r g b : Rat) :
    exactCb d rg m r g b = offC d + (fwdCbR d rg m * r + fwdCbG d rg m * g + fwdCbB d rg * b) := by
  have h := one_sub_kb_pos m
  unfold exactCb exactLuma fwdCbR fwdCbG fwdCbB
  have e : b / maxV d * (1 / (2 * (1 - kb m))) * (1 - kb m) = b / maxV d * (1 / 2) := by
    field_simp
  have e2 : (b / maxV d - (kr m * r + kg m * g + kb m * b) / maxV d) / (2 * (1 - kb m))
      = -(kr m / (2 * (1 - kb m))) * (r / maxV d) - kg m / (2 * (1 - kb m)) * (g / maxV d)
        + b / maxV d * (1 / (2 * (1 - kb m))) * (1 - kb m) := by ring
  rw [e2, e]; ring
theorem exactCr_eq {d : Nat} (rg : YuvRange) (m : Matrix) (r g b : Rat) :
    exactCr d rg m r g b = offC d + (fwdCrR d rg * r + fwdCrG d rg m * g + fwdCrB d rg m * b) := by
  have h := one_sub_kr_pos m
  unfold exactCr exactLuma fwdCrR fwdCrG fwdCrB
  have e : r / maxV d * (1 / (2 * (1 - kr m))) * (1 - kr m) = r / maxV d * (1 / 2) := by
    field_simp
  have e2 : (r / maxV d - (kr m * r + kg m * g + kb m * b) / maxV d) / (2 * (1 - kr m))
      = -(kb m / (2 * (1 - kr m))) * (b / maxV d) - kg m / (2 * (1 - kr m)) * (g / maxV d)
        + r / maxV d * (1 / (2 * (1 - kr m))) * (1 - kr m) := by ring
  rw [e2, e]; ring

theorem offY_eq {d : Nat} (r : YuvRange) :
    offY d r = (((getYuvRange d r).biasY : Nat) : Rat) := by
  cases r <;> simp [offY, getYuvRange]
theorem offC_eq {d : Nat} (r : YuvRange) :
    offC d = (((getYuvRange d r).biasUv : Nat) : Rat) := by
  cases r <;> simp [offC, getYuvRange]

end Verif
