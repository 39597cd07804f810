import Verif.Model.F32
import Verif.Lemmas.Finite
import Mathlib.Tactic.Linarith
import Mathlib.Tactic.FieldSimp
import Mathlib.Tactic.Ring
import Mathlib.Algebra.Order.Field.Rat
/-!
# C06: coefficient tables are the correctly rounded ITU matrices
-/
namespace Verif
open Spec

/-! ## The specification is the pair of H.273 equation systems -/

theorem kg_pos (m : Matrix) : 0 < kg m := by cases m <;> decide +kernel
theorem one_sub_kr_pos (m : Matrix) : 0 < 1 - kr m := by cases m <;> decide +kernel
theorem one_sub_kb_pos (m : Matrix) : 0 < 1 - kb m := by cases m <;> decide +kernel

theorem maxV_pos {d : Nat} (h : Depth d) : 0 < maxV d := by
  rcases h with h | h | h | h | h <;> subst h <;> decide +kernel
theorem gainY_pos {d : Nat} (h : Depth d) (r : YuvRange) : 0 < gainY d r := by
  rcases h with h | h | h | h | h <;> subst h <;> cases r <;> decide +kernel
theorem gainC_pos {d : Nat} (h : Depth d) (r : YuvRange) : 0 < gainC d r := by
  rcases h with h | h | h | h | h <;> subst h <;> cases r <;> decide +kernel

/-- The exact decoder used as specification satisfies the defining equations of the
standard: `Y = K_R R + K_G G + K_B B`, `Cb = (B - Y)/(2(1-K_B))`,
`Cr = (R - Y)/(2(1-K_R))`, that is, the exact encoder maps the decoded triple back
to the samples it came from. -/
theorem c06_spec_inverts (d : Nat) (hd : Depth d) (rg : YuvRange) (m : Matrix) (y cb cr : Rat) :
    exactY d rg m (exactR d rg m y cb cr) (exactG d rg m y cb cr) (exactB d rg m y cb cr) = y ∧
    exactCb d rg m (exactR d rg m y cb cr) (exactG d rg m y cb cr) (exactB d rg m y cb cr) = cb ∧
    exactCr d rg m (exactR d rg m y cb cr) (exactG d rg m y cb cr) (exactB d rg m y cb cr) = cr := by
  have h1 := maxV_pos hd
  have h2 := gainY_pos hd rg
  have h3 := gainC_pos hd rg
  have h4 := kg_pos m
  have h5 := one_sub_kr_pos m
  have h6 := one_sub_kb_pos m
  have hl : exactLuma d m (exactR d rg m y cb cr) (exactG d rg m y cb cr) (exactB d rg m y cb cr)
      = normY d rg y := by
    unfold exactLuma exactR exactG exactB
    have hkg : kg m = 1 - kr m - kb m := rfl
    field_simp
    rw [hkg]; ring
  refine ⟨?_, ?_, ?_⟩
  · unfold exactY; rw [hl]; unfold normY; field_simp; ring
  · unfold exactCb; rw [hl]; unfold exactB normC; field_simp; ring
  · unfold exactCr; rw [hl]; unfold exactR normC; field_simp; ring

/-! ## Tables against computation, and both against the exact values -/

/-- C06: wherever a prebuilt inverse table exists it equals the transform the `f32` path
would have computed; every computed coefficient, at every depth and precision, is a
nearest integer to the exact ITU coefficient scaled by `2^p`. -/
theorem c06_inverse_tables (p d : Nat) (hp : Prec p) (hd : Depth d) (r : YuvRange) (m : Matrix) :
    (builtInverse p d r m = none ∨ builtInverse p d r m = some (computedInverse p d r m)) ∧
    NearestCoef p (computedInverse p d r m).y (invY d r) ∧
    NearestCoef p (computedInverse p d r m).cr (invCr d r m) ∧
    NearestCoef p (computedInverse p d r m).cb (invCb d r m) ∧
    NearestCoef p (computedInverse p d r m).g1 (invG1 d r m) ∧
    NearestCoef p (computedInverse p d r m).g2 (invG2 d r m) := by
  have h : ∀ p ∈ allPrec, ∀ d ∈ allDepth, ∀ m ∈ allMatrix, ∀ r ∈ allRange,
      (builtInverse p d r m = none ∨ builtInverse p d r m = some (computedInverse p d r m)) ∧
      NearestCoef p (computedInverse p d r m).y (invY d r) ∧
      NearestCoef p (computedInverse p d r m).cr (invCr d r m) ∧
      NearestCoef p (computedInverse p d r m).cb (invCb d r m) ∧
      NearestCoef p (computedInverse p d r m).g1 (invG1 d r m) ∧
      NearestCoef p (computedInverse p d r m).g2 (invG2 d r m) := by decide +kernel
  exact h p (mem_allPrec hp) d (mem_allDepth hd) m (mem_allMatrix m) r (mem_allRange r)

/-- C06 for the encoder coefficients. -/
theorem c06_forward_tables (p d : Nat) (hp : Prec p) (hd : Depth d) (r : YuvRange) (m : Matrix) :
    (builtForward p d r m = none ∨ builtForward p d r m = some (computedForward p d r m)) ∧
    NearestCoef p (computedForward p d r m).yr (fwdYR d r m) ∧
    NearestCoef p (computedForward p d r m).yg (fwdYG d r m) ∧
    NearestCoef p (computedForward p d r m).yb (fwdYB d r m) ∧
    NearestCoef p (computedForward p d r m).cbR (fwdCbR d r m) ∧
    NearestCoef p (computedForward p d r m).cbG (fwdCbG d r m) ∧
    NearestCoef p (computedForward p d r m).cbB (fwdCbB d r) ∧
    NearestCoef p (computedForward p d r m).crR (fwdCrR d r) ∧
    NearestCoef p (computedForward p d r m).crG (fwdCrG d r m) ∧
    NearestCoef p (computedForward p d r m).crB (fwdCrB d r m) := by
  have h : ∀ p ∈ allPrec, ∀ d ∈ allDepth, ∀ m ∈ allMatrix, ∀ r ∈ allRange,
      (builtForward p d r m = none ∨ builtForward p d r m = some (computedForward p d r m)) ∧
      NearestCoef p (computedForward p d r m).yr (fwdYR d r m) ∧
      NearestCoef p (computedForward p d r m).yg (fwdYG d r m) ∧
      NearestCoef p (computedForward p d r m).yb (fwdYB d r m) ∧
      NearestCoef p (computedForward p d r m).cbR (fwdCbR d r m) ∧
      NearestCoef p (computedForward p d r m).cbG (fwdCbG d r m) ∧
      NearestCoef p (computedForward p d r m).cbB (fwdCbB d r) ∧
      NearestCoef p (computedForward p d r m).crR (fwdCrR d r) ∧
      NearestCoef p (computedForward p d r m).crG (fwdCrG d r m) ∧
      NearestCoef p (computedForward p d r m).crB (fwdCrB d r m) := by decide +kernel
  exact h p (mem_allPrec hp) d (mem_allDepth hd) m (mem_allMatrix m) r (mem_allRange r)

/-- C06: the transform a converter actually uses for encoding is the rounded exact one. -/
theorem c06_searchForward (p d : Nat) (hp : Prec p) (hd : Depth d) (r : YuvRange) (m : Matrix) :
    searchForward p d r m = computedForward p d r m := by
  unfold searchForward
  rcases (c06_forward_tables p d hp hd r m).1 with h | h <;> rw [h]

/-- C06: the transform a converter actually uses for decoding is the rounded exact one,
except that the 6-bit mode caps the chroma coefficients at 127. -/
theorem c06_searchInverse (p d : Nat) (hp : Prec p) (hd : Depth d) (r : YuvRange) (m : Matrix) :
    searchInverse p d r m =
      let t := computedInverse p d r m
      if p = 6 then ⟨t.y, min t.cr 127, min t.cb 127, min t.g1 127, min t.g2 127⟩ else t := by
  unfold searchInverse
  rcases (c06_inverse_tables p d hp hd r m).1 with h | h
  · rw [h]
  · rw [h]
    have : p ≠ 6 := by
      intro h6; subst h6
      have h0 : builtInverse 6 d r m = none := by unfold builtInverse; rw [if_pos (by decide)]
      rw [h0] at h; cases h
    simp [this]

/-- The 6-bit cap is not vacuous: it lowers the BT.709 limited-range Cb coefficient from
135 to 127, so the 6-bit mode is not a rounding of the ITU matrix there. -/
theorem c06_six_bit_cap_bites :
    (computedInverse 6 8 .limited .bt709).cb = 135 ∧ (searchInverse 6 8 .limited .bt709).cb = 127 := by
  decide +kernel

/-! ## C49: the named matrices carry the published weights -/

/-- C49 in full: every encoder coefficient of luma and every decoder coefficient of red and
blue is the rounding of the weights H.273 publishes for the matrix the caller named. -/
def PublishedWeights (m : Matrix) : Prop :=
  ∀ p d, Prec p → Depth d → ∀ r,
    NearestCoef p (searchForward p d r m).yr (h273Kr m * (gainY d r / maxV d)) ∧
    NearestCoef p (searchForward p d r m).yg ((1 - h273Kr m - h273Kb m) * (gainY d r / maxV d)) ∧
    NearestCoef p (searchForward p d r m).yb (h273Kb m * (gainY d r / maxV d)) ∧
    (p ≠ 6 →
      NearestCoef p (searchInverse p d r m).cr (2 * (1 - h273Kr m) * (maxV d / gainC d r)) ∧
      NearestCoef p (searchInverse p d r m).cb (2 * (1 - h273Kb m) * (maxV d / gainC d r)))

/-- C49 for BT.601, BT.709, BT.2020 and FCC. Missing: SMPTE 240 and BT.470 B/G, for which
it is false (`c49_smpte240_exchanged`, `c49_bt470_other_weights`). -/
theorem c49_published_weights_partial (m : Matrix) (hm : m ≠ .smpte240) (hm' : m ≠ .bt470_6) :
    PublishedWeights m := by
  intro p d hp hd r
  have hkr : h273Kr m = kr m := by cases m <;> first | rfl | exact absurd rfl hm | exact absurd rfl hm'
  have hkb : h273Kb m = kb m := by cases m <;> first | rfl | exact absurd rfl hm | exact absurd rfl hm'
  obtain ⟨_, f1, f2, f3, _⟩ := c06_forward_tables p d hp hd r m
  obtain ⟨_, _, i1, i2, _⟩ := c06_inverse_tables p d hp hd r m
  rw [hkr, hkb, c06_searchForward p d hp hd r m, c06_searchInverse p d hp hd r m]
  refine ⟨f1, f2, f3, fun h6 => ?_⟩
  simp only [h6, if_false]
  exact ⟨i1, i2⟩

/-- C49 fails for SMPTE 240: the red and blue weights are exchanged. -/
theorem c49_smpte240_exchanged :
    ¬ PublishedWeights .smpte240 ∧
    kr .smpte240 = h273Kb .smpte240 ∧ kb .smpte240 = h273Kr .smpte240 ∧
    (searchForward 13 8 .full .smpte240).yr = 713 ∧
    (searchForward 13 8 .full .smpte240).yb = 1737 := by
  refine ⟨fun h => ?_, by decide +kernel⟩
  exact absurd (h 13 8 (by unfold Prec; omega) (by unfold Depth; omega) .full).1 (by decide +kernel)

/-- C49 fails for BT.470 System B/G, whose published weights are those of BT.601. -/
theorem c49_bt470_other_weights :
    ¬ PublishedWeights .bt470_6 := by
  intro h
  exact absurd (h 13 8 (by unfold Prec; omega) (by unfold Depth; omega) .full).1 (by decide +kernel)

example : (searchInverse 13 8 .limited .bt601) = ⟨9539, 13075, 16525, 6660, 3209⟩ := by
  decide +kernel
example : Prec 13 ∧ Depth 8 := ⟨by unfold Prec; omega, by unfold Depth; omega⟩

end Verif
