import Verif.Props.DecodeArith
import Mathlib.Tactic.LinearCombination
/-!
# C09, C11, C12, C13, C45: the arithmetic of one encoded pixel, and the round trip
-/
namespace Verif
open Spec

/-! ## Closed form of the encoder -/

/-- Precisions of the 8-bit encoder: Fast, Balanced, Professional. -/
def EncPrec (p : Nat) : Prop := p = 7 ∨ p = 13 ∨ p = 15

theorem EncPrec.prec {p : Nat} (h : EncPrec p) : Prec p := by
  unfold EncPrec at h; unfold Prec; omega
theorem EncPrec.pos {p : Nat} (h : EncPrec p) : 0 < p := by
  unfold EncPrec at h; omega

/-- Every coefficient is at most `2^p` in magnitude. -/
def CoefBound (p : Nat) (t : FwdCoef) : Prop :=
  ∀ c ∈ [t.yr, t.yg, t.yb, t.cbR, t.cbG, t.cbB, t.crR, t.crG, t.crB], -(2 ^ p) ≤ c ∧ c ≤ 2 ^ p

instance (p : Nat) (t : FwdCoef) : Decidable (CoefBound p t) := by
  unfold CoefBound; infer_instance

theorem coefBound_search {p : Nat} (h : EncPrec p) (r : YuvRange) (m : Matrix) :
    CoefBound p (searchForward p 8 r m) := by
  have h1 : ∀ p ∈ [7, 13, 15], ∀ m ∈ allMatrix, ∀ r ∈ allRange,
    CoefBound p (searchForward p 8 r m) := by decide +kernel
  refine forall_mr (h1 p ?_) m r
  rcases h with rfl | rfl | rfl <;> decide

theorem encBias_bounds {p : Nat} (h : EncPrec p) {b : Nat} (hb : b ≤ 128) :
    0 ≤ encodeBias p b ∧ 3 * (255 * 2 ^ p) + encodeBias p b ≤ 2147483647 := by
  unfold encodeBias
  rcases h with rfl | rfl | rfl <;> norm_num <;> omega

theorem bias8 (r : YuvRange) : (getYuvRange 8 r).biasY ≤ 128 ∧ (getYuvRange 8 r).biasUv ≤ 128 := by
  cases r <;> decide

/-- The three encoder values as exact integers, for every 8-bit RGB triple. -/
theorem encode_closed {p : Nat} (h : EncPrec p) (rg : YuvRange) (m : Matrix) (r g b : Nat)
    (hr : r ≤ 255) (hg : g ≤ 255) (hb : b ≤ 255) :
    let t := searchForward p 8 rg m
    let c := getYuvRange 8 rg
    encodeY p t c.biasY r g b = .ok (encPure p t.yr t.yg t.yb (encodeBias p c.biasY) r g b) ∧
    encodeCb p t c.biasUv r g b = .ok (encPure p t.cbR t.cbG t.cbB (encodeBias p c.biasUv) r g b) ∧
    encodeCr p t c.biasUv r g b = .ok (encPure p t.crR t.crG t.crB (encodeBias p c.biasUv) r g b) := by
  intro t c
  have hc := coefBound_search h rg m
  have b1 := encBias_bounds h (bias8 rg).1
  have b2 := encBias_bounds h (bias8 rg).2
  have hh : ∀ x ∈ [t.yr, t.yg, t.yb, t.cbR, t.cbG, t.cbB, t.crR, t.crG, t.crB],
      -(2 ^ p) ≤ x ∧ x ≤ 2 ^ p := hc
  simp only [List.mem_cons, List.not_mem_nil, or_false, forall_eq_or_imp, forall_eq] at hh
  obtain ⟨c1, c2, c3, c4, c5, c6, c7, c8, c9⟩ := hh
  refine ⟨encodeSum_ok (mx := 255) (c := 2 ^ p) ⟨c1.1, c1.2, c2.1, c2.2, c3.1, c3.2, by omega,
      b1.1, b1.2⟩ ?_ ?_ ?_ ?_ ?_ ?_,
    encodeSum_ok (mx := 255) (c := 2 ^ p) ⟨c4.1, c4.2, c5.1, c5.2, c6.1, c6.2, by omega,
      b2.1, b2.2⟩ ?_ ?_ ?_ ?_ ?_ ?_,
    encodeSum_ok (mx := 255) (c := 2 ^ p) ⟨c7.1, c7.2, c8.1, c8.2, c9.1, c9.2, by omega,
      b2.1, b2.2⟩ ?_ ?_ ?_ ?_ ?_ ?_⟩ <;> omega

/-! ## C09: nothing wraps -/

/-- Value of the encoder row at the corner of the RGB cube that minimises/maximises it. -/
def encLo (p : Nat) (k1 k2 k3 bias : Int) : Int :=
  (255 * (min k1 0 + min k2 0 + min k3 0) + bias) / 2 ^ p
def encHi (p : Nat) (k1 k2 k3 bias : Int) : Int :=
  (255 * (max k1 0 + max k2 0 + max k3 0) + bias) / 2 ^ p

theorem sample_corner {k : Int} {r : Nat} (hr : r ≤ 255) :
    255 * min k 0 ≤ (r : Int) * k ∧ (r : Int) * k ≤ 255 * max k 0 := by
  rcases Int.le_total k 0 with h | h
  · have h1 : (255 - (r : Int)) * k ≤ 0 := Int.mul_nonpos_of_nonneg_of_nonpos (by omega) h
    have h2 : (r : Int) * k ≤ 0 := Int.mul_nonpos_of_nonneg_of_nonpos (by omega) h
    rw [Int.sub_mul] at h1
    rw [Int.min_eq_left h, Int.max_eq_right h]; omega
  · have h1 : 0 ≤ (255 - (r : Int)) * k := Int.mul_nonneg (by omega) h
    have h2 : 0 ≤ (r : Int) * k := Int.mul_nonneg (by omega) h
    rw [Int.sub_mul] at h1
    rw [Int.min_eq_right h, Int.max_eq_left h]; omega

theorem encPure_corners {p : Nat} {k1 k2 k3 bias : Int} {r g b : Nat} (hr : r ≤ 255) (hg : g ≤ 255)
    (hb : b ≤ 255) :
    encLo p k1 k2 k3 bias ≤ encPure p k1 k2 k3 bias r g b ∧
    encPure p k1 k2 k3 bias r g b ≤ encHi p k1 k2 k3 bias := by
  have h1 := sample_corner (k := k1) hr
  have h2 := sample_corner (k := k2) hg
  have h3 := sample_corner (k := k3) hb
  have hp := one_le_two_pow p
  unfold encLo encHi encPure
  constructor <;> apply Int.ediv_le_ediv (by omega) <;> omega

/-- C09: at the Balanced and Professional precisions, for every named matrix, range and 8-bit RGB
triple, no 32-bit intermediate overflows, luma lies in `[bias_y, bias_y + range_y]`, and chroma
within half a chroma range of its bias: the narrowing cast to `u8` never changes a value. -/
theorem c09_encode_in_nominal_range (p : Nat) (h : p = 13 ∨ p = 15) (rg : YuvRange) (m : Matrix)
    (r g b : Nat) (hr : r ≤ 255) (hg : g ≤ 255) (hb : b ≤ 255) :
    let t := searchForward p 8 rg m
    let c := getYuvRange 8 rg
    ∃ y cb cr : Int, encodeY p t c.biasY r g b = .ok y ∧ encodeCb p t c.biasUv r g b = .ok cb ∧
      encodeCr p t c.biasUv r g b = .ok cr ∧
      ((c.biasY : Int) ≤ y ∧ y ≤ c.biasY + c.rangeY) ∧
      (-(c.rangeUv : Int) - 1 ≤ 2 * (cb - c.biasUv) ∧ 2 * (cb - c.biasUv) ≤ c.rangeUv) ∧
      (-(c.rangeUv : Int) - 1 ≤ 2 * (cr - c.biasUv) ∧ 2 * (cr - c.biasUv) ≤ c.rangeUv) ∧
      ((asU8 y : Int) = y ∧ (asU8 cb : Int) = cb ∧ (asU8 cr : Int) = cr) := by
  dsimp only
  have hp : EncPrec p := by rcases h with h | h <;> simp [EncPrec, h]
  obtain ⟨e1, e2, e3⟩ := encode_closed hp rg m r g b hr hg hb
  have key : ∀ p ∈ [13, 15], ∀ m ∈ allMatrix, ∀ rg ∈ allRange,
      let t := searchForward p 8 rg m
      let c := getYuvRange 8 rg
      ((c.biasY : Int) ≤ encLo p t.yr t.yg t.yb (encodeBias p c.biasY) ∧
        encHi p t.yr t.yg t.yb (encodeBias p c.biasY) ≤ c.biasY + c.rangeY) ∧
      (-(c.rangeUv : Int) - 1 ≤ 2 * (encLo p t.cbR t.cbG t.cbB (encodeBias p c.biasUv) - c.biasUv) ∧
        2 * (encHi p t.cbR t.cbG t.cbB (encodeBias p c.biasUv) - c.biasUv) ≤ c.rangeUv) ∧
      (-(c.rangeUv : Int) - 1 ≤ 2 * (encLo p t.crR t.crG t.crB (encodeBias p c.biasUv) - c.biasUv) ∧
        2 * (encHi p t.crR t.crG t.crB (encodeBias p c.biasUv) - c.biasUv) ≤ c.rangeUv) := by
    decide +kernel
  have k := forall_mr (key p (by rcases h with h | h <;> simp [h])) m rg
  obtain ⟨⟨k1, k2⟩, ⟨k3, k4⟩, ⟨k5, k6⟩⟩ := k
  have c1 := encPure_corners (p := p) (k1 := (searchForward p 8 rg m).yr) (k2 := (searchForward p 8 rg m).yg) (k3 := (searchForward p 8 rg m).yb)
    (bias := encodeBias p (getYuvRange 8 rg).biasY) hr hg hb
  have c2 := encPure_corners (p := p) (k1 := (searchForward p 8 rg m).cbR) (k2 := (searchForward p 8 rg m).cbG) (k3 := (searchForward p 8 rg m).cbB)
    (bias := encodeBias p (getYuvRange 8 rg).biasUv) hr hg hb
  have c3 := encPure_corners (p := p) (k1 := (searchForward p 8 rg m).crR) (k2 := (searchForward p 8 rg m).crG) (k3 := (searchForward p 8 rg m).crB)
    (bias := encodeBias p (getYuvRange 8 rg).biasUv) hr hg hb
  have hc : ((getYuvRange 8 rg).biasY : Int) + (getYuvRange 8 rg).rangeY ≤ 255 ∧
      ((getYuvRange 8 rg).biasUv : Int) = 128 ∧ ((getYuvRange 8 rg).rangeUv : Int) ≤ 255 := by
    cases rg <;> decide
  refine ⟨_, _, _, e1, e2, e3, by omega, by omega, by omega, ?_⟩
  simp only [asU8]
  refine ⟨?_, ?_, ?_⟩ <;> omega

/-- C09 fails at the Fast precision: the BT.2020 full-range luma of white is computed as 257,
which the narrowing cast turns into 1 (black). -/
theorem c09_fast_bt2020_white_wraps :
    encodeY 7 (searchForward 7 8 .full .bt2020) 0 255 255 255 = .ok 257 ∧ asU8 257 = 1 := by
  decide +kernel

/-- C09 at the Fast precision for every other matrix and range, without the nominal range:
nothing overflows and nothing wraps.  Missing against the full property: BT.2020 full range
(see the counterexample) and the nominal limits (BT.601 limited white is 237). -/
theorem c09_encode_fast_partial (rg : YuvRange) (m : Matrix) (hx : ¬ (m = .bt2020 ∧ rg = .full))
    (r g b : Nat) (hr : r ≤ 255) (hg : g ≤ 255) (hb : b ≤ 255) :
    let t := searchForward 7 8 rg m
    let c := getYuvRange 8 rg
    ∃ y cb cr : Int, encodeY 7 t c.biasY r g b = .ok y ∧ encodeCb 7 t c.biasUv r g b = .ok cb ∧
      encodeCr 7 t c.biasUv r g b = .ok cr ∧
      (0 ≤ y ∧ y ≤ 255) ∧ (0 ≤ cb ∧ cb ≤ 255) ∧ (0 ≤ cr ∧ cr ≤ 255) := by
  dsimp only
  obtain ⟨e1, e2, e3⟩ := encode_closed (Or.inl rfl : EncPrec 7) rg m r g b hr hg hb
  have key : ∀ m ∈ allMatrix, ∀ rg ∈ allRange, ¬ (m = .bt2020 ∧ rg = .full) →
      let t := searchForward 7 8 rg m
      let c := getYuvRange 8 rg
      (0 ≤ encLo 7 t.yr t.yg t.yb (encodeBias 7 c.biasY) ∧
        encHi 7 t.yr t.yg t.yb (encodeBias 7 c.biasY) ≤ 255) ∧
      (0 ≤ encLo 7 t.cbR t.cbG t.cbB (encodeBias 7 c.biasUv) ∧
        encHi 7 t.cbR t.cbG t.cbB (encodeBias 7 c.biasUv) ≤ 255) ∧
      (0 ≤ encLo 7 t.crR t.crG t.crB (encodeBias 7 c.biasUv) ∧
        encHi 7 t.crR t.crG t.crB (encodeBias 7 c.biasUv) ≤ 255) := by
    decide +kernel
  obtain ⟨⟨k1, k2⟩, ⟨k3, k4⟩, ⟨k5, k6⟩⟩ := forall_mr key m rg hx
  have c1 := encPure_corners (p := 7) (k1 := (searchForward 7 8 rg m).yr) (k2 := (searchForward 7 8 rg m).yg) (k3 := (searchForward 7 8 rg m).yb)
    (bias := encodeBias 7 (getYuvRange 8 rg).biasY) hr hg hb
  have c2 := encPure_corners (p := 7) (k1 := (searchForward 7 8 rg m).cbR) (k2 := (searchForward 7 8 rg m).cbG) (k3 := (searchForward 7 8 rg m).cbB)
    (bias := encodeBias 7 (getYuvRange 8 rg).biasUv) hr hg hb
  have c3 := encPure_corners (p := 7) (k1 := (searchForward 7 8 rg m).crR) (k2 := (searchForward 7 8 rg m).crG) (k3 := (searchForward 7 8 rg m).crB)
    (bias := encodeBias 7 (getYuvRange 8 rg).biasUv) hr hg hb
  exact ⟨_, _, _, e1, e2, e3, by omega, by omega, by omega⟩

example : encodeY 13 (searchForward 13 8 .limited .bt601) 16 255 0 0 = .ok 81 ∧
    encodeCb 13 (searchForward 13 8 .limited .bt601) 128 255 0 0 = .ok 90 ∧
    encodeCr 13 (searchForward 13 8 .limited .bt601) 128 255 0 0 = .ok 240 := by decide +kernel

/-! ## C11: distance to the exact ITU result -/

theorem encPure_close {p : Nat} (hp : 0 < p) {k1 k2 k3 : Int} {q1 q2 q3 : Rat} {b0 : Nat}
    {r g b : Nat} (hr : r ≤ 255) (hg : g ≤ 255) (hb : b ≤ 255)
    (n1 : NearestCoef p k1 q1) (n2 : NearestCoef p k2 q2) (n3 : NearestCoef p k3 q3) :
    |((encPure p k1 k2 k3 (encodeBias p b0) r g b : Int) : Rat)
      - (b0 + (q1 * r + q2 * g + q3 * b))| ≤ 1 / 2 + 383 / 2 ^ p := by
  have hpp : (0 : Rat) < 2 ^ p := by positivity
  have hn : NearestShift p (encPure p k1 k2 k3 (encodeBias p b0) r g b)
      ((r : Int) * k1 + g * k2 + b * k3 + b0 * 2 ^ p) := by
    have := shift_near_down hp ((r : Int) * k1 + g * k2 + b * k3 + b0 * 2 ^ p)
    unfold encPure encodeBias
    rw [Int.add_assoc] at this
    rw [show (r : Int) * k1 + g * k2 + b * k3 + ((b0 : Int) * 2 ^ p + (2 ^ (p - 1) - 1))
      = (r : Int) * k1 + g * k2 + b * k3 + (b0 * 2 ^ p + (2 ^ (p - 1) - 1)) by rfl]
    exact this
  have h1 := near_rat hn
  have ab : ∀ x : Nat, x ≤ 255 → |(x : Rat)| ≤ 255 := by
    intro x hx; rw [abs_of_nonneg (by positivity)]; exact_mod_cast hx
  have e1 := coef_err n1 (ab r hr)
  have e2 := coef_err n2 (ab g hg)
  have e3 := coef_err n3 (ab b hb)
  have e : ((encPure p k1 k2 k3 (encodeBias p b0) r g b : Int) : Rat)
      - (b0 + (q1 * r + q2 * g + q3 * b))
    = (((encPure p k1 k2 k3 (encodeBias p b0) r g b : Int) : Rat)
        - (((r : Int) * k1 + g * k2 + b * k3 + b0 * 2 ^ p : Int) : Rat) / 2 ^ p)
      + (((k1 : Rat) * r / 2 ^ p - q1 * r) + (((k2 : Rat) * g / 2 ^ p - q2 * g)
        + ((k3 : Rat) * b / 2 ^ p - q3 * b))) := by
    push_cast; field_simp; ring
  rw [e]
  have t1 := abs_add_le (((encPure p k1 k2 k3 (encodeBias p b0) r g b : Int) : Rat)
        - (((r : Int) * k1 + g * k2 + b * k3 + b0 * 2 ^ p : Int) : Rat) / 2 ^ p)
      (((k1 : Rat) * r / 2 ^ p - q1 * r) + (((k2 : Rat) * g / 2 ^ p - q2 * g)
        + ((k3 : Rat) * b / 2 ^ p - q3 * b)))
  have t2 := abs_add_le ((k1 : Rat) * r / 2 ^ p - q1 * r) (((k2 : Rat) * g / 2 ^ p - q2 * g)
        + ((k3 : Rat) * b / 2 ^ p - q3 * b))
  have t3 := abs_add_le ((k2 : Rat) * g / 2 ^ p - q2 * g) ((k3 : Rat) * b / 2 ^ p - q3 * b)
  have e4 : (255 : Rat) / (2 * 2 ^ p) + (255 / (2 * 2 ^ p) + 255 / (2 * 2 ^ p)) ≤ 383 / 2 ^ p := by
    rw [show (255 : Rat) / (2 * 2 ^ p) + (255 / (2 * 2 ^ p) + 255 / (2 * 2 ^ p))
      = (765 / 2) / 2 ^ p by field_simp; norm_num]
    apply div_le_div_of_nonneg_right _ hpp.le
    norm_num
  linarith

/-- C11: luma and chroma of every 8-bit RGB triple are within `1/2 + 383/2^p` code values of the
exact rational ITU-R values. -/
theorem c11_encode_close (p : Nat) (h : EncPrec p) (rg : YuvRange) (m : Matrix) (r g b : Nat)
    (hr : r ≤ 255) (hg : g ≤ 255) (hb : b ≤ 255) :
    let t := searchForward p 8 rg m
    let c := getYuvRange 8 rg
    ∃ y cb cr : Int, encodeY p t c.biasY r g b = .ok y ∧ encodeCb p t c.biasUv r g b = .ok cb ∧
      encodeCr p t c.biasUv r g b = .ok cr ∧
      |(y : Rat) - exactY 8 rg m r g b| ≤ 1 / 2 + 383 / 2 ^ p ∧
      |(cb : Rat) - exactCb 8 rg m r g b| ≤ 1 / 2 + 383 / 2 ^ p ∧
      |(cr : Rat) - exactCr 8 rg m r g b| ≤ 1 / 2 + 383 / 2 ^ p := by
  intro t c
  obtain ⟨e1, e2, e3⟩ := encode_closed h rg m r g b hr hg hb
  have ht : t = computedForward p 8 rg m := c06_searchForward p 8 h.prec (Or.inl rfl) rg m
  obtain ⟨-, n1, n2, n3, n4, n5, n6, n7, n8, n9⟩ := c06_forward_tables p 8 h.prec (Or.inl rfl) rg m
  rw [← ht] at n1 n2 n3 n4 n5 n6 n7 n8 n9
  refine ⟨_, _, _, e1, e2, e3, ?_, ?_, ?_⟩
  · rw [exactY_eq, offY_eq]; exact encPure_close h.pos hr hg hb n1 n2 n3
  · rw [exactCb_eq, offC_eq rg]; exact encPure_close h.pos hr hg hb n4 n5 n6
  · rw [exactCr_eq, offC_eq rg]; exact encPure_close h.pos hr hg hb n7 n8 n9

/-- C11 at the Balanced and Professional precisions: less than 0.55 code values. -/
theorem c11_encode_close_default (p : Nat) (h : p = 13 ∨ p = 15) (rg : YuvRange) (m : Matrix)
    (r g b : Nat) (hr : r ≤ 255) (hg : g ≤ 255) (hb : b ≤ 255) :
    let t := searchForward p 8 rg m
    let c := getYuvRange 8 rg
    ∃ y cb cr : Int, encodeY p t c.biasY r g b = .ok y ∧ encodeCb p t c.biasUv r g b = .ok cb ∧
      encodeCr p t c.biasUv r g b = .ok cr ∧
      |(y : Rat) - exactY 8 rg m r g b| ≤ 55 / 100 ∧
      |(cb : Rat) - exactCb 8 rg m r g b| ≤ 55 / 100 ∧
      |(cr : Rat) - exactCr 8 rg m r g b| ≤ 55 / 100 := by
  intro t c
  obtain ⟨y, cb, cr, e1, e2, e3, h1, h2, h3⟩ :=
    c11_encode_close p (by rcases h with h | h <;> simp [EncPrec, h]) rg m r g b hr hg hb
  have : (1 : Rat) / 2 + 383 / 2 ^ p ≤ 55 / 100 := by rcases h with rfl | rfl <;> norm_num
  exact ⟨y, cb, cr, e1, e2, e3, by linarith, by linarith, by linarith⟩

/-! ## C12 (encoding): gray stays gray -/

/-- C12: a gray pixel gets exactly neutral chroma; its luma does not decrease with the gray level,
black is `bias_y` and white `bias_y + range_y`. -/
theorem c12_encode_gray (p : Nat) (h : p = 13 ∨ p = 15) (rg : YuvRange) (m : Matrix)
    (x x' : Nat) (hx : x ≤ x') (hx' : x' ≤ 255) :
    let t := searchForward p 8 rg m
    let c := getYuvRange 8 rg
    encodeCb p t c.biasUv x x x = .ok (c.biasUv : Int) ∧
    encodeCr p t c.biasUv x x x = .ok (c.biasUv : Int) ∧
    (∃ y y' : Int, encodeY p t c.biasY x x x = .ok y ∧ encodeY p t c.biasY x' x' x' = .ok y' ∧
      y ≤ y') ∧
    encodeY p t c.biasY 0 0 0 = .ok (c.biasY : Int) ∧
    encodeY p t c.biasY 255 255 255 = .ok ((c.biasY + c.rangeY : Nat) : Int) := by
  intro t c
  have hp : EncPrec p := by rcases h with h | h <;> simp [EncPrec, h]
  have key : ∀ p ∈ [13, 15], ∀ m ∈ allMatrix, ∀ rg ∈ allRange,
      let t := searchForward p 8 rg m
      let c := getYuvRange 8 rg
      (0 ≤ t.yr + t.yg + t.yb) ∧
      encodeY p t c.biasY 0 0 0 = .ok (c.biasY : Int) ∧
      encodeY p t c.biasY 255 255 255 = .ok ((c.biasY + c.rangeY : Nat) : Int) ∧
      (-1 ≤ t.cbR + t.cbG + t.cbB ∧ t.cbR + t.cbG + t.cbB ≤ 1) ∧
      (-1 ≤ t.crR + t.crG + t.crB ∧ t.crR + t.crG + t.crB ≤ 1) ∧ c.biasUv = 128 := by
    decide +kernel
  obtain ⟨k1, k2, k3, k4, k5, k6⟩ := forall_mr (key p (by rcases h with h | h <;> simp [h])) m rg
  obtain ⟨-, e2, e3⟩ := encode_closed hp rg m x x x (by omega) (by omega) (by omega)
  obtain ⟨e1, -, -⟩ := encode_closed hp rg m x x x (by omega) (by omega) (by omega)
  obtain ⟨e1', -, -⟩ := encode_closed hp rg m x' x' x' (by omega) (by omega) (by omega)
  have hmul : ∀ s : Int, -1 ≤ s → s ≤ 1 → -255 ≤ (x : Int) * s ∧ (x : Int) * s ≤ 255 := by
    intro s h1 h2
    have : s = -1 ∨ s = 0 ∨ s = 1 := by omega
    rcases this with rfl | rfl | rfl <;> omega
  have neutral : ∀ k1 k2 k3 : Int, -1 ≤ k1 + k2 + k3 → k1 + k2 + k3 ≤ 1 →
      encPure p k1 k2 k3 (encodeBias p c.biasUv) x x x = (c.biasUv : Int) := by
    intro a1 a2 a3 h1 h2
    have hm := hmul _ h1 h2
    have e : (x : Int) * a1 + x * a2 + x * a3 = x * (a1 + a2 + a3) := by ring
    unfold encPure encodeBias
    rw [e, show c.biasUv = 128 from k6]
    generalize (x : Int) * (a1 + a2 + a3) = w at hm
    rcases h with rfl | rfl <;> norm_num <;> omega
  refine ⟨?_, ?_, ⟨_, _, e1, e1', ?_⟩, k2, k3⟩
  · exact e2.trans (congrArg _ (neutral _ _ _ k4.1 k4.2))
  · exact e3.trans (congrArg _ (neutral _ _ _ k5.1 k5.2))
  · unfold encPure
    have e : ∀ z : Int, z * t.yr + z * t.yg + z * t.yb = z * (t.yr + t.yg + t.yb) := by
      intro z; ring
    rw [e, e]
    have : (x : Int) * (t.yr + t.yg + t.yb) ≤ x' * (t.yr + t.yg + t.yb) :=
      Int.mul_le_mul_of_nonneg_right (by omega) k1
    have hp := one_le_two_pow p
    apply Int.ediv_le_ediv (by omega); omega

/-- C12 fails at the Fast precision: BT.2020 limited-range white gets Cb 126, not 128, and
luma 237, above the nominal 235. -/
theorem c12_fast_gray_not_neutral :
    encodeCb 7 (searchForward 7 8 .limited .bt2020) 128 255 255 255 = .ok 126 ∧
    encodeY 7 (searchForward 7 8 .limited .bt2020) 16 255 255 255 = .ok 237 := by
  decide +kernel

/-! ## C13: 4:4:4 round trip -/

theorem inv_bounds (rg : YuvRange) (m : Matrix) :
    0 ≤ invY 8 rg ∧ 0 ≤ invCr 8 rg m ∧ 0 ≤ invCb 8 rg m ∧ 0 ≤ invG1 8 rg m ∧ 0 ≤ invG2 8 rg m ∧
    (invY 8 rg + invCr 8 rg m) * (55 / 100) + 54 / 100 < 3 ∧
    (invY 8 rg + invCb 8 rg m) * (55 / 100) + 54 / 100 < 3 ∧
    (invY 8 rg + invG1 8 rg m + invG2 8 rg m) * (55 / 100) + 54 / 100 < 2 := by
  revert rg m
  have : ∀ m ∈ allMatrix, ∀ rg ∈ allRange,
      0 ≤ invY 8 rg ∧ 0 ≤ invCr 8 rg m ∧ 0 ≤ invCb 8 rg m ∧ 0 ≤ invG1 8 rg m ∧ 0 ≤ invG2 8 rg m ∧
      (invY 8 rg + invCr 8 rg m) * (55 / 100) + 54 / 100 < 3 ∧
      (invY 8 rg + invCb 8 rg m) * (55 / 100) + 54 / 100 < 3 ∧
      (invY 8 rg + invG1 8 rg m + invG2 8 rg m) * (55 / 100) + 54 / 100 < 2 := by decide +kernel
  exact fun rg m => this m (mem_allMatrix m) rg (mem_allRange rg)

/-- The exact decoder inverts the exact encoder. -/
theorem spec_decode_encode (d : Nat) (hd : Depth d) (rg : YuvRange) (m : Matrix) (r g b : Rat) :
    exactR d rg m (exactY d rg m r g b) (exactCb d rg m r g b) (exactCr d rg m r g b) = r ∧
    exactG d rg m (exactY d rg m r g b) (exactCb d rg m r g b) (exactCr d rg m r g b) = g ∧
    exactB d rg m (exactY d rg m r g b) (exactCb d rg m r g b) (exactCr d rg m r g b) = b := by
  have h1 := maxV_pos hd
  have h2 := gainY_pos hd rg
  have h3 := gainC_pos hd rg
  have h4 := kg_pos m
  have h5 := one_sub_kr_pos m
  have h6 := one_sub_kb_pos m
  have nY : normY d rg (exactY d rg m r g b) = exactLuma d m r g b := by
    unfold normY exactY; field_simp; ring
  have nCb : normC d rg (exactCb d rg m r g b)
      = (b / maxV d - exactLuma d m r g b) / (2 * (1 - kb m)) := by
    unfold normC exactCb; field_simp; ring
  have nCr : normC d rg (exactCr d rg m r g b)
      = (r / maxV d - exactLuma d m r g b) / (2 * (1 - kr m)) := by
    unfold normC exactCr; field_simp; ring
  refine ⟨?_, ?_, ?_⟩
  · unfold exactR; rw [nY, nCr]; field_simp; ring
  · unfold exactG; rw [nY, nCr, nCb]
    unfold exactLuma
    have hkg : kg m = 1 - kr m - kb m := rfl
    field_simp
    rw [hkg]; ring
  · unfold exactB; rw [nY, nCb]; field_simp; ring

theorem int_lt_of_abs_lt {a b : Int} {n : Nat} (h : |(a : Rat) - b| < (n : Rat) + 1) :
    a - b ≤ n ∧ b - a ≤ n := by
  rw [abs_lt] at h
  obtain ⟨h1, h2⟩ := h
  have h2' : a - b < (n : Int) + 1 := by
    have : ((a - b : Int) : Rat) < (((n : Int) + 1 : Int) : Rat) := by push_cast; linarith
    exact_mod_cast this
  have h1' : b - a < (n : Int) + 1 := by
    have : ((b - a : Int) : Rat) < (((n : Int) + 1 : Int) : Rat) := by push_cast; linarith
    exact_mod_cast this
  omega

/-- C13: encoding any 8-bit RGB triple to 4:4:4 (Balanced or Professional) and decoding it with
the same matrix and range returns R and B within 2 and G within 1. -/
theorem c13_round_trip (p : Nat) (h : p = 13 ∨ p = 15) (rg : YuvRange) (m : Matrix)
    (r g b : Nat) (hr : r ≤ 255) (hg : g ≤ 255) (hb : b ≤ 255) (k) (hk : IsKernel k) :
    let c := getYuvRange 8 rg
    let t := searchForward p 8 rg m
    ∃ y cb cr r' g' b' : Int,
      encodeY p t c.biasY r g b = .ok y ∧ encodeCb p t c.biasUv r g b = .ok cb ∧
      encodeCr p t c.biasUv r g b = .ok cr ∧
      k (qrshr 13 8) (searchInverse 13 8 rg m) c.biasY c.biasUv (asU8 y) (asU8 cb) (asU8 cr)
        = .ok (r', g', b') ∧
      (r' - r ≤ 2 ∧ r - r' ≤ 2) ∧ (g' - g ≤ 1 ∧ g - g' ≤ 1) ∧ (b' - b ≤ 2 ∧ b - b' ≤ 2) := by
  intro c t
  obtain ⟨y, cb, cr, e1, e2, e3, d1, d2, d3⟩ := c11_encode_close_default p h rg m r g b hr hg hb
  obtain ⟨y_, cb_, cr_, f1, f2, f3, -, -, -, u1, u2, u3⟩ :=
    c09_encode_in_nominal_range p h rg m r g b hr hg hb
  rw [e1] at f1; rw [e2] at f2; rw [e3] at f3
  injection f1 with f1; injection f2 with f2; injection f3 with f3
  subst f1; subst f2; subst f3
  have v1 : asU8 y < 256 := by unfold asU8; omega
  have v2 : asU8 cb < 256 := by unfold asU8; omega
  have v3 : asU8 cr < 256 := by unfold asU8; omega
  obtain ⟨r', g', b', e, q1, q2, q3⟩ := c10_decode_close_8bit rg m k hk _ _ _ v1 v2 v3
  have w1 : ((asU8 y : Nat) : Rat) = (y : Rat) := by exact_mod_cast congrArg (Int.cast (R := Rat)) u1
  have w2 : ((asU8 cb : Nat) : Rat) = (cb : Rat) := by
    exact_mod_cast congrArg (Int.cast (R := Rat)) u2
  have w3 : ((asU8 cr : Nat) : Rat) = (cr : Rat) := by
    exact_mod_cast congrArg (Int.cast (R := Rat)) u3
  rw [w1, w2, w3] at q1 q2 q3
  obtain ⟨s1, s2, s3⟩ := spec_decode_encode 8 (Or.inl rfl) rg m r g b
  obtain ⟨i1, i2, i3, i4, i5, i6, i7, i8⟩ := inv_bounds rg m
  have sat : ∀ x : Nat, x ≤ 255 → satQ 8 (x : Rat) = x := by
    intro x hx
    apply satQ_id (by positivity)
    have : (x : Rat) ≤ 255 := by exact_mod_cast hx
    unfold maxV; norm_num; exact hx
  have prod : ∀ (c e D : Rat), 0 ≤ c → |e| ≤ D → |c * e| ≤ c * D := by
    intro c e D hc he; rw [abs_mul, abs_of_nonneg hc]; exact mul_le_mul_of_nonneg_left he hc
  have p1 := prod _ _ _ i1 d1
  have p2 := prod _ _ _ i2 d3
  have p3 := prod _ _ _ i3 d2
  have p4 := prod _ _ _ i4 d3
  have p5 := prod _ _ _ i5 d2
  refine ⟨y, cb, cr, r', g', b', e1, e2, e3, e, ?_, ?_, ?_⟩
  · have L : |exactR 8 rg m y cb cr - r| ≤ (invY 8 rg + invCr 8 rg m) * (55 / 100) := by
      have E : exactR 8 rg m y cb cr - r = invY 8 rg * ((y : Rat) - exactY 8 rg m r g b)
          + invCr 8 rg m * ((cr : Rat) - exactCr 8 rg m r g b) := by
        rw [exactR_eq]
        have := s1; rw [exactR_eq] at this
        linear_combination this
      rw [E]
      refine le_trans (abs_add_le _ _) ?_
      linarith
    have A : |(r' : Rat) - ((r : Int) : Rat)| < ((2 : Nat) : Rat) + 1 := by
      have t1 := satQ_lipschitz 8 (exactR 8 rg m y cb cr) r
      rw [sat r hr] at t1
      have t2 := abs_add_le ((r' : Rat) - satQ 8 (exactR 8 rg m y cb cr))
        (satQ 8 (exactR 8 rg m y cb cr) - r)
      rw [show (r' : Rat) - satQ 8 (exactR 8 rg m y cb cr) + (satQ 8 (exactR 8 rg m y cb cr) - r)
        = r' - r by ring] at t2
      push_cast; linarith
    exact int_lt_of_abs_lt A
  · have L : |exactG 8 rg m y cb cr - g| ≤ (invY 8 rg + invG1 8 rg m + invG2 8 rg m) * (55 / 100) := by
      have E : exactG 8 rg m y cb cr - g = invY 8 rg * ((y : Rat) - exactY 8 rg m r g b)
          - invG1 8 rg m * ((cr : Rat) - exactCr 8 rg m r g b)
          - invG2 8 rg m * ((cb : Rat) - exactCb 8 rg m r g b) := by
        rw [exactG_eq]
        have := s2; rw [exactG_eq] at this
        linear_combination this
      rw [E]
      refine le_trans (abs_sub _ _) ?_
      have := abs_sub (invY 8 rg * ((y : Rat) - exactY 8 rg m r g b))
        (invG1 8 rg m * ((cr : Rat) - exactCr 8 rg m r g b))
      linarith
    have A : |(g' : Rat) - ((g : Int) : Rat)| < ((1 : Nat) : Rat) + 1 := by
      have t1 := satQ_lipschitz 8 (exactG 8 rg m y cb cr) g
      rw [sat g hg] at t1
      have t2 := abs_add_le ((g' : Rat) - satQ 8 (exactG 8 rg m y cb cr))
        (satQ 8 (exactG 8 rg m y cb cr) - g)
      rw [show (g' : Rat) - satQ 8 (exactG 8 rg m y cb cr) + (satQ 8 (exactG 8 rg m y cb cr) - g)
        = g' - g by ring] at t2
      push_cast; linarith
    exact int_lt_of_abs_lt A
  · have L : |exactB 8 rg m y cb cr - b| ≤ (invY 8 rg + invCb 8 rg m) * (55 / 100) := by
      have E : exactB 8 rg m y cb cr - b = invY 8 rg * ((y : Rat) - exactY 8 rg m r g b)
          + invCb 8 rg m * ((cb : Rat) - exactCb 8 rg m r g b) := by
        rw [exactB_eq]
        have := s3; rw [exactB_eq] at this
        linear_combination this
      rw [E]
      refine le_trans (abs_add_le _ _) ?_
      linarith
    have A : |(b' : Rat) - ((b : Int) : Rat)| < ((2 : Nat) : Rat) + 1 := by
      have t1 := satQ_lipschitz 8 (exactB 8 rg m y cb cr) b
      rw [sat b hb] at t1
      have t2 := abs_add_le ((b' : Rat) - satQ 8 (exactB 8 rg m y cb cr))
        (satQ 8 (exactB 8 rg m y cb cr) - b)
      rw [show (b' : Rat) - satQ 8 (exactB 8 rg m y cb cr) + (satQ 8 (exactB 8 rg m y cb cr) - b)
        = b' - b by ring] at t2
      push_cast; linarith
    exact int_lt_of_abs_lt A

/-! ## C45: precision modes -/

/-- C45 (encoding): the values computed in any two modes, before the narrowing cast, differ by at
most 6; between Balanced and Professional by at most 1. -/
theorem c45_encode_modes (p p' : Nat) (h : EncPrec p) (h' : EncPrec p') (rg : YuvRange) (m : Matrix)
    (r g b : Nat) (hr : r ≤ 255) (hg : g ≤ 255) (hb : b ≤ 255) :
    let c := getYuvRange 8 rg
    ∃ y cb cr y' cb' cr' : Int,
      encodeY p (searchForward p 8 rg m) c.biasY r g b = .ok y ∧
      encodeCb p (searchForward p 8 rg m) c.biasUv r g b = .ok cb ∧
      encodeCr p (searchForward p 8 rg m) c.biasUv r g b = .ok cr ∧
      encodeY p' (searchForward p' 8 rg m) c.biasY r g b = .ok y' ∧
      encodeCb p' (searchForward p' 8 rg m) c.biasUv r g b = .ok cb' ∧
      encodeCr p' (searchForward p' 8 rg m) c.biasUv r g b = .ok cr' ∧
      (y - y' ≤ 6 ∧ y' - y ≤ 6) ∧ (cb - cb' ≤ 6 ∧ cb' - cb ≤ 6) ∧ (cr - cr' ≤ 6 ∧ cr' - cr ≤ 6) ∧
      (p ≠ 7 → p' ≠ 7 →
        (y - y' ≤ 1 ∧ y' - y ≤ 1) ∧ (cb - cb' ≤ 1 ∧ cb' - cb ≤ 1) ∧ (cr - cr' ≤ 1 ∧ cr' - cr ≤ 1)) := by
  intro c
  obtain ⟨y, cb, cr, e1, e2, e3, d1, d2, d3⟩ := c11_encode_close p h rg m r g b hr hg hb
  obtain ⟨y', cb', cr', e1', e2', e3', d1', d2', d3'⟩ := c11_encode_close p' h' rg m r g b hr hg hb
  have b6 : ∀ p, EncPrec p → (1 : Rat) / 2 + 383 / 2 ^ p < 7 / 2 := by
    intro p h; rcases h with rfl | rfl | rfl <;> norm_num
  have b1 : ∀ p, EncPrec p → p ≠ 7 → (1 : Rat) / 2 + 383 / 2 ^ p < 1 := by
    intro p h h7; rcases h with rfl | rfl | rfl
    · exact absurd rfl h7
    all_goals norm_num
  have tri : ∀ (a a' : Int) (E D D' : Rat), |(a : Rat) - E| ≤ D → |(a' : Rat) - E| ≤ D' →
      |(a : Rat) - a'| ≤ D + D' := by
    intro a a' E D D' h1 h2
    rw [abs_le] at *
    constructor <;> linarith [h1.1, h1.2, h2.1, h2.2]
  have t1 := tri _ _ _ _ _ d1 d1'
  have t2 := tri _ _ _ _ _ d2 d2'
  have t3 := tri _ _ _ _ _ d3 d3'
  refine ⟨y, cb, cr, y', cb', cr', e1, e2, e3, e1', e2', e3',
    int_lt_of_abs_lt (n := 6) ?_, int_lt_of_abs_lt (n := 6) ?_, int_lt_of_abs_lt (n := 6) ?_,
    fun h7 h7' => ⟨int_lt_of_abs_lt (n := 1) ?_, int_lt_of_abs_lt (n := 1) ?_,
      int_lt_of_abs_lt (n := 1) ?_⟩⟩
  all_goals
    have := b6 p h
    have := b6 p' h'
    push_cast
  · linarith
  · linarith
  · linarith
  all_goals
    have := b1 p h h7
    have := b1 p' h' h7'
    linarith

/-- Weighted distance of an integer coefficient set from the exact one. -/
def coefSlack (p : Nat) (t : InvCoef) (rg : YuvRange) (m : Matrix) : Rat :=
  |(t.y : Rat) / 2 ^ p - invY 8 rg| * 256 +
  max (|(t.cr : Rat) / 2 ^ p - invCr 8 rg m| * 128)
    (max (|(t.cb : Rat) / 2 ^ p - invCb 8 rg m| * 128)
      (|(t.g1 : Rat) / 2 ^ p - invG1 8 rg m| * 128 + |(t.g2 : Rat) / 2 ^ p - invG2 8 rg m| * 128))

theorem slack_err {p : Nat} {c : Int} {q x X : Rat} (hx : |x| ≤ X) :
    |(c : Rat) * x / 2 ^ p - q * x| ≤ |(c : Rat) / 2 ^ p - q| * X := by
  have e : (c : Rat) * x / 2 ^ p - q * x = ((c : Rat) / 2 ^ p - q) * x := by ring
  rw [e, abs_mul]
  exact mul_le_mul_of_nonneg_left hx (abs_nonneg _)

/-- Distance of the 8-bit decoder from the exact result in terms of the coefficient error only;
also covers the capped 6-bit mode. -/
theorem decode_slack (p : Nat) (h : DecodeCfg p 8) (rg : YuvRange) (m : Matrix)
    (k) (hk : IsKernel k) (q) (hq : IsShift p 8 q)
    (y u v : Nat) (hy : y < 256) (hu : u < 256) (hv : v < 256) :
    ∃ r g b : Int, k q (searchInverse p 8 rg m) (getYuvRange 8 rg).biasY
        (getYuvRange 8 rg).biasUv y u v = .ok (r, g, b) ∧
      |(r : Rat) - satQ 8 (exactR 8 rg m y u v)| ≤ 1 / 2 + coefSlack p (searchInverse p 8 rg m) rg m ∧
      |(g : Rat) - satQ 8 (exactG 8 rg m y u v)| ≤ 1 / 2 + coefSlack p (searchInverse p 8 rg m) rg m ∧
      |(b : Rat) - satQ 8 (exactB 8 rg m y u v)| ≤ 1 / 2 + coefSlack p (searchInverse p 8 rg m) rg m := by
  obtain ⟨qp, h1, h2⟩ := shift_spec h.pos hq
  have hn := near_of_lt (Nat.le_refl 8) rg (d := 8) hy hu hv
  have e := kernel_ok hk h1 (fits_search h rg m) hn
  have ay : |(y : Rat) - (getYuvRange 8 rg).biasY| ≤ 256 := by
    have := c10_abs_cast hn.y1 hn.y2; norm_num at this; exact this
  have au : |(u : Rat) - (getYuvRange 8 rg).biasUv| ≤ 128 := by
    have := c10_abs_cast hn.u1 hn.u2; norm_num at this; exact this
  have av : |(v : Rat) - (getYuvRange 8 rg).biasUv| ≤ 128 := by
    have := c10_abs_cast hn.v1 hn.v2; norm_num at this; exact this
  have ey := slack_err (p := p) (c := (searchInverse p 8 rg m).y) (q := invY 8 rg) ay
  have er := slack_err (p := p) (c := (searchInverse p 8 rg m).cr) (q := invCr 8 rg m) av
  have eb := slack_err (p := p) (c := (searchInverse p 8 rg m).cb) (q := invCb 8 rg m) au
  have eg1 := slack_err (p := p) (c := (searchInverse p 8 rg m).g1) (q := invG1 8 rg m) av
  have eg2 := slack_err (p := p) (c := (searchInverse p 8 rg m).g2) (q := invG2 8 rg m) au
  have m1 : ∀ a b c : Rat, a ≤ max a (max b c) := fun a b c => le_max_left _ _
  have m2 : ∀ a b c : Rat, b ≤ max a (max b c) := fun a b c =>
    le_trans (le_max_left _ _) (le_max_right _ _)
  have m3 : ∀ a b c : Rat, c ≤ max a (max b c) := fun a b c =>
    le_trans (le_max_right _ _) (le_max_right _ _)
  refine ⟨_, _, _, e, ?_, ?_, ?_⟩
  · obtain ⟨n, a1, a2⟩ := h2 (sumR (searchInverse p 8 rg m) (getYuvRange 8 rg).biasY
      (getYuvRange 8 rg).biasUv y v)
    show |((qp _ : Int) : Rat) - _| ≤ _
    rw [a2]
    refine sat_close a1 ?_
    rw [exactR_eq, offY_eq, offC_eq rg]
    have : ((sumR (searchInverse p 8 rg m) (getYuvRange 8 rg).biasY (getYuvRange 8 rg).biasUv y v
        : Int) : Rat) / 2 ^ p - (invY 8 rg * ((y : Rat) - (getYuvRange 8 rg).biasY)
        + invCr 8 rg m * ((v : Rat) - (getYuvRange 8 rg).biasUv))
      = (((searchInverse p 8 rg m).y : Rat) * ((y : Rat) - (getYuvRange 8 rg).biasY) / 2 ^ p
          - invY 8 rg * ((y : Rat) - (getYuvRange 8 rg).biasY))
        + (((searchInverse p 8 rg m).cr : Rat) * ((v : Rat) - (getYuvRange 8 rg).biasUv) / 2 ^ p
          - invCr 8 rg m * ((v : Rat) - (getYuvRange 8 rg).biasUv)) := by
      unfold sumR; push_cast; ring
    rw [this]
    refine le_trans (abs_add_le _ _) (add_le_add ey (le_trans er (m1 _ _ _)))
  · obtain ⟨n, a1, a2⟩ := h2 (sumG (searchInverse p 8 rg m) (getYuvRange 8 rg).biasY
      (getYuvRange 8 rg).biasUv y u v)
    show |((qp _ : Int) : Rat) - _| ≤ _
    rw [a2]
    refine sat_close a1 ?_
    rw [exactG_eq, offY_eq, offC_eq rg]
    have : ((sumG (searchInverse p 8 rg m) (getYuvRange 8 rg).biasY (getYuvRange 8 rg).biasUv y u v
        : Int) : Rat) / 2 ^ p - (invY 8 rg * ((y : Rat) - (getYuvRange 8 rg).biasY)
        - invG1 8 rg m * ((v : Rat) - (getYuvRange 8 rg).biasUv)
        - invG2 8 rg m * ((u : Rat) - (getYuvRange 8 rg).biasUv))
      = (((searchInverse p 8 rg m).y : Rat) * ((y : Rat) - (getYuvRange 8 rg).biasY) / 2 ^ p
          - invY 8 rg * ((y : Rat) - (getYuvRange 8 rg).biasY))
        - ((((searchInverse p 8 rg m).g1 : Rat) * ((v : Rat) - (getYuvRange 8 rg).biasUv) / 2 ^ p
          - invG1 8 rg m * ((v : Rat) - (getYuvRange 8 rg).biasUv))
        + (((searchInverse p 8 rg m).g2 : Rat) * ((u : Rat) - (getYuvRange 8 rg).biasUv) / 2 ^ p
          - invG2 8 rg m * ((u : Rat) - (getYuvRange 8 rg).biasUv))) := by
      unfold sumG; push_cast; ring
    rw [this]
    refine le_trans (abs_sub _ _) (add_le_add ey (le_trans (le_trans (abs_add_le _ _)
      (add_le_add eg1 eg2)) (m3 _ _ _)))
  · obtain ⟨n, a1, a2⟩ := h2 (sumB (searchInverse p 8 rg m) (getYuvRange 8 rg).biasY
      (getYuvRange 8 rg).biasUv y u)
    show |((qp _ : Int) : Rat) - _| ≤ _
    rw [a2]
    refine sat_close a1 ?_
    rw [exactB_eq, offY_eq, offC_eq rg]
    have : ((sumB (searchInverse p 8 rg m) (getYuvRange 8 rg).biasY (getYuvRange 8 rg).biasUv y u
        : Int) : Rat) / 2 ^ p - (invY 8 rg * ((y : Rat) - (getYuvRange 8 rg).biasY)
        + invCb 8 rg m * ((u : Rat) - (getYuvRange 8 rg).biasUv))
      = (((searchInverse p 8 rg m).y : Rat) * ((y : Rat) - (getYuvRange 8 rg).biasY) / 2 ^ p
          - invY 8 rg * ((y : Rat) - (getYuvRange 8 rg).biasY))
        + (((searchInverse p 8 rg m).cb : Rat) * ((u : Rat) - (getYuvRange 8 rg).biasUv) / 2 ^ p
          - invCb 8 rg m * ((u : Rat) - (getYuvRange 8 rg).biasUv)) := by
      unfold sumB; push_cast; ring
    rw [this]
    refine le_trans (abs_add_le _ _) (add_le_add ey (le_trans eb (m2 _ _ _)))

theorem coefSlack_bound {p : Nat} (h : DecodeCfg p 8) (rg : YuvRange) (m : Matrix) :
    coefSlack p (searchInverse p 8 rg m) rg m ≤ 23 ∧
    (p ≠ 6 → coefSlack p (searchInverse p 8 rg m) rg m ≤ 1 / 4) := by
  have key : ∀ p ∈ [6, 13, 14], ∀ m ∈ allMatrix, ∀ rg ∈ allRange,
      coefSlack p (searchInverse p 8 rg m) rg m ≤ 23 ∧
      (p ≠ 6 → coefSlack p (searchInverse p 8 rg m) rg m ≤ 1 / 4) := by decide +kernel
  refine forall_mr (key p ?_) m rg
  rcases h with ⟨rfl, _⟩ | ⟨rfl, _⟩ | ⟨rfl, _⟩ <;> decide

/-- C45 (decoding): for every 8-bit sample triple any two decode modes (Fast = 6, Balanced = 13,
Professional = 14 bits) differ by at most 24 code values per component; Balanced and Professional
by at most 1. -/
theorem c45_decode_modes (p p' : Nat) (h : DecodeCfg p 8) (h' : DecodeCfg p' 8) (rg : YuvRange)
    (m : Matrix) (k k') (hk : IsKernel k) (hk' : IsKernel k')
    (y u v : Nat) (hy : y < 256) (hu : u < 256) (hv : v < 256) :
    let c := getYuvRange 8 rg
    ∃ r g b r' g' b' : Int,
      k (qrshr p 8) (searchInverse p 8 rg m) c.biasY c.biasUv y u v = .ok (r, g, b) ∧
      k' (qrshr p' 8) (searchInverse p' 8 rg m) c.biasY c.biasUv y u v = .ok (r', g', b') ∧
      (r - r' ≤ 24 ∧ r' - r ≤ 24) ∧ (g - g' ≤ 24 ∧ g' - g ≤ 24) ∧ (b - b' ≤ 24 ∧ b' - b ≤ 24) ∧
      (p ≠ 6 → p' ≠ 6 →
        (r - r' ≤ 1 ∧ r' - r ≤ 1) ∧ (g - g' ≤ 1 ∧ g' - g ≤ 1) ∧ (b - b' ≤ 1 ∧ b' - b ≤ 1)) := by
  intro c
  obtain ⟨r, g, b, e, d1, d2, d3⟩ := decode_slack p h rg m k hk _ (Or.inl rfl) y u v hy hu hv
  obtain ⟨r', g', b', e', d1', d2', d3'⟩ :=
    decode_slack p' h' rg m k' hk' _ (Or.inl rfl) y u v hy hu hv
  have tri : ∀ (a a' : Int) (E D D' : Rat), |(a : Rat) - E| ≤ D → |(a' : Rat) - E| ≤ D' →
      |(a : Rat) - a'| ≤ D + D' := by
    intro a a' E D D' h1 h2
    rw [abs_le] at *
    constructor <;> linarith [h1.1, h1.2, h2.1, h2.2]
  have t1 := tri _ _ _ _ _ d1 d1'
  have t2 := tri _ _ _ _ _ d2 d2'
  have t3 := tri _ _ _ _ _ d3 d3'
  obtain ⟨s1, s2⟩ := coefSlack_bound h rg m
  obtain ⟨s1', s2'⟩ := coefSlack_bound h' rg m
  have big : coefSlack p (searchInverse p 8 rg m) rg m
      + coefSlack p' (searchInverse p' 8 rg m) rg m < 24 ∨ (p = 6 ∧ p' = 6) := by
    by_cases h6 : p = 6
    · by_cases h6' : p' = 6
      · exact Or.inr ⟨h6, h6'⟩
      · left; have := s2' h6'; linarith
    · left; have := s2 h6; linarith
  rcases big with big | ⟨rfl, rfl⟩
  · refine ⟨r, g, b, r', g', b', e, e', int_lt_of_abs_lt (n := 24) ?_, int_lt_of_abs_lt (n := 24) ?_,
      int_lt_of_abs_lt (n := 24) ?_, fun h6 h6' => ?_⟩
    · push_cast; linarith
    · push_cast; linarith
    · push_cast; linarith
    · have := s2 h6
      have := s2' h6'
      refine ⟨int_lt_of_abs_lt (n := 1) ?_, int_lt_of_abs_lt (n := 1) ?_, int_lt_of_abs_lt (n := 1) ?_⟩
        <;> push_cast <;> linarith
  · have hn := near_of_lt (Nat.le_refl 8) rg (d := 8) hy hu hv
    have a1 := kernel_ok hk (qrshr_QOk 6 8) (fits_search h rg m) hn
    have a2 := kernel_ok hk' (qrshr_QOk 6 8) (fits_search h rg m) hn
    refine ⟨_, _, _, _, _, _, a1, a2, ?_⟩
    omega

end Verif
