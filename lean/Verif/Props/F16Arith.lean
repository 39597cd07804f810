import Verif.Lemmas.F16
/-!
# C47: arithmetic of the half-precision converters
-/
namespace Verif
open Spec

/-- The depths of the half-float decoders of YUV images. -/
def Spec.HalfDepth (d : Nat) : Prop := d = 10 ∨ d = 12 ∨ d = 14

/-- `b` is the half float a `d`-bit level `v` is stored as: the level and `1 / (2^d - 1)` are both
rounded to half precision, and so is their product. -/
def Spec.UnitHalf (d v b : Nat) : Prop :=
  ∃ a s, NearestHalf (v : Rat) a ∧ NearestHalf (1 / (2 ^ d - 1 : Rat)) s ∧
    NearestHalf (halfValue a * halfValue s) b

theorem unitHalf_unique {d v b b' : Nat} (h : UnitHalf d v b) (h' : UnitHalf d v b') : b = b' := by
  obtain ⟨a, s, h1, h2, h3⟩ := h
  obtain ⟨a', s', h1', h2', h3'⟩ := h'
  obtain rfl := nearestHalf_unique h1 h1'
  obtain rfl := nearestHalf_unique h2 h2'
  exact nearestHalf_unique h3 h3'

/-! ## Levels to half floats by a half-precision multiplication -/

theorem f16Scales : f16Scale 10 = 5121 ∧ f16Scale 12 = 3072 ∧ f16Scale 14 = 1024 ∧
    f16Scale 16 = 256 := by decide +kernel
theorem f16Scales' : f16Of (1 / 1023) = 5121 ∧ f16Of (1 / 4095) = 3072 ∧ f16Of (1 / 16383) = 1024 ∧
    f16Of (1 / 65535) = 256 := by decide +kernel
theorem scaleValues : halfValue 5121 = 1025 / 2 ^ 20 ∧ halfValue 3072 = 1 / 2 ^ 12 ∧
    halfValue 1024 = 1 / 2 ^ 14 ∧ halfValue 256 = 1 / 2 ^ 16 := by
  norm_num [halfValue]

theorem scale_nearest {d : Nat} (hd : HalfDepth d ∨ d = 16) :
    NearestHalf (1 / (2 ^ d - 1 : Rat)) (f16Scale d) ∧ halfValue (f16Scale d) ≤ 1 / 2 ^ 9 := by
  obtain ⟨a1, a2, a3, a4⟩ := f16Scales
  obtain ⟨b1, b2, b3, b4⟩ := f16Scales'
  obtain ⟨c1, c2, c3, c4⟩ := scaleValues
  rcases hd with (rfl | rfl | rfl) | rfl
  · rw [a1, c1, ← b1]; exact ⟨by norm_num; exact f16Of_nearest (by norm_num) (by norm_num), by norm_num⟩
  · rw [a2, c2, ← b2]; exact ⟨by norm_num; exact f16Of_nearest (by norm_num) (by norm_num), by norm_num⟩
  · rw [a3, c3, ← b3]; exact ⟨by norm_num; exact f16Of_nearest (by norm_num) (by norm_num), by norm_num⟩
  · rw [a4, c4, ← b4]; exact ⟨by norm_num; exact f16Of_nearest (by norm_num) (by norm_num), by norm_num⟩

theorem half_finite_lt {b : Nat} (h : Finite16 b) : halfValue b ≤ 65504 := by
  have h4 : halfValue 31743 = 65504 := by norm_num [halfValue]
  unfold Finite16 at h
  rcases Nat.lt_or_ge b 31743 with h' | h'
  · exact h4 ▸ (halfValue_lt h').le
  · rw [← h4, show b = 31743 by omega]

theorem scaled_product_lt {d v : Nat} (hd : HalfDepth d ∨ d = 16) (hv : v < 65520) :
    halfValue (f16Of (v : Rat)) * halfValue (f16Scale d) < 65520 := by
  have h1 := half_finite_lt (f16Of_nearest (q := (v : Rat)) (by positivity) (by exact_mod_cast hv)).1
  have h2 := (scale_nearest hd).2
  have h3 := halfValue_nonneg (f16Of (v : Rat))
  have h4 := halfValue_nonneg (f16Scale d)
  nlinarith

/-- C47: the stored half float is the rounded product of the rounded level and the rounded
reciprocal of the largest level. -/
theorem c47_unit_arith (d v : Nat) (hd : HalfDepth d ∨ d = 16) (hv : v < 65520) :
    UnitHalf d v (f16Scaled d v) := by
  refine ⟨f16Of (v : Rat), f16Scale d, f16Of_nearest (by positivity) (by exact_mod_cast hv),
    (scale_nearest hd).1, ?_⟩
  rw [f16Scaled_nat hv]
  exact f16Of_nearest (mul_nonneg (halfValue_nonneg _) (halfValue_nonneg _)) (scaled_product_lt hd hv)

theorem unitHalf_iff {d v b : Nat} (hd : HalfDepth d ∨ d = 16) (hv : v < 65520) :
    UnitHalf d v b ↔ b = f16Scaled d v :=
  ⟨fun h => unitHalf_unique h (c47_unit_arith d v hd hv), fun h => h ▸ c47_unit_arith d v hd hv⟩

theorem Spec.HalfDepth.lt {d v : Nat} (hd : HalfDepth d) (hv : v < 2 ^ d) : v < 65520 := by
  have : 2 ^ d ≤ 2 ^ 14 := Nat.pow_le_pow_right (by decide) (by rcases hd with rfl | rfl | rfl <;> decide)
  have e : 2 ^ 14 = 16384 := rfl
  rw [e] at this
  exact Nat.lt_of_lt_of_le hv (Nat.le_trans this (by decide))

/-- C47: the stored half float is monotone in the level. -/
theorem c47_unit_monotone (d v w b c : Nat) (hd : HalfDepth d ∨ d = 16) (hw : w < 65520)
    (h : v ≤ w) (hb : UnitHalf d v b) (hc : UnitHalf d w c) : b ≤ c := by
  rw [unitHalf_iff hd (by omega)] at hb
  rw [unitHalf_iff hd hw] at hc
  rw [hb, hc, f16Scaled_nat (by omega), f16Scaled_nat hw]
  have h1 : f16Of (v : Rat) ≤ f16Of (w : Rat) :=
    f16Of_mono (by positivity) (by exact_mod_cast h) (by exact_mod_cast hw)
  have h2 : halfValue (f16Of (v : Rat)) ≤ halfValue (f16Of (w : Rat)) := by
    rcases h1.eq_or_lt with e | e
    · rw [e]
    · exact (halfValue_lt e).le
  exact f16Of_mono (mul_nonneg (halfValue_nonneg _) (halfValue_nonneg _))
    (mul_le_mul_of_nonneg_right h2 (halfValue_nonneg _)) (scaled_product_lt hd hw)

theorem scaled_ends : f16Scaled 10 1023 = 15360 ∧ f16Scaled 12 4095 = 15360 ∧
    f16Scaled 14 16383 = 15360 ∧ f16Scaled 10 0 = 0 ∧ f16Scaled 12 0 = 0 ∧ f16Scaled 14 0 = 0 ∧
    f16Scaled 16 0 = 0 := by decide +kernel

theorem scaled_max {d : Nat} (hd : HalfDepth d) : f16Scaled d ((2 ^ d - 1 : Nat) : Int) = half1 := by
  obtain ⟨h1, h2, h3, -⟩ := scaled_ends
  rcases hd with rfl | rfl | rfl
  · rw [show ((2 ^ 10 - 1 : Nat) : Int) = 1023 by decide, h1]; rfl
  · rw [show ((2 ^ 12 - 1 : Nat) : Int) = 4095 by decide, h2]; rfl
  · rw [show ((2 ^ 14 - 1 : Nat) : Int) = 16383 by decide, h3]; rfl

/-- C47: 0 is stored as 0.0 and the largest level as exactly 1.0. -/
theorem c47_unit_ends (d b : Nat) (hd : HalfDepth d) :
    (UnitHalf d 0 b ↔ b = 0) ∧ (UnitHalf d (2 ^ d - 1) b ↔ b = half1) := by
  obtain ⟨-, -, -, h1, h2, h3, -⟩ := scaled_ends
  constructor
  · rw [unitHalf_iff (.inl hd) (by decide)]
    rcases hd with rfl | rfl | rfl <;> simp [h1, h2, h3]
  · rw [unitHalf_iff (.inl hd) (hd.lt (Nat.sub_lt (Nat.two_pow_pos d) Nat.one_pos)), scaled_max hd]

/-- C47: every stored half float lies in `[0, 1]`. -/
theorem c47_unit_range (d v b : Nat) (hd : HalfDepth d) (hv : v < 2 ^ d) (hb : UnitHalf d v b) :
    b ≤ half1 ∧ 0 ≤ halfValue b ∧ halfValue b ≤ 1 := by
  have h1 : 2 ^ d - 1 < 65520 := hd.lt (Nat.sub_lt (Nat.two_pow_pos d) Nat.one_pos)
  have h : b ≤ half1 := c47_unit_monotone d v (2 ^ d - 1) b half1 (.inl hd) h1 (by omega) hb
    ((c47_unit_ends d half1 hd).2.2 rfl)
  refine ⟨h, halfValue_nonneg b, ?_⟩
  have e : halfValue half1 = 1 := by norm_num [halfValue, half1]
  rcases h.eq_or_lt with h' | h'
  · rw [h', e]
  · exact e ▸ (halfValue_lt h').le

/-- C47: the stored half float is within a relative error of `2^-10` of `v / (2^d - 1)`. -/
theorem c47_unit_close (d v b : Nat) (hd : HalfDepth d) (hv : v < 2 ^ d) (hb : UnitHalf d v b) :
    |halfValue b - (v : Rat) / (2 ^ d - 1)| ≤ (v : Rat) / (2 ^ d - 1) / 2 ^ 10 := by
  have hlt := hd.lt hv
  rw [unitHalf_iff (.inl hd) hlt] at hb
  rcases Nat.eq_zero_or_pos v with rfl | hpos
  · rw [hb]
    obtain ⟨-, -, -, h1, h2, h3, -⟩ := scaled_ends
    rcases hd with rfl | rfl | rfl <;> simp [h1, h2, h3, halfValue]
  have hq : (0 : Rat) ≤ v := by positivity
  obtain ⟨a1, a2, a3, -⟩ := f16Scales
  obtain ⟨c1, c2, c3, -⟩ := scaleValues
  rw [f16Scaled_nat hlt] at hb
  have hge := f16Of_nat_ge hpos hlt
  have hfin := (f16Of_nearest hq (show (v : Rat) < 65520 by exact_mod_cast hlt)).1
  unfold Finite16 at hfin
  have herr := abs_le.1 (f16Of_nat_err hlt)
  rcases hd with rfl | rfl | rfl
  · rw [a1, c1, f16Of_nat_exact (by omega)] at hb
    have hv1 : (1 : Rat) ≤ v := by exact_mod_cast hpos
    have hv2 : (v : Rat) ≤ 1023 := by exact_mod_cast (show v ≤ 1023 by omega)
    have e := f16Of_err (q := (v : Rat) * (1025 / 2 ^ 20)) (by positivity) (by norm_num; linarith)
    rw [max_eq_left (by norm_num; linarith)] at e
    rw [← hb] at e
    have := abs_le.1 e
    rw [abs_le]; constructor <;> norm_num at * <;> linarith
  · rw [a2, c2] at hb
    rw [hb, half_shift_exact hge hfin (by norm_num), abs_le]
    constructor <;> norm_num at * <;> linarith
  · rw [a3, c3] at hb
    rw [hb, half_shift_exact hge hfin (by norm_num), abs_le]
    constructor <;> norm_num at * <;> linarith

/-- C47, 16 bits: levels below 65520 are within a relative error of `2^-9` plus half of the smallest
half float of `v / 65535`.  Missing: the levels from 65520 on, see `c47_unit16_infinite`. -/
theorem c47_unit16_close_partial (v b : Nat) (hv : v < 65520) (hb : UnitHalf 16 v b) :
    |halfValue b - (v : Rat) / (2 ^ 16 - 1)| ≤ (v : Rat) / (2 ^ 16 - 1) / 2 ^ 9 + 1 / 2 ^ 25 := by
  rw [unitHalf_iff (.inr rfl) hv, f16Scaled_nat hv, f16Scales.2.2.2, scaleValues.2.2.2] at hb
  have h0 := halfValue_nonneg (f16Of (v : Rat))
  have h1 := half_finite_lt (f16Of_nearest (q := (v : Rat)) (by positivity) (by exact_mod_cast hv)).1
  have e := f16Of_err (q := halfValue (f16Of (v : Rat)) * (1 / 2 ^ 16)) (by positivity) (by
    norm_num; linarith)
  rw [← hb] at e
  have hv0 : (0 : Rat) ≤ v := by positivity
  have herr := abs_le.1 (f16Of_nat_err hv)
  have hm : max (halfValue (f16Of (v : Rat)) * (1 / 2 ^ 16) / 2 ^ 11) (1 / 2 ^ 25)
      ≤ halfValue (f16Of (v : Rat)) * (1 / 2 ^ 16) / 2 ^ 11 + 1 / 2 ^ 25 := by
    apply max_le
    · norm_num
    · have : (0 : Rat) ≤ halfValue (f16Of (v : Rat)) * (1 / 2 ^ 16) / 2 ^ 11 := by positivity
      linarith
  have := abs_le.1 (e.trans hm)
  rw [abs_le]; constructor <;> norm_num at * <;> linarith

theorem f16Of_big {q : Rat} (h : 65520 ≤ q) : 31744 ≤ f16Of q := by
  have hq : 0 < q := by linarith
  obtain ⟨h1, h2⟩ := ilog2_spec hq
  have hl : 15 ≤ ilog2 q := by
    by_contra hc
    have : (2 : Rat) ^ (ilog2 q + 1) ≤ 2 ^ (15 : Int) := zpow_le_zpow_right₀ (by norm_num) (by omega)
    norm_num at this
    linarith
  unfold f16Of
  rw [if_neg hq.ne']
  simp only [pow2_eq]
  rw [max_eq_left (by omega)]
  refine le_min le_rfl ?_
  rcases (show ilog2 q = 15 ∨ 16 ≤ ilog2 q by omega) with e | e
  · rw [e]
    have : roundEven (65520 * 2 ^ (10 - 15 : Int)) ≤ roundEven (q * 2 ^ (10 - 15 : Int)) :=
      roundEven_mono (mul_le_mul_of_nonneg_right h (two_zpow_pos _).le)
    have e2 : roundEven (65520 * 2 ^ (10 - 15 : Int)) = 2048 := by norm_num; decide +kernel
    omega
  · have : roundEven (((1024 : Int) : Rat)) ≤ roundEven (q * 2 ^ (10 - ilog2 q)) := by
      apply roundEven_mono
      calc (((1024 : Int) : Rat)) = 2 ^ ilog2 q * 2 ^ (10 - ilog2 q) := by
            rw [← zpow_add₀ (by norm_num), show ilog2 q + (10 - ilog2 q) = 10 by ring]; norm_num
        _ ≤ _ := mul_le_mul_of_nonneg_right h1 (two_zpow_pos _).le
    rw [roundEven_int] at this
    omega

/-- The finding behind the missing part: every 16-bit level from 65520 on is stored as infinity. -/
theorem c47_unit16_infinite (v : Nat) (h1 : 65520 ≤ v) : f16Scaled 16 v = 31744 := by
  have h := f16Of_big (q := (v : Rat)) (by exact_mod_cast h1)
  have hle : f16Of (v : Rat) ≤ 31744 := by
    unfold f16Of; split
    · omega
    · exact min_le_left _ _
  have e : f16Of (v : Rat) = 31744 := le_antisymm hle h
  unfold f16Scaled f16Mul
  rw [f16OfInt_nat, e]
  rfl

/-! ## The element conversions -/

/-- `b` is the integer a finite half float scaled by `2^d - 1` is rounded to. -/
theorem scale32 {d : Nat} (h1 : 1 ≤ d) (h2 : d ≤ 16) :
    u32AsF32 (2 ^ d - 1) = (2 ^ d - 1 : Rat) := by
  have : 2 ^ d ≤ 2 ^ 16 := Nat.pow_le_pow_right (by norm_num) h2
  unfold u32AsF32
  rw [rn32_nat (by omega)]
  have := Nat.one_le_two_pow (n := d)
  push_cast [Nat.cast_sub this]
  rfl

theorem maxPos {d : Nat} (h1 : 1 ≤ d) : (1 : Rat) ≤ 2 ^ d - 1 := by
  have : (2 : Rat) ^ 1 ≤ 2 ^ d := pow_le_pow_right₀ (by norm_num) h1
  linarith

/-- The single-precision quotient the converter rounds. -/
def unit32 (d v : Nat) : Rat := fmul (u32AsF32 v) (fdiv 1 (u32AsF32 (2 ^ d - 1)))

theorem unit32_close {d v : Nat} (h1 : 1 ≤ d) (h2 : d ≤ 16) (hv : v < 2 ^ 24) :
    0 ≤ unit32 d v ∧ |unit32 d v - (v : Rat) / (2 ^ d - 1)| ≤ (v : Rat) / (2 ^ d - 1) * (3 / 2 ^ 24) := by
  have hM := maxPos h1
  unfold unit32 fmul fdiv
  rw [scale32 h1 h2, u32AsF32, rn32_nat hv]
  generalize (2 ^ d - 1 : Rat) = M at hM ⊢
  have hv0 : (0 : Rat) ≤ v := by positivity
  have hs0 : (0 : Rat) ≤ 1 / M := by positivity
  have hs := abs_le.1 (rn32_err hs0)
  have hsn := rn32_nonneg hs0
  have hx := abs_le.1 (rn32_err (mul_nonneg hv0 hsn))
  refine ⟨rn32_nonneg (mul_nonneg hv0 hsn), ?_⟩
  have e : (v : Rat) / M = v * (1 / M) := by ring
  rw [e]
  generalize rn32 (1 / M) = s at *
  generalize 1 / M = t at *
  have m1 := mul_le_mul_of_nonneg_left hs.1 hv0
  have m2 := mul_le_mul_of_nonneg_left hs.2 hv0
  have n0 := mul_nonneg hv0 hs0
  have n1 := mul_nonneg hv0 hsn
  rw [abs_le]
  constructor <;> norm_num at * <;> nlinarith

theorem toF16Elem_eq (d v : Nat) : toF16Elem d v = f16Of (unit32 d v) := rfl

theorem unit_le {d v : Nat} (h1 : 1 ≤ d) (hv : v < 2 ^ d) : (v : Rat) / (2 ^ d - 1) ≤ 1 := by
  rw [div_le_one (by linarith [maxPos h1])]
  have : v + 1 ≤ 2 ^ d := hv
  have : ((v + 1 : Nat) : Rat) ≤ ((2 ^ d : Nat) : Rat) := by exact_mod_cast this
  push_cast at this
  linarith

theorem pow_le16 {d : Nat} (h2 : d ≤ 16) : 2 ^ d ≤ 65536 :=
  Nat.pow_le_pow_right (by norm_num) h2

/-- C47: integers converted to half floats are finite and within `2^-11 + 2^-22` (relative) plus half
of the smallest half float of `v / (2^d - 1)`, at every depth up to 16. -/
theorem c47_to_f16_close (d v : Nat) (h1 : 1 ≤ d) (h2 : d ≤ 16) (hv : v < 2 ^ d) :
    Finite16 (toF16Elem d v) ∧
    |halfValue (toF16Elem d v) - (v : Rat) / (2 ^ d - 1)|
      ≤ (v : Rat) / (2 ^ d - 1) * (1 / 2 ^ 11 + 1 / 2 ^ 22) + 1 / 2 ^ 25 := by
  have hp := pow_le16 h2
  obtain ⟨h0, hc⟩ := unit32_close h1 h2 (show v < 2 ^ 24 by omega)
  have hu := unit_le h1 hv
  have ht : (0 : Rat) ≤ v / (2 ^ d - 1) := div_nonneg (by positivity) (by linarith [maxPos h1])
  rw [toF16Elem_eq]
  generalize unit32 d v = x at *
  generalize (v : Rat) / (2 ^ d - 1) = t at *
  have hc' := abs_le.1 hc
  have hlt : x < 65520 := by norm_num at *; linarith
  refine ⟨(f16Of_nearest h0 hlt).1, ?_⟩
  have e := f16Of_err h0 hlt
  have hm : max (x / 2 ^ 11) (1 / 2 ^ 25) ≤ x / 2 ^ 11 + 1 / 2 ^ 25 := by
    apply max_le
    · norm_num
    · have : 0 ≤ x / 2 ^ 11 := by positivity
      linarith
  have := abs_le.1 (e.trans hm)
  rw [abs_le]; constructor <;> norm_num at * <;> linarith

/-- C47: the conversion to half floats is monotone. -/
theorem c47_to_f16_monotone (d v w : Nat) (h1 : 1 ≤ d) (h2 : d ≤ 16) (h : v ≤ w) (hw : w < 2 ^ d) :
    toF16Elem d v ≤ toF16Elem d w := by
  have hp := pow_le16 h2
  obtain ⟨v0, -⟩ := unit32_close h1 h2 (show v < 2 ^ 24 by omega)
  obtain ⟨-, wc⟩ := unit32_close h1 h2 (show w < 2 ^ 24 by omega)
  have hu := unit_le h1 hw
  have hc' := abs_le.1 wc
  have ht : (0 : Rat) ≤ w / (2 ^ d - 1) := div_nonneg (by positivity) (by linarith [maxPos h1])
  rw [toF16Elem_eq, toF16Elem_eq]
  refine f16Of_mono v0 ?_ (by norm_num at *; linarith)
  unfold unit32 fmul fdiv u32AsF32
  rw [rn32_nat (show v < 2 ^ 24 by omega), rn32_nat (show w < 2 ^ 24 by omega)]
  have hs : 0 ≤ rn32 (1 / rn32 ((2 ^ d - 1 : Nat) : Rat)) :=
    rn32_nonneg (by have := rn32_nonneg (q := ((2 ^ d - 1 : Nat) : Rat)) (by positivity); positivity)
  exact rn32_mono (mul_nonneg (by positivity) hs)
    (mul_le_mul_of_nonneg_right (by exact_mod_cast h) hs)

theorem toF16_ends : ∀ d ∈ List.range 17, d ≠ 0 → toF16Elem d (2 ^ d - 1) = half1 ∧ toF16Elem d 0 = 0 := by
  decide +kernel

/-- C47: the largest integer of the depth becomes exactly 1.0, zero becomes 0.0. -/
theorem c47_to_f16_ends (d : Nat) (h1 : 1 ≤ d) (h2 : d ≤ 16) :
    toF16Elem d (2 ^ d - 1) = half1 ∧ toF16Elem d 0 = 0 :=
  toF16_ends d (List.mem_range.2 (by omega)) (by omega)

/-- C47: a finite, non-negative half float becomes the integer nearest to `value × (2^d - 1)` (up to
one single-precision rounding), saturated at the largest value `T` of the target *type*. -/
theorem c47_from_f16_close (T d b : Nat) (h1 : 1 ≤ d) (h2 : d ≤ 16) (hb : Finite16 b) :
    |(fromF16Elem T d b : Rat) - min (halfValue b * (2 ^ d - 1)) T|
      ≤ 1 / 2 + halfValue b * (2 ^ d - 1) / 2 ^ 24 := by
  have hM := maxPos h1
  unfold Finite16 at hb
  unfold fromF16Elem fmul
  rw [if_neg (by omega), if_neg (by omega), if_neg (by omega), scale32 h1 h2, f16Val_eq]
  have hy : 0 ≤ halfValue b * (2 ^ d - 1) := mul_nonneg (halfValue_nonneg b) (by linarith)
  generalize halfValue b * (2 ^ d - 1) = y at *
  have e1 := abs_le.1 (rn32_err hy)
  have e2 := abs_le.1 (roundAway_near (rn32_nonneg hy))
  generalize (roundAway (rn32 y)).toNat = n at *
  generalize rn32 y = x at *
  have hy2 : 0 ≤ y / 2 ^ 24 := by positivity
  rw [abs_le]
  push_cast
  rcases le_total (n : Rat) (T : Rat) with a | a <;> rcases le_total y (T : Rat) with b | b <;>
    simp only [min_eq_left, min_eq_right, a, b] <;> constructor <;> linarith

/-- C47: negative numbers and NaN become 0, infinity the largest value of the type. -/
theorem c47_from_f16_special (T d b : Nat) :
    (32768 ≤ b → fromF16Elem T d b = 0) ∧ (31744 < b → b < 32768 → fromF16Elem T d b = 0) ∧
    fromF16Elem T d 31744 = T := by
  unfold fromF16Elem
  refine ⟨fun h => if_pos h, fun h h' => ?_, rfl⟩
  rw [if_neg (by omega), if_pos h]

/-- C47: the conversion from half floats is monotone on finite, non-negative numbers. -/
theorem c47_from_f16_monotone (T d b c : Nat) (hc : Finite16 c) (h : b ≤ c) :
    fromF16Elem T d b ≤ fromF16Elem T d c := by
  unfold Finite16 at hc
  unfold fromF16Elem fmul u32AsF32
  rw [if_neg (by omega), if_neg (by omega), if_neg (by omega), if_neg (by omega), if_neg (by omega),
    if_neg (by omega), f16Val_eq, f16Val_eq]
  have hM : 0 ≤ rn32 ((2 ^ d - 1 : Nat) : Rat) := rn32_nonneg (by positivity)
  have hv : halfValue b ≤ halfValue c := by
    rcases h.eq_or_lt with e | e
    · rw [e]
    · exact (halfValue_lt e).le
  have h0 := mul_nonneg (halfValue_nonneg b) hM
  have := roundAway_mono (rn32_nonneg h0) (rn32_mono h0 (mul_le_mul_of_nonneg_right hv hM))
  omega

/-- C47: up to 10 bits, converting to half floats and back is the identity. -/
theorem c47_round_trip (T d v : Nat) (h1 : 1 ≤ d) (h2 : d ≤ 10) (hv : v < 2 ^ d) (hT : 2 ^ d ≤ T + 1) :
    fromF16Elem T d (toF16Elem d v) = v := by
  obtain ⟨hf, hc⟩ := c47_to_f16_close d v h1 (by omega) hv
  have hM := maxPos h1
  have hM2 : (2 ^ d - 1 : Rat) ≤ 1023 := by
    have : (2 : Rat) ^ d ≤ 2 ^ 10 := pow_le_pow_right₀ (by norm_num) h2
    norm_num at this; linarith
  have hv2 : (v : Rat) ≤ 2 ^ d - 1 := by
    have := unit_le h1 hv
    rwa [div_le_one (by linarith)] at this
  unfold Finite16 at hf
  unfold fromF16Elem fmul
  rw [if_neg (by omega), if_neg (by omega), if_neg (by omega), scale32 h1 (by omega), f16Val_eq]
  have h0 := halfValue_nonneg (toF16Elem d v)
  generalize halfValue (toF16Elem d v) = x at *
  have hr : roundAway (rn32 (x * (2 ^ d - 1))) = v := by
    apply roundAway_eq
    have e1 := abs_le.1 (rn32_err (mul_nonneg h0 (show (0 : Rat) ≤ 2 ^ d - 1 by linarith)))
    generalize (2 ^ d - 1 : Rat) = M at *
    have ht : (v : Rat) / M * M = v := div_mul_cancel₀ _ (by linarith)
    have hv0 : (0 : Rat) ≤ v := by positivity
    obtain ⟨c1, c2⟩ := abs_le.1 hc
    have m1 := mul_le_mul_of_nonneg_right c1 (show (0 : Rat) ≤ M by linarith)
    have m2 := mul_le_mul_of_nonneg_right c2 (show (0 : Rat) ≤ M by linarith)
    generalize hy : x * M = y at *
    have r1 : -(v * (1 / 2 ^ 11 + 1 / 2 ^ 22) + M / 2 ^ 25) ≤ y - v := by
      calc -(v * (1 / 2 ^ 11 + 1 / 2 ^ 22) + M / 2 ^ 25)
          = -((v / M * M) * (1 / 2 ^ 11 + 1 / 2 ^ 22) + M / 2 ^ 25) := by rw [ht]
        _ = -(v / M * (1 / 2 ^ 11 + 1 / 2 ^ 22) + 1 / 2 ^ 25) * M := by ring
        _ ≤ (x - v / M) * M := m1
        _ = y - v := by rw [sub_mul, ht, hy]
    have r2 : y - v ≤ v * (1 / 2 ^ 11 + 1 / 2 ^ 22) + M / 2 ^ 25 := by
      calc y - v = (x - v / M) * M := by rw [sub_mul, ht, hy]
        _ ≤ (v / M * (1 / 2 ^ 11 + 1 / 2 ^ 22) + 1 / 2 ^ 25) * M := m2
        _ = (v / M * M) * (1 / 2 ^ 11 + 1 / 2 ^ 22) + M / 2 ^ 25 := by ring
        _ = _ := by rw [ht]
    rw [abs_lt]
    constructor <;> norm_num at * <;> linarith
  rw [hr]
  omega

/-- At 12 bits the round trip is not the identity. -/
theorem c47_round_trip_12 : fromF16Elem 65535 12 (toF16Elem 12 2047) ≠ 2047 := by decide +kernel

/-- The conversion to integers saturates at the type, not at the depth: the 10-bit integer written
for the half float just above 1.0 does not fit in 10 bits. -/
theorem c47_from_f16_overshoot : fromF16Elem 65535 10 (half1 + 1) = 1024 := by decide +kernel

theorem tenBitTable : ∀ v ∈ List.range 1024, f16Scaled 10 (v : Int) = toF16Elem 10 v := by
  decide +kernel

/-- C47: at 10 bits the decoders' multiplication stores the same half float as the converter from
integers, so converting back yields the level. -/
theorem c47_ten_bit (v b : Nat) (hv : v < 1024) (hb : UnitHalf 10 v b) :
    b = toF16Elem 10 v ∧ fromF16Elem 65535 10 b = v := by
  rw [unitHalf_iff (.inl (.inl rfl)) (by omega)] at hb
  rw [hb, tenBitTable v (List.mem_range.2 hv)]
  exact ⟨rfl, c47_round_trip 65535 10 v (by decide) (by decide) hv (by decide)⟩

example : toF16Elem 10 512 = 14337 ∧ fromF16Elem 65535 10 14337 = 512 := by decide +kernel
example : UnitHalf 10 512 14337 := (unitHalf_iff (.inl (.inl rfl)) (by decide)).2 (by decide +kernel)

end Verif
