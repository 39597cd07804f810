import Verif.Spec.F16
import Mathlib.Tactic.Linarith
import Mathlib.Tactic.Ring
import Mathlib.Tactic.FieldSimp
import Mathlib.Tactic.Positivity
/-!
# Rounding lemmas for binary32 and binary16
-/
namespace Verif
open Spec

theorem pow2_eq (e : Int) : pow2 e = (2 : Rat) ^ e := by
  unfold pow2
  split
  · rename_i h
    obtain ⟨n, rfl⟩ := Int.eq_ofNat_of_zero_le h
    simp
  · rename_i h
    obtain ⟨n, hn⟩ := Int.eq_ofNat_of_zero_le (show 0 ≤ -e by omega)
    have : e = -(n : Int) := by omega
    subst this
    simp

theorem two_zpow_pos (e : Int) : (0 : Rat) < 2 ^ e := by positivity

theorem ilog2_spec {a : Rat} (ha : 0 < a) :
    (2 : Rat) ^ ilog2 a ≤ a ∧ a < 2 ^ (ilog2 a + 1) := by
  have hn : 0 < a.num := Rat.num_pos.2 ha
  obtain ⟨n, hn'⟩ := Int.eq_ofNat_of_zero_le hn.le
  have hnpos : n ≠ 0 := by rintro rfl; simp [hn'] at hn
  have hden := a.den_nz
  have hab : a.num.natAbs = n := by rw [hn']; rfl
  have e0 : a = (n : Rat) / a.den := by
    conv_lhs => rw [← Rat.num_div_den a, hn']
    simp
  generalize hk : a.den = k at *
  have l1 := Nat.log2_self_le hnpos
  have l2 := Nat.lt_log2_self (n := n)
  have l3 := Nat.log2_self_le hden
  have l4 := Nat.lt_log2_self (n := k)
  have kpos : (0 : Rat) < k := by exact_mod_cast Nat.pos_of_ne_zero hden
  have m1 : (2 : Rat) ^ n.log2 ≤ n := by exact_mod_cast l1
  have m2 : (n : Rat) < 2 ^ (n.log2 + 1) := by exact_mod_cast l2
  have m3 : (2 : Rat) ^ k.log2 ≤ k := by exact_mod_cast l3
  have m4 : (k : Rat) < 2 ^ (k.log2 + 1) := by exact_mod_cast l4
  have lo : (2 : Rat) ^ ((n.log2 : Int) - k.log2 - 1) < a := by
    rw [e0, lt_div_iff₀ kpos]
    calc (2 : Rat) ^ ((n.log2 : Int) - k.log2 - 1) * k
        < 2 ^ ((n.log2 : Int) - k.log2 - 1) * 2 ^ (k.log2 + 1) :=
          mul_lt_mul_of_pos_left m4 (two_zpow_pos _)
      _ = 2 ^ n.log2 := by
          rw [← zpow_natCast, ← zpow_natCast, ← zpow_add₀ (by norm_num)]
          congr 1; push_cast; ring
      _ ≤ n := m1
  have hi : a < (2 : Rat) ^ ((n.log2 : Int) - k.log2 + 1) := by
    rw [e0, div_lt_iff₀ kpos]
    calc (n : Rat) < 2 ^ (n.log2 + 1) := m2
      _ = 2 ^ ((n.log2 : Int) - k.log2 + 1) * 2 ^ k.log2 := by
          rw [← zpow_natCast, ← zpow_natCast, ← zpow_add₀ (by norm_num)]
          congr 1; push_cast; ring
      _ ≤ 2 ^ ((n.log2 : Int) - k.log2 + 1) * k :=
          mul_le_mul_of_nonneg_left m3 (two_zpow_pos _).le
  have hE : ilog2 a = if pow2 ((n.log2 : Int) - k.log2) ≤ a then (n.log2 : Int) - k.log2
      else (n.log2 : Int) - k.log2 - 1 := by
    unfold ilog2
    simp only [hab, hk]
  rw [hE, pow2_eq]
  split
  · rename_i h
    exact ⟨h, hi⟩
  · rename_i h
    refine ⟨lo.le, ?_⟩
    rw [sub_add_cancel]
    exact not_le.1 h

theorem roundEven_near (q : Rat) : |(roundEven q : Rat) - q| ≤ 1 / 2 := by
  have h1 := Rat.floor_le q
  have h2 := Rat.lt_floor_add_one q
  push_cast at h2
  unfold roundEven
  simp only
  rw [abs_le]
  split
  · constructor <;> linarith
  · split
    · push_cast; constructor <;> linarith
    · split <;> push_cast <;> constructor <;> linarith

/-- A tie goes to the even neighbour. -/
theorem roundEven_tie {q : Rat} (h : |(roundEven q : Rat) - q| = 1 / 2) : roundEven q % 2 = 0 := by
  have h1 := Rat.floor_le q
  have h2 := Rat.lt_floor_add_one q
  push_cast at h2
  unfold roundEven at h ⊢
  simp only at h ⊢
  split at h
  · rename_i hr
    rcases abs_eq (by norm_num : (0 : Rat) ≤ 1 / 2) |>.1 h with h | h <;> linarith
  · split at h
    · rename_i hr
      push_cast at h
      rcases abs_eq (by norm_num : (0 : Rat) ≤ 1 / 2) |>.1 h with h | h <;> linarith
    · rw [if_neg (by assumption), if_neg (by assumption)]
      split <;> omega

theorem roundEven_int (n : Int) : roundEven (n : Rat) = n := by
  unfold roundEven
  simp

/-- No integer is nearer than the rounded one. -/
theorem roundEven_nearest (q : Rat) (n : Int) :
    n = roundEven q ∨ |(roundEven q : Rat) - q| < |(n : Rat) - q| ∨
      |(roundEven q : Rat) - q| = |(n : Rat) - q| ∧ roundEven q % 2 = 0 := by
  by_cases hn : n = roundEven q
  · exact Or.inl hn
  right
  have h := roundEven_near q
  have h1 : (1 : Rat) ≤ |(n : Rat) - roundEven q| := by
    have : (1 : Int) ≤ |n - roundEven q| := Int.one_le_abs (sub_ne_zero.2 hn)
    exact_mod_cast this
  have h2 : |(n : Rat) - roundEven q| ≤ |(n : Rat) - q| + |(roundEven q : Rat) - q| := by
    rw [abs_sub_comm (roundEven q : Rat) q]
    exact abs_sub_le _ _ _
  rcases lt_or_ge |(roundEven q : Rat) - q| |(n : Rat) - q| with h3 | h3
  · exact Or.inl h3
  · have e1 : |(roundEven q : Rat) - q| = 1 / 2 := by linarith
    exact Or.inr ⟨by linarith, roundEven_tie e1⟩

theorem roundEven_nonneg {q : Rat} (h : 0 ≤ q) : 0 ≤ roundEven q := by
  have := abs_le.1 (roundEven_near q)
  have h2 : (-1 : Rat) < roundEven q := by linarith
  have : (-1 : Int) < roundEven q := by exact_mod_cast h2
  omega

/-! ## binary32 -/

theorem rn32_err {q : Rat} (h : 0 ≤ q) : |rn32 q - q| ≤ q / 2 ^ 24 := by
  rcases h.eq_or_lt with rfl | hq
  · simp [rn32]
  unfold rn32
  rw [if_neg hq.ne', if_neg (not_lt.2 h)]
  simp only [pow2_eq]
  obtain ⟨l1, -⟩ := ilog2_spec hq
  have hr := roundEven_near (q * 2 ^ (23 - ilog2 q))
  generalize hE : ilog2 q = e at *
  have e1 : (2 : Rat) ^ (23 - e) * 2 ^ (e - 23) = 1 := by
    rw [← zpow_add₀ (by norm_num)]; norm_num
  have p := two_zpow_pos (e - 23)
  have e2 : (roundEven (q * 2 ^ (23 - e)) : Rat) * 2 ^ (e - 23) - q
      = ((roundEven (q * 2 ^ (23 - e)) : Rat) - q * 2 ^ (23 - e)) * 2 ^ (e - 23) := by
    rw [sub_mul, mul_assoc q, e1, mul_one]
  rw [e2, abs_mul, abs_of_pos p]
  have e3 : (2 : Rat) ^ (e - 23) = 2 ^ e * (1 / 2 ^ 23) := by
    rw [zpow_sub₀ (by norm_num)]; norm_num; ring
  calc _ ≤ 1 / 2 * 2 ^ (e - 23) := mul_le_mul_of_nonneg_right hr p.le
    _ = 2 ^ e / 2 ^ 24 := by rw [e3]; ring
    _ ≤ q / 2 ^ 24 := by
      apply div_le_div_of_nonneg_right l1; positivity

theorem rn32_nat {n : Nat} (h : n < 2 ^ 24) : rn32 (n : Rat) = n := by
  rcases Nat.eq_zero_or_pos n with rfl | hn
  · rfl
  have hq : (0 : Rat) < n := by exact_mod_cast hn
  unfold rn32
  rw [if_neg hq.ne', if_neg (not_lt.2 hq.le)]
  simp only [pow2_eq]
  obtain ⟨l1, -⟩ := ilog2_spec hq
  generalize ilog2 (n : Rat) = e at *
  have he : e < 24 := by
    by_contra hc
    have : (2 : Rat) ^ (24 : Int) ≤ 2 ^ e := zpow_le_zpow_right₀ (by norm_num) (by omega)
    have h2 : (n : Rat) < 16777216 := by exact_mod_cast h
    norm_num at this
    linarith
  obtain ⟨k, hk⟩ := Int.eq_ofNat_of_zero_le (show 0 ≤ 23 - e by omega)
  have e1 : (n : Rat) * 2 ^ (23 - e) = ((n * 2 ^ k : Nat) : Int) := by
    rw [hk]; push_cast; rfl
  rw [e1, roundEven_int, ← e1, mul_assoc, ← zpow_add₀ (by norm_num)]
  norm_num

theorem rn32_nonneg {q : Rat} (h : 0 ≤ q) : 0 ≤ rn32 q := by
  have h1 := abs_le.1 (rn32_err h)
  have : q / 2 ^ 24 ≤ q := by
    apply div_le_self h; norm_num
  linarith

/-! ## binary16 -/

/-- A finite pattern in units of `2^-24`. -/
def halfUnits (b : Nat) : Nat :=
  if b / 1024 = 0 then b else (1024 + b % 1024) * 2 ^ (b / 1024 - 1)

theorem f16Val_units (b : Nat) : f16Val b = (halfUnits b : Rat) / 2 ^ 24 := by
  unfold f16Val halfUnits
  split <;> norm_num

theorem halfValue_units (b : Nat) : halfValue b = (halfUnits b : Rat) / 2 ^ 24 := by
  unfold halfValue halfUnits
  split
  · rename_i h
    have : b % 1024 = b := by omega
    rw [this]
    have : (2 : Rat) ^ (-14 : Int) = 1 / 2 ^ 14 := by norm_num
    rw [this]; ring
  · rename_i h
    obtain ⟨k, hk⟩ : ∃ k, b / 1024 = k + 1 := ⟨b / 1024 - 1, by omega⟩
    rw [hk]
    have : (2 : Rat) ^ (((k + 1 : Nat) : Int) - 15) = 2 ^ k / 2 ^ 14 := by
      rw [show (((k + 1 : Nat) : Int) - 15) = (k : Int) - 14 by push_cast; ring,
        zpow_sub₀ (by norm_num), zpow_natCast]
      norm_num
    rw [this, Nat.add_sub_cancel]
    push_cast
    ring

theorem f16Val_eq (b : Nat) : f16Val b = halfValue b := by rw [f16Val_units, halfValue_units]

theorem halfUnits_lt_succ (b : Nat) : halfUnits b < halfUnits (b + 1) := by
  unfold halfUnits
  by_cases h : (b + 1) % 1024 = 0
  · have a2 : (b + 1) / 1024 = b / 1024 + 1 := by omega
    have a4 : b % 1024 = 1023 := by omega
    have a5 : b = b / 1024 * 1024 + b % 1024 := by omega
    rw [a2, h, a4]
    rw [a4] at a5
    generalize b / 1024 = k at *
    rw [if_neg (by omega : ¬k + 1 = 0), Nat.add_sub_cancel]
    split
    · rename_i h0; subst h0; omega
    · rename_i h0
      obtain ⟨j, rfl⟩ := Nat.exists_eq_succ_of_ne_zero h0
      have := Nat.two_pow_pos j
      rw [Nat.succ_sub_one, pow_succ]
      omega
  · rw [show (b + 1) / 1024 = b / 1024 by omega, show (b + 1) % 1024 = b % 1024 + 1 by omega]
    split
    · omega
    · have := Nat.two_pow_pos (b / 1024 - 1)
      exact Nat.mul_lt_mul_of_pos_right (by omega) this

theorem halfUnits_lt {a b : Nat} (h : a < b) : halfUnits a < halfUnits b :=
  strictMono_nat_of_lt_succ halfUnits_lt_succ h

theorem halfValue_lt {a b : Nat} (h : a < b) : halfValue a < halfValue b := by
  rw [halfValue_units, halfValue_units]
  have : (halfUnits a : Rat) < halfUnits b := by exact_mod_cast halfUnits_lt h
  linarith

theorem halfValue_inj {a b : Nat} (h : halfValue a = halfValue b) : a = b := by
  rcases lt_trichotomy a b with h1 | h1 | h1
  · exact absurd h (halfValue_lt h1).ne
  · exact h1
  · exact absurd h (halfValue_lt h1).ne'

theorem halfValue_nonneg (b : Nat) : 0 ≤ halfValue b := by rw [halfValue_units]; positivity

theorem halfUnits_pack {k m : Nat} (hm : m ≤ 2048) (hk : k = 0 ∨ 1024 ≤ m) :
    halfUnits (k * 1024 + m) = m * 2 ^ k := by
  unfold halfUnits
  by_cases h : m < 1024
  · obtain rfl : k = 0 := by omega
    rw [if_pos (by omega)]; omega
  · by_cases h2 : m = 2048
    · subst h2
      have a1 : (k * 1024 + 2048) / 1024 = k + 2 := by omega
      have a2 : (k * 1024 + 2048) % 1024 = 0 := by omega
      have a3 : k + 2 - 1 = k + 1 := by omega
      rw [a1, a2, if_neg (by omega), a3, pow_succ]
      omega
    · rw [if_neg (by omega), show (k * 1024 + m) / 1024 = k + 1 by omega,
        show (k * 1024 + m) % 1024 = m - 1024 by omega, Nat.add_sub_cancel,
        show 1024 + (m - 1024) = m by omega]

/-- What `f16Of` computes: the significand `m` at exponent `k - 24`. -/
theorem f16Of_shape {q : Rat} (hq : 0 < q) (hlt : q < 65520) :
    ∃ k m : Nat, f16Of q = k * 1024 + m ∧ m ≤ 2048 ∧ (k = 0 ∨ 1024 ≤ m) ∧
      f16Of q < 31744 ∧ (m : Int) = roundEven (q * 2 ^ (24 - k : Int)) ∧
      (k = 0 ∨ (1024 : Rat) ≤ q * 2 ^ (24 - k : Int)) ∧ q * 2 ^ (24 - k : Int) < 2048 ∧
      (k : Int) = max (ilog2 q) (-14) + 14 := by
  obtain ⟨l1, l2⟩ := ilog2_spec hq
  obtain ⟨k, hk⟩ := Int.eq_ofNat_of_zero_le (show 0 ≤ max (ilog2 q) (-14) + 14 by omega)
  have hk' : max (ilog2 q) (-14) = (k : Int) - 14 := by omega
  have hx0 : 0 ≤ q * 2 ^ (24 - k : Int) := by positivity
  obtain ⟨m, hm⟩ := Int.eq_ofNat_of_zero_le (roundEven_nonneg hx0)
  have hr := abs_le.1 (roundEven_near (q * 2 ^ (24 - k : Int)))
  rw [hm] at hr
  have hup : q * 2 ^ (24 - k : Int) < 2048 := by
    have : q < 2 ^ ((k : Int) - 13) := lt_of_lt_of_le l2 (zpow_le_zpow_right₀ (by norm_num) (by omega))
    calc q * 2 ^ (24 - k : Int) < 2 ^ ((k : Int) - 13) * 2 ^ (24 - k : Int) :=
          mul_lt_mul_of_pos_right this (two_zpow_pos _)
      _ = 2048 := by rw [← zpow_add₀ (by norm_num)]; norm_num
  have hlo : k = 0 ∨ (1024 : Rat) ≤ q * 2 ^ (24 - k : Int) := by
    rcases Nat.eq_zero_or_pos k with h | h
    · exact Or.inl h
    right
    have e1 : ilog2 q = (k : Int) - 14 := by omega
    rw [e1] at l1
    calc (1024 : Rat) = 2 ^ ((k : Int) - 14) * 2 ^ (24 - k : Int) := by
          rw [← zpow_add₀ (by norm_num)]; norm_num
      _ ≤ q * 2 ^ (24 - k : Int) := mul_le_mul_of_nonneg_right l1 (two_zpow_pos _).le
  have hr1 : (-(1 / 2) : Rat) ≤ (m : Rat) - q * 2 ^ (24 - k : Int) := by exact_mod_cast hr.1
  have hr2 : (m : Rat) - q * 2 ^ (24 - k : Int) ≤ 1 / 2 := by exact_mod_cast hr.2
  have m1 : m ≤ 2048 := by
    have : (m : Rat) < 2049 := by linarith
    have : m < 2049 := by exact_mod_cast this
    omega
  have m2 : k = 0 ∨ 1024 ≤ m := by
    refine hlo.imp id fun h => ?_
    have : (1023 : Rat) < m := by linarith
    have : 1023 < m := by exact_mod_cast this
    omega
  have hk29 : (k : Int) ≤ 29 := by
    by_contra hc
    have h1 : ilog2 q = (k : Int) - 14 := by omega
    rw [h1] at l1
    have : (2 : Rat) ^ (16 : Int) ≤ 2 ^ ((k : Int) - 14) :=
      zpow_le_zpow_right₀ (by norm_num) (by omega)
    norm_num at this
    linarith
  have hb : k * 1024 + m < 31744 := by
    rcases Nat.lt_or_ge k 29 with h | h
    · omega
    · obtain rfl : k = 29 := by omega
      have e1 : q * (2 : Rat) ^ (24 - ((29 : Nat) : Int)) = q / 32 := by
        norm_num; ring
      rw [e1] at hr2
      have : (m : Rat) < 2048 := by linarith
      have : m < 2048 := by exact_mod_cast this
      omega
  have hf : f16Of q = k * 1024 + m := by
    unfold f16Of
    rw [if_neg hq.ne']
    simp only [pow2_eq]
    rw [hk', show (10 - ((k : Int) - 14)) = 24 - k by ring, hm,
      show ((k : Int) - 14 + 14).toNat = k by omega]
    simp only [Int.ofNat_eq_natCast, Int.toNat_natCast]
    omega
  exact ⟨k, m, hf, m1, m2, hf ▸ hb, by rw [hm], hlo, hup, by omega⟩

theorem units_scale (k : Nat) (q : Rat) : q * 2 ^ 24 = q * 2 ^ (24 - k : Int) * 2 ^ k := by
  rw [mul_assoc, ← zpow_natCast (2 : Rat) k, ← zpow_add₀ (by norm_num)]
  norm_num

theorem f16Of_zero : f16Of 0 = 0 := by simp [f16Of]

/-- The rounding is IEEE's. -/
theorem f16Of_nearest {q : Rat} (h : 0 ≤ q) (hlt : q < 65520) : NearestHalf q (f16Of q) := by
  rcases h.eq_or_lt with rfl | hq
  · refine ⟨by rw [f16Of_zero]; unfold Finite16; omega, fun b' _ hne => Or.inl ?_⟩
    rw [f16Of_zero] at hne ⊢
    have h0 : halfValue 0 = 0 := by norm_num [halfValue]
    have := halfValue_lt (Nat.pos_of_ne_zero hne)
    rw [h0] at this ⊢
    rw [sub_zero, sub_zero, abs_zero, abs_of_pos this]
    exact this
  obtain ⟨k, m, hf, hm, hkm, hb, hmr, hlo, -, -⟩ := f16Of_shape hq hlt
  refine ⟨hb, fun b' hb' hne => ?_⟩
  set x := q * (2 : Rat) ^ (24 - k : Int) with hx
  have key : ∀ u : Nat, |(u : Rat) / 2 ^ 24 - q| = |(u : Rat) / 2 ^ k - x| * (2 ^ k / 2 ^ 24) := by
    intro u
    have e : (u : Rat) / 2 ^ 24 - q = ((u : Rat) / 2 ^ k - x) * (2 ^ k / 2 ^ 24) := by
      have hu := units_scale k q
      rw [← hx] at hu
      have h1 : (0 : Rat) < 2 ^ k := by positivity
      field_simp
      linarith
    rw [e, abs_mul, abs_of_pos (show (0 : Rat) < 2 ^ k / 2 ^ 24 by positivity)]
  have hp : (0 : Rat) < 2 ^ k / 2 ^ 24 := by positivity
  have hp2 : (0 : Rat) < 2 ^ k := by positivity
  have hmU : halfUnits (f16Of q) = m * 2 ^ k := by rw [hf]; exact halfUnits_pack hm hkm
  have hmV : ((halfUnits (f16Of q) : Nat) : Rat) / 2 ^ k = m := by
    rw [hmU]; push_cast; field_simp
  rw [halfValue_units, halfValue_units, key, key, hmV]
  have hmq : (m : Rat) = (roundEven x : Rat) := by exact_mod_cast congrArg (Int.cast (R := Rat)) hmr
  by_cases hdvd : ∃ n, halfUnits b' = n * 2 ^ k
  · obtain ⟨n, hn⟩ := hdvd
    have hnV : ((halfUnits b' : Nat) : Rat) / 2 ^ k = n := by rw [hn]; push_cast; field_simp
    rw [hnV]
    rcases roundEven_nearest x n with h1 | h1 | ⟨h1, h2⟩
    · exfalso
      apply hne
      have h3 : (n : Int) = m := by rw [h1, hmr]
      have h4 : n = m := by exact_mod_cast h3
      have : halfUnits b' = halfUnits (f16Of q) := by rw [hn, hmU, h4]
      rcases lt_trichotomy b' (f16Of q) with h5 | h5 | h5
      · exact absurd this (halfUnits_lt h5).ne
      · exact h5
      · exact absurd this (halfUnits_lt h5).ne'
    · left
      rw [hmq]
      exact mul_lt_mul_of_pos_right (by exact_mod_cast h1) hp
    · right
      rw [hmq]
      have h1' : |(roundEven x : Rat) - x| = |(n : Rat) - x| := by exact_mod_cast h1
      refine ⟨by rw [h1'], ?_⟩
      rw [hf]
      have : (m : Int) % 2 = 0 := by rw [hmr]; exact h2
      omega
  · left
    apply mul_lt_mul_of_pos_right _ hp
    -- `b'` lies below the binade of `q`
    have hsmall : halfUnits b' < 1024 * 2 ^ k ∧ k ≠ 0 := by
      unfold halfUnits at hdvd ⊢
      by_cases h0 : b' / 1024 = 0
      · simp only [if_pos h0] at hdvd ⊢
        have : k ≠ 0 := by rintro rfl; exact hdvd ⟨b', by simp⟩
        have := Nat.two_pow_pos k
        exact ⟨by omega, by assumption⟩
      · simp only [if_neg h0] at hdvd ⊢
        have hlt : b' / 1024 - 1 < k := by
          by_contra hc
          apply hdvd
          refine ⟨(1024 + b' % 1024) * 2 ^ (b' / 1024 - 1 - k), ?_⟩
          rw [mul_assoc, ← pow_add]
          congr 2; omega
        refine ⟨?_, by omega⟩
        have h1 : (1024 + b' % 1024) * 2 ^ (b' / 1024 - 1) < 2048 * 2 ^ (b' / 1024 - 1) :=
          Nat.mul_lt_mul_of_pos_right (by omega) (Nat.two_pow_pos _)
        have h2 : 2 ^ (b' / 1024 - 1) * 2 ≤ 2 ^ k := by
          rw [← pow_succ]; exact Nat.pow_le_pow_right (by omega) (by omega)
        omega
    have hxlo := hlo.resolve_left hsmall.2
    have h1 : ((halfUnits b' : Nat) : Rat) / 2 ^ k < 1024 := by
      rw [div_lt_iff₀ hp2]; exact_mod_cast hsmall.1
    have h2 : |(m : Rat) - x| ≤ |(1024 : Rat) - x| := by
      have := roundEven_nearest x 1024
      rw [hmq]
      rcases this with h | h | h
      · rw [← h]; norm_num
      · exact (by exact_mod_cast h.le)
      · exact (by exact_mod_cast h.1.le)
    refine lt_of_le_of_lt h2 ?_
    rw [abs_of_nonpos (by linarith), abs_of_nonpos (by linarith)]
    linarith

/-- A number has one nearest half float. -/
theorem nearestHalf_unique {q : Rat} {a b : Nat} (ha : NearestHalf q a) (hb : NearestHalf q b) :
    a = b := by
  by_contra hne
  rcases ha.2 b hb.1 (Ne.symm hne) with h1 | ⟨h1, e1⟩ <;>
    rcases hb.2 a ha.1 hne with h2 | ⟨h2, e2⟩
  · linarith
  · linarith
  · linarith
  · -- equally near and both even: impossible, for `a + 1` lies between
    wlog hlt : a < b generalizing a b
    · exact this hb ha (Ne.symm hne) h2 e2 h1 e1 (by omega)
    have hm1 := halfValue_lt (Nat.lt_succ_self a)
    have hm2 : halfValue (a + 1) < halfValue b := halfValue_lt (by omega)
    have hf : Finite16 (a + 1) := by have := hb.1; unfold Finite16 at *; omega
    have h3 : |halfValue a - q| ≤ |halfValue (a + 1) - q| :=
      (ha.2 (a + 1) hf (by omega)).elim le_of_lt fun h => h.1.le
    have hm1' : halfValue a < halfValue (a + 1) := hm1
    rcases le_total (halfValue a) q with c1 | c1
    · rcases le_total (halfValue b) q with c2 | c2
      · rw [abs_of_nonpos (by linarith), abs_of_nonpos (by linarith)] at h1; linarith
      · rw [abs_of_nonpos (by linarith : halfValue a - q ≤ 0),
          abs_of_nonneg (by linarith : 0 ≤ halfValue b - q)] at h1
        rw [abs_of_nonpos (by linarith : halfValue a - q ≤ 0)] at h3
        rcases le_total (halfValue (a + 1)) q with c3 | c3
        · rw [abs_of_nonpos (by linarith)] at h3; linarith
        · rw [abs_of_nonneg (by linarith)] at h3; linarith
    · rw [abs_of_nonneg (by linarith), abs_of_nonneg (by linarith)] at h1; linarith

theorem f16Of_eq {q : Rat} (h : 0 ≤ q) (hlt : q < 65520) {b : Nat} (hb : NearestHalf q b) :
    f16Of q = b := nearestHalf_unique (f16Of_nearest h hlt) hb

/-- Rounding keeps the order. -/
theorem f16Of_mono {p q : Rat} (h : 0 ≤ p) (hpq : p ≤ q) (hlt : q < 65520) :
    f16Of p ≤ f16Of q := by
  by_contra hc
  have hP := f16Of_nearest h (by linarith)
  have hQ := f16Of_nearest (h.trans hpq) hlt
  have hv := halfValue_lt (not_le.1 hc)
  have h1 : |halfValue (f16Of p) - p| ≤ |halfValue (f16Of q) - p| :=
    (hP.2 _ hQ.1 (by omega)).elim le_of_lt fun h => h.1.le
  have h2 : |halfValue (f16Of q) - q| ≤ |halfValue (f16Of p) - q| :=
    (hQ.2 _ hP.1 (by omega)).elim le_of_lt fun h => h.1.le
  have h1' := sq_le_sq.2 h1
  have h2' := sq_le_sq.2 h2
  have hlt' : p < q ∨ p = q := hpq.lt_or_eq
  rcases hlt' with h3 | h3
  · nlinarith [mul_pos (sub_pos.2 hv) (sub_pos.2 h3)]
  · subst h3; omega

theorem f16Of_err {q : Rat} (h : 0 ≤ q) (hlt : q < 65520) :
    |halfValue (f16Of q) - q| ≤ max (q / 2 ^ 11) (1 / 2 ^ 25) := by
  rcases h.eq_or_lt with rfl | hq
  · rw [f16Of_zero]; norm_num [halfValue]
  obtain ⟨k, m, hf, hm, hkm, -, hmr, hlo, -, -⟩ := f16Of_shape hq hlt
  have hmU : halfUnits (f16Of q) = m * 2 ^ k := by rw [hf]; exact halfUnits_pack hm hkm
  have hr := roundEven_near (q * (2 : Rat) ^ (24 - k : Int))
  rw [← hmr] at hr
  have hu := units_scale k q
  have hp2 : (0 : Rat) < 2 ^ k := by positivity
  have e : halfValue (f16Of q) - q = ((m : Int) - q * (2 : Rat) ^ (24 - k : Int)) * (2 ^ k / 2 ^ 24) := by
    rw [halfValue_units, hmU]
    push_cast
    field_simp
    linarith
  rw [e, abs_mul, abs_of_pos (show (0 : Rat) < 2 ^ k / 2 ^ 24 by positivity)]
  have h1 := mul_le_mul_of_nonneg_right hr (show (0 : Rat) ≤ 2 ^ k / 2 ^ 24 by positivity)
  refine h1.trans ?_
  rcases hlo with rfl | h2
  · refine le_max_of_le_right ?_
    norm_num
  · refine le_max_of_le_left ?_
    have : (1024 : Rat) * 2 ^ k ≤ q * 2 ^ 24 := by
      rw [hu]; exact mul_le_mul_of_nonneg_right h2 hp2.le
    have e2 : (1 : Rat) / 2 * (2 ^ k / 2 ^ 24) = (1024 * 2 ^ k) / (2 ^ 24 * 2 ^ 11) := by ring
    rw [e2, div_le_div_iff₀ (by positivity) (by positivity)]
    nlinarith

/-- Numbers with an 11-bit significand are half floats. -/
theorem f16Of_exact {n : Nat} {j : Int} (hn : n < 2048) (hj : -24 ≤ j)
    (hlt : (n : Rat) * 2 ^ j < 65520) : halfValue (f16Of ((n : Rat) * 2 ^ j)) = n * 2 ^ j := by
  rcases Nat.eq_zero_or_pos n with rfl | hpos
  · simp [f16Of_zero, halfValue]
  have hq : (0 : Rat) < (n : Rat) * 2 ^ j := by positivity
  obtain ⟨k, m, hf, hm, hkm, -, hmr, -, -, hk⟩ := f16Of_shape hq hlt
  obtain ⟨l1, -⟩ := ilog2_spec hq
  have hE : ilog2 ((n : Rat) * 2 ^ j) < 11 + j := by
    by_contra hc
    have h1 : (2 : Rat) ^ (11 + j) ≤ 2 ^ ilog2 ((n : Rat) * 2 ^ j) :=
      zpow_le_zpow_right₀ (by norm_num) (not_lt.1 hc)
    rw [zpow_add₀ (by norm_num)] at h1
    have h2 : (n : Rat) < 2048 := by exact_mod_cast hn
    have h3 := mul_lt_mul_of_pos_right h2 (two_zpow_pos j)
    norm_num at h1
    linarith
  have hkj : (k : Int) ≤ 24 + j := by omega
  obtain ⟨i, hi⟩ := Int.eq_ofNat_of_zero_le (show 0 ≤ 24 + j - k by omega)
  have hx : (n : Rat) * 2 ^ j * 2 ^ (24 - k : Int) = ((n * 2 ^ i : Nat) : Int) := by
    rw [mul_assoc, ← zpow_add₀ (by norm_num), show j + (24 - k : Int) = i by omega]
    push_cast; rfl
  have hmU : halfUnits (f16Of ((n : Rat) * 2 ^ j)) = m * 2 ^ k := by
    rw [hf]; exact halfUnits_pack hm hkm
  rw [hx, roundEven_int] at hmr
  have hm' : m = n * 2 ^ i := by exact_mod_cast hmr
  have hu := units_scale k ((n : Rat) * 2 ^ j)
  rw [hx] at hu
  rw [halfValue_units, hmU, hm', div_eq_iff (by positivity), hu]
  push_cast; ring

theorem f16Of_one : f16Of 1 = 15360 := by decide +kernel

/-- Dividing a half float of at least 1 by up to `2^14` is exact. -/
theorem half_shift_exact {b d : Nat} (h1 : 15360 ≤ b) (h2 : b < 31744) (hd : d ≤ 14) :
    halfValue (f16Of (halfValue b * (1 / 2 ^ d))) = halfValue b * (1 / 2 ^ d) := by
  have hU : halfUnits b = (1024 + b % 1024) * 2 ^ (b / 1024 - 1) := by
    unfold halfUnits; rw [if_neg (by omega)]
  have e : halfValue b * (1 / 2 ^ d)
      = ((1024 + b % 1024 : Nat) : Rat) * 2 ^ (((b / 1024 - 1 : Nat) : Int) - 24 - d) := by
    rw [halfValue_units, hU, zpow_sub₀ (by norm_num), zpow_sub₀ (by norm_num), zpow_natCast,
      zpow_natCast]
    push_cast
    norm_num
    ring
  have hlt : halfValue b * (1 / 2 ^ d) < 65520 := by
    have h3 : halfValue b ≤ halfValue 31743 := by
      rcases Nat.lt_or_ge b 31743 with h | h
      · exact (halfValue_lt h).le
      · rw [show b = 31743 by omega]
    have h4 : halfValue 31743 = 65504 := by norm_num [halfValue]
    have h5 : (1 : Rat) / 2 ^ d ≤ 1 := by
      rw [div_le_one (by positivity)]; exact one_le_pow₀ (by norm_num)
    calc halfValue b * (1 / 2 ^ d) ≤ halfValue b * 1 :=
          mul_le_mul_of_nonneg_left h5 (halfValue_nonneg b)
      _ < 65520 := by linarith
  rw [e] at hlt ⊢
  exact f16Of_exact (by omega) (by omega) hlt

theorem f16OfInt_nat (v : Nat) : f16OfInt (v : Int) = f16Of (v : Rat) := by
  unfold f16OfInt
  rw [if_neg (by omega)]
  simp

theorem f16Scaled_nat {d v : Nat} (hv : v < 65520) :
    f16Scaled d v = f16Of (halfValue (f16Of (v : Rat)) * halfValue (f16Scale d)) := by
  have hb := (f16Of_nearest (q := (v : Rat)) (by positivity) (by exact_mod_cast hv)).1
  unfold Finite16 at hb
  unfold f16Scaled f16Mul
  rw [f16OfInt_nat, Nat.mod_eq_of_lt (by omega), if_neg (by omega), Nat.div_eq_of_lt (by omega),
    f16Val_eq, f16Val_eq]
  omega

theorem f16Of_nat_ge {v : Nat} (h : 1 ≤ v) (hv : v < 65520) : 15360 ≤ f16Of (v : Rat) := by
  rw [← f16Of_one]
  exact f16Of_mono (by norm_num) (by exact_mod_cast h) (by exact_mod_cast hv)

theorem f16Of_nat_err {v : Nat} (hv : v < 65520) :
    |halfValue (f16Of (v : Rat)) - v| ≤ v / 2 ^ 11 := by
  rcases Nat.eq_zero_or_pos v with rfl | h
  · simp [f16Of_zero, halfValue]
  · have := f16Of_err (q := (v : Rat)) (by positivity) (by exact_mod_cast hv)
    have h1 : (1 : Rat) ≤ v := by exact_mod_cast h
    rwa [max_eq_left (by norm_num; linarith)] at this

theorem f16Of_nat_exact {v : Nat} (hv : v < 2048) : halfValue (f16Of (v : Rat)) = v := by
  have h1 : (v : Rat) < 2048 := by exact_mod_cast hv
  have := f16Of_exact (n := v) (j := 0) hv (by norm_num) (by simp; linarith)
  simpa using this

/-! ## Order of binary32 rounding -/

theorem roundEven_mono {p q : Rat} (h : p ≤ q) : roundEven p ≤ roundEven q := by
  by_contra hc
  have h1 := abs_le.1 (roundEven_near p)
  have h2 := abs_le.1 (roundEven_near q)
  have h3 : (roundEven q : Rat) + 1 ≤ roundEven p := by
    have : roundEven q + 1 ≤ roundEven p := by omega
    exact_mod_cast this
  have : p = q := by linarith
  subst this; omega

theorem rn32_mono {p q : Rat} (h : 0 ≤ p) (hpq : p ≤ q) : rn32 p ≤ rn32 q := by
  rcases h.eq_or_lt with rfl | hp
  · rw [show rn32 0 = 0 by simp [rn32]]; exact rn32_nonneg hpq
  have hq : 0 < q := lt_of_lt_of_le hp hpq
  obtain ⟨p1, p2⟩ := ilog2_spec hp
  obtain ⟨q1, q2⟩ := ilog2_spec hq
  have hle : ilog2 p ≤ ilog2 q := by
    by_contra hc
    have : (2 : Rat) ^ (ilog2 q + 1) ≤ 2 ^ ilog2 p := zpow_le_zpow_right₀ (by norm_num) (by omega)
    linarith
  unfold rn32
  rw [if_neg hp.ne', if_neg hq.ne', if_neg (not_lt.2 hp.le), if_neg (not_lt.2 hq.le)]
  simp only [pow2_eq]
  rcases hle.eq_or_lt with he | hlt
  · rw [he]
    refine mul_le_mul_of_nonneg_right ?_ (two_zpow_pos _).le
    have := roundEven_mono (mul_le_mul_of_nonneg_right hpq (two_zpow_pos (23 - ilog2 q)).le)
    exact_mod_cast this
  · have a1 : (roundEven (p * 2 ^ (23 - ilog2 p)) : Rat) ≤ 2 ^ 24 := by
      have hx : p * 2 ^ (23 - ilog2 p) ≤ ((2 ^ 24 : Int) : Rat) := by
        calc p * 2 ^ (23 - ilog2 p) ≤ 2 ^ (ilog2 p + 1) * 2 ^ (23 - ilog2 p) :=
              mul_le_mul_of_nonneg_right p2.le (two_zpow_pos _).le
          _ = ((2 ^ 24 : Int) : Rat) := by
              rw [← zpow_add₀ (by norm_num), show ilog2 p + 1 + (23 - ilog2 p) = 24 by ring]; norm_num
      have := roundEven_mono hx
      rw [roundEven_int] at this
      exact_mod_cast this
    have a2 : (2 : Rat) ^ 23 ≤ roundEven (q * 2 ^ (23 - ilog2 q)) := by
      have hx : ((2 ^ 23 : Int) : Rat) ≤ q * 2 ^ (23 - ilog2 q) := by
        calc ((2 ^ 23 : Int) : Rat) = 2 ^ (ilog2 q) * 2 ^ (23 - ilog2 q) := by
              rw [← zpow_add₀ (by norm_num)]; norm_num
          _ ≤ q * 2 ^ (23 - ilog2 q) := mul_le_mul_of_nonneg_right q1 (two_zpow_pos _).le
      have := roundEven_mono hx
      rw [roundEven_int] at this
      exact_mod_cast this
    calc (roundEven (p * 2 ^ (23 - ilog2 p)) : Rat) * 2 ^ (ilog2 p - 23)
        ≤ 2 ^ 24 * 2 ^ (ilog2 p - 23) := mul_le_mul_of_nonneg_right a1 (two_zpow_pos _).le
      _ = 2 ^ (ilog2 p + 1) := by
          rw [← zpow_natCast (2 : Rat) 24, ← zpow_add₀ (by norm_num)]; congr 1; push_cast; ring
      _ ≤ 2 ^ (ilog2 q) := zpow_le_zpow_right₀ (by norm_num) (by omega)
      _ = 2 ^ 23 * 2 ^ (ilog2 q - 23) := by
          rw [← zpow_natCast (2 : Rat) 23, ← zpow_add₀ (by norm_num)]; congr 1; push_cast; ring
      _ ≤ _ := mul_le_mul_of_nonneg_right a2 (two_zpow_pos _).le

theorem ratFloor_eq {q : Rat} {n : Int} (h1 : (n : Rat) ≤ q) (h2 : q < n + 1) : q.floor = n := by
  have a : n ≤ q.floor := Rat.le_floor_iff.2 h1
  have b := Rat.floor_le q
  have c : q.floor < n + 1 := by
    have : (q.floor : Rat) < ((n + 1 : Int) : Rat) := by push_cast; linarith
    exact_mod_cast this
  omega

theorem roundAway_eq {q : Rat} {v : Nat} (h : |q - v| < 1 / 2) : roundAway q = v := by
  obtain ⟨h1, h2⟩ := abs_lt.1 h
  unfold roundAway
  split
  · rename_i hq
    have hv : v = 0 := by
      by_contra hc
      have : (1 : Rat) ≤ v := by exact_mod_cast Nat.one_le_iff_ne_zero.2 hc
      linarith
    subst hv
    have : (-q + 1 / 2).floor = 0 := by
      apply ratFloor_eq <;> push_cast at * <;> linarith
    omega
  · apply ratFloor_eq <;> push_cast <;> linarith

theorem roundAway_near {q : Rat} (h : 0 ≤ q) : |((roundAway q).toNat : Rat) - q| ≤ 1 / 2 := by
  unfold roundAway
  rw [if_neg (not_lt.2 h)]
  have h1 := Rat.floor_le (q + 1 / 2)
  have h2 := Rat.lt_floor_add_one (q + 1 / 2)
  push_cast at h2
  have h0 : 0 ≤ (q + 1 / 2).floor := Rat.le_floor_iff.2 (by push_cast; linarith)
  obtain ⟨n, hn⟩ := Int.eq_ofNat_of_zero_le h0
  rw [hn] at h1 h2 ⊢
  simp only [Int.ofNat_eq_natCast, Int.toNat_natCast, Int.cast_natCast] at *
  rw [abs_le]
  constructor <;> linarith

theorem roundAway_mono {p q : Rat} (h : 0 ≤ p) (hpq : p ≤ q) : roundAway p ≤ roundAway q := by
  unfold roundAway
  rw [if_neg (not_lt.2 h), if_neg (not_lt.2 (h.trans hpq))]
  exact Rat.floor_monotone (by linarith)

end Verif
