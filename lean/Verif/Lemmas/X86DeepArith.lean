import Verif.Lemmas.X86Deep
/-! # The arithmetic of the x86 kernels for 10- to 16-bit images -/
namespace Verif.X86
open Spec

/-- The coefficients fit an `i16` and the sums of the products an `i32`. -/
def DeepCoef (t : InvCoef) : Prop :=
  (-10000 ≤ t.y ∧ t.y ≤ 10000) ∧ (-20000 ≤ t.cr ∧ t.cr ≤ 20000) ∧ (-20000 ≤ t.cb ∧ t.cb ≤ 20000) ∧
    (-20000 ≤ t.g1 ∧ t.g1 ≤ 20000) ∧ (-20000 ≤ t.g2 ∧ t.g2 ≤ 20000)

theorem s16_bounds (a : Reg) (k : Nat) : -32768 ≤ s16 a k ∧ s16 a k ≤ 32767 := by
  unfold s16 asI16; omega

theorem w16_natCast {a : Reg} (h : RegBytes a) (k : Nat) : (w16 a k : Int) = s16 a k % 65536 := by
  have := w16_lt h k
  unfold s16 asI16; omega

/-- The rounding multiply, any word. -/
theorem s16_mulhrs_any (a : Reg) {t : Int} (ht : -32767 ≤ t ∧ t ≤ 32767) (k : Nat) :
    s16 (mulhrs16 a (set1_16 t)) k = mulRound (s16 a k) t := by
  have ha := s16_bounds a k
  have hb := mul_bounds (a := s16 a k) (t := t) (A := 32768) (T := 32767) (by omega) ht
  rw [mulhrs16, s16_mk16, s16_set1, asI16_id (x := t) (by omega) (by omega)]
  have e : (s16 a k * t / 16384 + 1) / 2 = mulRound (s16 a k) t := by
    unfold mulRound; generalize s16 a k * t = p; omega
  have e2 : -32768 ≤ mulRound (s16 a k) t ∧ mulRound (s16 a k) t ≤ 32767 := by
    unfold mulRound; generalize s16 a k * t = p at *; omega
  rw [e, asI16_id e2.1 e2.2]

theorem w16_set1 {x : Nat} (h : x < 65536) (k : Nat) : w16 (set1_16 (x : Int)) k = x := by
  rw [set1_16, w16_mk16, asU16_nat h]

theorem w16_subsU {a : Reg} (ha : RegBytes a) {b : Nat} (hb : b < 65536) (k : Nat) :
    w16 (subsU16 a (set1_16 (b : Int))) k = w16 a k - b := by
  have := w16_lt ha k
  rw [subsU16, w16_mk16, w16_set1 hb, asU16_nat (by omega)]

theorem or_lt16 {a b : Nat} (ha : a < 65536) (hb : b < 65536) : a ||| b < 65536 :=
  Nat.or_lt_two_pow (n := 16) ha hb

theorem w16_slli (n : Nat) (a : Reg) (k : Nat) : w16 (slli16 n a) k = w16 a k * 2 ^ n % 65536 := by
  rw [slli16, w16_mk16]; unfold asU16; omega

theorem expandBp_at {d : Nat} (hd : d = 10 ∨ d = 12) {a : Reg} (ha : RegBytes a) (k : Nat) :
    s16 (expandBp d a) k = longLuma d (w16 a k) := by
  have h := w16_lt ha k
  have key : ∀ n, s16 (or16 (slli16 2 a) (srli16 n a)) k
      = int16 ((4 * w16 a k % 65536 ||| w16 a k / 2 ^ n : Nat) : Int) := by
    intro n
    rw [or16, s16_mk16, w16_slli, w16_srli ha, Nat.mul_comm]; rfl
  rcases hd with rfl | rfl
  · exact key 8
  · exact key 10

theorem s16_slliSub {a : Reg} {b : Nat} (hb : b < 65536) (k : Nat) :
    s16 (slli16 2 (sub16 a (set1_16 (b : Int)))) k = int16 (4 * ((w16 a k : Int) - b)) := by
  rw [s16, w16_slli, sub16, w16_mk16, s16_set1, s16]
  generalize w16 a k = n
  unfold int16 asI16 asU16
  omega

theorem w16_limit {x : Reg} {d : Nat} (hd : d ≤ 15) (k : Nat) :
    w16 (minU16 (max16 x zero) (set1_16 (2 ^ d - 1))) k = saturate d (s16 x k) := by
  have hb := s16_bounds x k
  have h1 : (2 : Int) ^ d ≤ 2 ^ 15 := pow_le_pow_right₀ (by norm_num) hd
  have h0 : (1 : Int) ≤ 2 ^ d := one_le_pow₀ (by norm_num)
  have e : w16 (set1_16 ((2 : Int) ^ d - 1)) k = ((2 : Int) ^ d - 1).toNat := by
    rw [set1_16, w16_mk16]; unfold asU16
    generalize (2 : Int) ^ d = p at *
    omega
  rw [minU16, w16_mk16, max16, w16_mk16, s16_zero, e]
  unfold saturate asU16
  generalize (2 : Int) ^ d = p at *
  omega

/-- Word `k` of the three results is what `f` gives for words `k` of the three operands. -/
def TriplesAt (K : Reg → Reg → Reg → Reg × Reg × Reg) (f : Nat → Nat → Nat → Nat × Nat × Nat) : Prop :=
  ∀ y u v : Reg, RegBytes y → ∀ k, k < 16 → w16 (K y u v).1 k = (f (w16 y k) (w16 u k) (w16 v k)).1 ∧
    w16 (K y u v).2.1 k = (f (w16 y k) (w16 u k) (w16 v k)).2.1 ∧
    w16 (K y u v).2.2 k = (f (w16 y k) (w16 u k) (w16 v k)).2.2

theorem asI16_coef {t : Int} (h : -20000 ≤ t ∧ t ≤ 20000) : asI16 t = t := asI16_id (by omega) (by omega)

theorem int16_add3 (l a b : Int) : asI16 (asI16 (l + a) + b) = int16 (l + a + b) := by
  unfold int16 asI16; omega

theorem deepRgb_at {d : Nat} (hd : d = 10 ∨ d = 12) {c : ChromaRange} {t : InvCoef} (ht : DeepCoef t)
    (hby : c.biasY < 65536) (hbu : c.biasUv < 65536) :
    TriplesAt (deepRgb d c t) (deepVecRGB d c t) := by
  intro y u v hy k _
  obtain ⟨t1, t2, t3, t4, t5⟩ := ht
  have hd15 : d ≤ 15 := by rcases hd with rfl | rfl <;> decide
  have el : s16 (mulhrs16 (expandBp d (subsU16 y (set1_16 (c.biasY : Int)))) (set1_16 (asI16 t.y))) k
      = mulRound (longLuma d (w16 y k - c.biasY)) t.y := by
    rw [asI16_coef (by omega), s16_mulhrs_any _ (by omega), expandBp_at hd (a := subsU16 _ _) (mk16_bytes _),
      w16_subsU hy hby]
  refine ⟨?_, ?_, ?_⟩
  · simp only [deepRgb, deepVecRGB]
    rw [w16_limit hd15, s16_add, el, asI16_coef t2, s16_mulhrs_any _ (by omega), s16_slliSub hbu]
    rfl
  · simp only [deepRgb, deepVecRGB]
    rw [w16_limit hd15, s16_add, s16_add, el, asI16_coef t4, asI16_coef t5,
      s16_mulhrs_any _ (by omega), s16_mulhrs_any _ (by omega), s16_slliSub hbu, s16_slliSub hbu]
    exact congrArg _ (int16_add3 _ _ _)
  · simp only [deepRgb, deepVecRGB]
    rw [w16_limit hd15, s16_add, el, asI16_coef t3, s16_mulhrs_any _ (by omega), s16_slliSub hbu]
    rfl

/-! ## The 32-bit kernel -/

theorem w16_perm4 (a : Reg) {k : Nat} (hk : k < 16) :
    w16 (permute4x64 0xd8 a) k = w16 a (if k / 4 = 1 then k + 4 else if k / 4 = 2 then k - 4 else k) := by
  have h : k / 4 = 0 ∨ k / 4 = 1 ∨ k / 4 = 2 ∨ k / 4 = 3 := by omega
  unfold w16 permute4x64
  rw [show 2 * k / 8 = k / 4 by omega, show (2 * k + 1) / 8 = k / 4 by omega]
  rcases h with h | h | h | h <;> rw [h] <;> norm_num
  · rw [show 2 * k % 8 = 2 * k by omega, show (2 * k + 1) % 8 = 2 * k + 1 by omega]
  · rw [show 16 + 2 * k % 8 = 2 * (k + 4) by omega, show 16 + (2 * k + 1) % 8 = 2 * (k + 4) + 1 by omega]
  · rw [show 8 + 2 * k % 8 = 2 * (k - 4) by omega, show 8 + (2 * k + 1) % 8 = 2 * (k - 4) + 1 by omega]
  · rw [show 24 + 2 * k % 8 = 2 * k by omega, show 24 + (2 * k + 1) % 8 = 2 * k + 1 by omega]

/-- The pairs of chroma words, in the order of the unpacked luma. -/
theorem uvPairs (u v : Reg) {k : Nat} (hk : k < 8) :
    w16 (avx2Interleave16 (permute4x64 0xd8 u) (permute4x64 0xd8 v)).1 (2 * k) = w16 u (k / 4 * 8 + k % 4) ∧
    w16 (avx2Interleave16 (permute4x64 0xd8 u) (permute4x64 0xd8 v)).1 (2 * k + 1)
      = w16 v (k / 4 * 8 + k % 4) ∧
    w16 (avx2Interleave16 (permute4x64 0xd8 u) (permute4x64 0xd8 v)).2 (2 * k)
      = w16 u (k / 4 * 8 + 4 + k % 4) ∧
    w16 (avx2Interleave16 (permute4x64 0xd8 u) (permute4x64 0xd8 v)).2 (2 * k + 1)
      = w16 v (k / 4 * 8 + 4 + k % 4) := by
  simp only [avx2Interleave16]
  rw [w16_permLo _ _ (by omega), w16_permLo _ _ (by omega), w16_permHi _ _ (by omega),
    w16_permHi _ _ (by omega), w16_unpacklo2, w16_unpacklo2, w16_unpackhi2, w16_unpackhi2,
    w16_unpacklo2, w16_unpacklo2, w16_unpackhi2, w16_unpackhi2]
  have : k = 0 ∨ k = 1 ∨ k = 2 ∨ k = 3 ∨ k = 4 ∨ k = 5 ∨ k = 6 ∨ k = 7 := by omega
  rcases this with rfl | rfl | rfl | rfl | rfl | rfl | rfl | rfl <;>
    exact ⟨rfl, rfl, rfl, rfl⟩

theorem w16_packHalves {a b : Reg} {F : Nat → Int} (ha : ∀ k, k < 8 → s32 a k = F (k / 4 * 8 + k % 4))
    (hb : ∀ k, k < 8 → s32 b k = F (k / 4 * 8 + 4 + k % 4)) {k : Nat} (hk : k < 16) :
    w16 (packus32 a b) k = satU16 (F k) := by
  have h : satU16 (F k) < 65536 := by unfold satU16; omega
  rw [packus32, w16_mk16]
  have e : s32 (if k % 8 < 4 then a else b) (k / 8 * 4 + k % 4) = F k := by
    by_cases h : k % 8 < 4
    · rw [if_pos h, ha _ (by omega)]; congr 1; omega
    · rw [if_neg h, hb _ (by omega)]; congr 1; omega
  rw [e, asU16_nat h]

theorem w16_zero (k : Nat) : w16 zero k = 0 := rfl

theorem w32_unpackZero (y : Reg) (k : Nat) :
    w32 (unpacklo 2 y zero) k = w16 y (k / 4 * 8 + k % 4) ∧
    w32 (unpackhi 2 y zero) k = w16 y (k / 4 * 8 + 4 + k % 4) := by
  unfold w32
  rw [w16_unpacklo2, w16_unpacklo2, w16_unpackhi2, w16_unpackhi2, if_pos (by omega),
    if_neg (by omega), w16_zero, w16_zero]
  constructor
  · rw [Nat.mul_zero, Nat.add_zero]; congr 1; omega
  · rw [Nat.mul_zero, Nat.add_zero]; congr 1; omega

/-- The luma times its coefficient, as the 32-bit kernel takes it. -/
def wideY (d : Nat) (t : InvCoef) (yo : Nat) : Int :=
  (if d = 16 then (yo : Int) else int16 (yo : Int)) * t.y

theorem int16_bounds (x : Int) : -32768 ≤ int16 x ∧ int16 x ≤ 32767 := by unfold int16; omega

theorem wideY_bounds {d : Nat} {t : InvCoef} (h : -10000 ≤ t.y ∧ t.y ≤ 10000) {yo : Nat}
    (hy : yo < 65536) : -655350000 ≤ wideY d t yo ∧ wideY d t yo ≤ 655350000 := by
  have hb := int16_bounds yo
  unfold wideY
  have := mul_bounds (a := if d = 16 then (yo : Int) else int16 (yo : Int)) (A := 65535) (T := 10000)
    (by split <;> omega) h
  omega

theorem wideLuma_at {d : Nat} {t : InvCoef} (ht : -10000 ≤ t.y ∧ t.y ≤ 10000) {y : Reg}
    (hy : RegBytes y) (k : Nat) :
    s32 (wideLuma d t (unpacklo 2 y zero)) k = 4095 + wideY d t (w16 y (k / 4 * 8 + k % 4)) ∧
    s32 (wideLuma d t (unpackhi 2 y zero)) k = 4095 + wideY d t (w16 y (k / 4 * 8 + 4 + k % 4)) := by
  have base : s32 (set1_32 (2 ^ 12 - 1)) k = 4095 := by rw [s32_set1]; rfl
  have key : ∀ (r : Reg) (n : Nat), n < 65536 → w32 r k = n → s16 r (2 * k) = asI16 n →
      s16 r (2 * k + 1) = 0 → s32 (wideLuma d t r) k = 4095 + wideY d t n := by
    intro r n hn h1 h2 h3
    have hb := wideY_bounds (d := d) ht hn
    unfold wideLuma
    by_cases h16 : d = 16
    · simp only [if_pos h16]
      rw [s32_add, base, mullo32, s32_mk32, s32_set1, asI32_id (x := t.y) (by omega) (by omega)]
      have e : s32 r k = n := by rw [s32, h1, asI32_id (by omega) (by omega)]
      rw [e]
      have e2 : wideY d t n = n * t.y := by unfold wideY; rw [if_pos h16]
      rw [← e2, asI32_id (x := wideY d t n) (by omega) (by omega), asI32_id (by omega) (by omega)]
    · simp only [if_neg h16]
      rw [s32_add, base, s32_madd, s16_set1, h2, h3, s16_set1, asI16_asI16, asI16_id (x := t.y) (by omega) (by omega)]
      have e2 : wideY d t n = asI16 n * t.y := by unfold wideY; rw [if_neg h16]; rfl
      rw [Int.zero_mul, Int.add_zero, ← e2, asI32_id (x := wideY d t n) (by omega) (by omega),
        asI32_id (by omega) (by omega)]
  obtain ⟨e1, e2⟩ := w32_unpackZero y k
  refine ⟨key _ _ (w16_lt hy _) e1 ?_ ?_, key _ _ (w16_lt hy _) e2 ?_ ?_⟩
  · rw [(s16_unpacklo2 y zero k).1]; rfl
  · rw [(s16_unpacklo2 y zero k).2, s16_zero]
  · rw [(s16_unpackhi2 y zero k).1]; rfl
  · rw [(s16_unpackhi2 y zero k).2, s16_zero]

theorem w16_min {x : Reg} {d : Nat} (hd : d ≤ 15) {n : Int} {k : Nat} (h : w16 x k = satU16 n) :
    w16 (minU16 x (set1_16 (2 ^ d - 1))) k = saturate d n := by
  have h1 : (2 : Int) ^ d ≤ 2 ^ 15 := pow_le_pow_right₀ (by norm_num) hd
  have h0 : (1 : Int) ≤ 2 ^ d := one_le_pow₀ (by norm_num)
  have e : w16 (set1_16 ((2 : Int) ^ d - 1)) k = ((2 : Int) ^ d - 1).toNat := by
    rw [set1_16, w16_mk16]; unfold asU16
    generalize (2 : Int) ^ d = p at *
    omega
  rw [minU16, w16_mk16, h, e]
  unfold saturate asU16 satU16
  generalize (2 : Int) ^ d = p at *
  omega

theorem satU16_saturate (q : Int) : satU16 q = saturate 16 q := by
  unfold satU16 saturate; norm_num; omega

/-- One half of the sums of a component, with weights `a` for Cb and `b` for Cr. -/
def wideHalf (l uv : Reg) (a b : Int) : Reg :=
  srai32 13 (add32v l (madd16 uv (set1_32 (interleaved a b))))

/-- One component. -/
def wideComp (d : Nat) (c : ChromaRange) (t : InvCoef) (y u v : Reg) (a b : Int) : Reg :=
  let y := subsU16 y (set1_16 (c.biasY : Int))
  let uv := avx2Interleave16 (permute4x64 0xd8 (sub16 u (set1_16 (c.biasUv : Int))))
    (permute4x64 0xd8 (sub16 v (set1_16 (c.biasUv : Int))))
  let x := packus32 (wideHalf (wideLuma d t (unpacklo 2 y zero)) uv.1 a b)
    (wideHalf (wideLuma d t (unpackhi 2 y zero)) uv.2 a b)
  if d = 16 then x else minU16 x (set1_16 (2 ^ d - 1))

theorem wideRgb_at {d : Nat} (hd : d ≤ 16) {c : ChromaRange} {t : InvCoef} (ht : DeepCoef t)
    (hby : c.biasY < 65536) :
    TriplesAt (wideRgb d c t) (deepWideRGB d c t) := by
  intro y u v hy k hk
  obtain ⟨t1, t2, t3, t4, t5⟩ := ht
  have hyb : RegBytes (subsU16 y (set1_16 (c.biasY : Int))) := mk16_bytes _
  have ey := fun k => w16_subsU hy hby k
  -- one component: weights `a` for Cb, `b` for Cr
  have key : ∀ a b : Int, -20000 ≤ a ∧ a ≤ 20000 → -20000 ≤ b ∧ b ≤ 20000 →
      w16 (wideComp d c t y u v a b) k
      = saturate d ((wideY d t (w16 y k - c.biasY) + (int16 ((w16 u k : Int) - c.biasUv) * a
          + int16 ((w16 v k : Int) - c.biasUv) * b) + 4095) / 8192) := by
    intro a b ha hb
    have eu : ∀ (r : Reg) k, s16 (sub16 r (set1_16 (c.biasUv : Int))) k = int16 ((w16 r k : Int) - c.biasUv) := by
      intro r k
      rw [s16_sub, s16_set1]
      unfold s16 int16 asI16; omega
    have ev : ∀ (r s : Reg) k l, w16 r k = w16 s l → s16 r k = s16 s l := by
      intro r s k l h; unfold s16; rw [h]
    have sum : ∀ (L P : Int), -655350000 ≤ L ∧ L ≤ 655350000 →
        -1310720000 ≤ P ∧ P ≤ 1310720000 →
        asI32 (asI32 (4095 + L + asI32 P) / 2 ^ 13) = (L + P + 4095) / 8192 := by
      intro L P h1 h2
      rw [asI32_id (x := P) (by omega) (by omega), asI32_id (x := 4095 + L + P) (by omega) (by omega),
        asI32_id (by omega) (by omega)]
      omega
    have dot : ∀ k, -1310720000 ≤ int16 ((w16 u k : Int) - c.biasUv) * a
          + int16 ((w16 v k : Int) - c.biasUv) * b ∧ int16 ((w16 u k : Int) - c.biasUv) * a
          + int16 ((w16 v k : Int) - c.biasUv) * b ≤ 1310720000 := by
      intro k
      have b1 := int16_bounds ((w16 u k : Int) - c.biasUv)
      have b2 := int16_bounds ((w16 v k : Int) - c.biasUv)
      have m1 := mul_bounds (A := 32768) (T := 20000) (by omega) ha (a := int16 ((w16 u k : Int) - c.biasUv))
      have m2 := mul_bounds (A := 32768) (T := 20000) (by omega) hb (a := int16 ((w16 v k : Int) - c.biasUv))
      omega
    have pk := w16_packHalves (k := k)
      (a := wideHalf (wideLuma d t (unpacklo 2 (subsU16 y (set1_16 (c.biasY : Int))) zero))
        (avx2Interleave16 (permute4x64 0xd8 (sub16 u (set1_16 (c.biasUv : Int))))
          (permute4x64 0xd8 (sub16 v (set1_16 (c.biasUv : Int))))).1 a b)
      (b := wideHalf (wideLuma d t (unpackhi 2 (subsU16 y (set1_16 (c.biasY : Int))) zero))
        (avx2Interleave16 (permute4x64 0xd8 (sub16 u (set1_16 (c.biasUv : Int))))
          (permute4x64 0xd8 (sub16 v (set1_16 (c.biasUv : Int))))).2 a b)
      (F := fun k => (wideY d t (w16 y k - c.biasY) + (int16 ((w16 u k : Int) - c.biasUv) * a
          + int16 ((w16 v k : Int) - c.biasUv) * b) + 4095) / 8192)
      (by
        intro k hk
        obtain ⟨p1, p2, p3, p4⟩ := uvPairs (sub16 u (set1_16 (c.biasUv : Int)))
          (sub16 v (set1_16 (c.biasUv : Int))) hk
        rw [wideHalf, s32_srai, s32_add, (wideLuma_at t1 hyb k).1, s32_madd, ev _ _ _ _ p1, ev _ _ _ _ p2, eu, eu,
          (s16_interleaved a b k).1, (s16_interleaved a b k).2, asI16_coef ha, asI16_coef hb, ey]
        exact sum _ _ (wideY_bounds t1 (by have := w16_lt hy (k / 4 * 8 + k % 4); omega)) (dot _))
      (by
        intro k hk
        obtain ⟨p1, p2, p3, p4⟩ := uvPairs (sub16 u (set1_16 (c.biasUv : Int)))
          (sub16 v (set1_16 (c.biasUv : Int))) hk
        rw [wideHalf, s32_srai, s32_add, (wideLuma_at t1 hyb k).2, s32_madd, ev _ _ _ _ p3, ev _ _ _ _ p4, eu, eu,
          (s16_interleaved a b k).1, (s16_interleaved a b k).2, asI16_coef ha, asI16_coef hb, ey]
        exact sum _ _ (wideY_bounds t1 (by have := w16_lt hy (k / 4 * 8 + 4 + k % 4); omega)) (dot _))
      hk
    unfold wideComp
    by_cases h16 : d = 16
    · simp only [if_pos h16]
      rw [pk, h16, satU16_saturate]
    · simp only [if_neg h16]
      exact w16_min (by omega) pk
  have lem : ∀ L X : Int, (L + X + 4095) / 8192 = roundShift (2 ^ 12 - 1) 13 (L + X) := by
    intro L X; unfold roundShift; norm_num
  refine ⟨?_, ?_, ?_⟩
  · refine (key 0 t.cr (by omega) t2).trans ?_
    simp only [deepWideRGB]
    rw [lem, Int.mul_zero, Int.zero_add]; rfl
  · refine (key (-t.g2) (-t.g1) (by omega) (by omega)).trans ?_
    simp only [deepWideRGB]
    rw [lem]
    congr 2
    show wideY d t _ + _ = wideY d t _ - _ - _
    rw [Int.mul_neg, Int.mul_neg]; omega
  · refine (key t.cb 0 t3 (by omega)).trans ?_
    simp only [deepWideRGB]
    rw [lem, Int.mul_zero, Int.add_zero]; rfl

end Verif.X86
