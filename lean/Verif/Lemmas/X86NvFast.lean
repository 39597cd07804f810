import Verif.Lemmas.X86NvProf
import Verif.Lemmas.X86YuyRgb
/-! # The colours of the fast semi-planar kernels -/
namespace Verif.X86
open Spec

/-- The coefficients fit their bytes. -/
structure NvFastFits (t : InvCoef) : Prop where
  y : 0 ≤ t.y ∧ t.y ≤ 127
  cr : 0 ≤ t.cr ∧ t.cr ≤ 127
  cb : 0 ≤ t.cb ∧ t.cb ≤ 127
  g1 : 0 ≤ t.g1 ∧ t.g1 ≤ 63
  g2 : 0 ≤ t.g2 ∧ t.g2 ≤ 63

theorem nvFastFits_search (rg : YuvRange) (m : Matrix) : NvFastFits (searchInverse 6 8 rg m) := by
  cases rg <;> cases m <;> exact ⟨by decide +kernel, by decide +kernel, by decide +kernel, by decide +kernel,
    by decide +kernel⟩

theorem mulBound8 {a w : Int} (ha : -128 ≤ a ∧ a ≤ 255) (hw : 0 ≤ w ∧ w ≤ 127) :
    -16256 ≤ a * w ∧ a * w ≤ 32385 := by
  obtain ⟨a1, a2⟩ := ha
  obtain ⟨w1, w2⟩ := hw
  constructor <;> nlinarith

theorem mulBound7 {a w : Int} (ha : -128 ≤ a ∧ a ≤ 127) (hw : 0 ≤ w ∧ w ≤ 127) :
    -16256 ≤ a * w ∧ a * w ≤ 16256 := by
  obtain ⟨a1, a2⟩ := ha
  obtain ⟨w1, w2⟩ := hw
  constructor <;> nlinarith

theorem s16_maddubs {a b : Reg} {k : Nat} {x : Int}
    (h : (a (2 * k) : Int) * asI8 (b (2 * k)) + a (2 * k + 1) * asI8 (b (2 * k + 1)) = x)
    (h1 : -32768 ≤ x) (h2 : x ≤ 32767) : s16 (maddubs a b) k = x := by
  rw [maddubs, s16_mk16, h, show satI16 x = x by unfold satI16; omega, asI16_id h1 h2]

theorem fastLuma {r : Reg} {k Y : Nat} {ty : Int} (h0 : r (2 * k) = Y) (h1 : r (2 * k + 1) = 0)
    (hY : Y < 256) (ht : 0 ≤ ty ∧ ty ≤ 127) : s16 (maddubs r (set1_8 ty)) k = Y * ty := by
  have b := mulBound8 (a := (Y : Int)) (w := ty) (by omega) ht
  refine s16_maddubs ?_ (by omega) (by omega)
  rw [h0, h1, show asI8 ((set1_8 ty (2 * k) : Nat) : Int) = ty by
    unfold set1_8 asU8 asI8; omega]
  simp

theorem set1_16_even (x : Int) (k : Nat) : set1_16 x (2 * k) = asU16 x % 256 := by
  unfold set1_16 mk16
  rw [if_pos (by omega)]
theorem set1_16_odd (x : Int) (k : Nat) : set1_16 x (2 * k + 1) = asU16 x / 256 := by
  unfold set1_16 mk16
  rw [if_neg (by omega)]

/-- The chroma terms of a pair. -/
theorem fastTerms_at {t : InvCoef} (ht : NvFastFits t) (o : NVOrder) {c : Reg} {k : Nat} {cb cr : Int}
    (hu : asI8 (c (2 * k + o.uPos)) = cb) (hv : asI8 (c (2 * k + o.vPos)) = cr) :
    s16 (fastTerms o t c).1 k = t.cr * cr ∧ s16 (fastTerms o t c).2.1 k = t.g1 * cr + t.g2 * cb ∧
      s16 (fastTerms o t c).2.2 k = t.cb * cb := by
  have bu : -128 ≤ cb ∧ cb ≤ 127 := by rw [← hu]; unfold asI8; omega
  have bv : -128 ≤ cr ∧ cr ≤ 127 := by rw [← hv]; unfold asI8; omega
  have hcr := ht.cr
  have hcb := ht.cb
  have hg1 := ht.g1
  have hg2 := ht.g2
  have m1 := mulBound7 bv hcr
  have m2 := mulBound7 bu hcb
  have m3 := mulBound7 bv (show 0 ≤ t.g1 ∧ t.g1 ≤ 127 by omega)
  have m4 := mulBound7 bu (show 0 ≤ t.g2 ∧ t.g2 ≤ 127 by omega)
  have lo : ∀ {x : Int} {n : Nat}, 0 ≤ x → x ≤ 127 → asU16 ((asU16 x : Nat) : Int) % 256 = x.toNat ∧
      asU16 ((asU16 x : Nat) : Int) / 256 = 0 ∧ asU16 ((asU16 x : Nat) * 256 : Int) % 256 = 0 ∧
      asU16 ((asU16 x : Nat) * 256 : Int) / 256 = x.toNat := by
    intro x n h1 h2; unfold asU16; omega
  have two : ∀ {x z : Int}, 0 ≤ x → x ≤ 127 → 0 ≤ z → z ≤ 127 →
      asU16 ((asU16 x : Nat) * 256 + (asU16 z : Nat) : Int) % 256 = z.toNat ∧
      asU16 ((asU16 x : Nat) * 256 + (asU16 z : Nat) : Int) / 256 = x.toNat := by
    intro x z h1 h2 h3 h4; unfold asU16; omega
  obtain ⟨r1, r2, r3, r4⟩ := lo (n := 0) hcr.1 hcr.2
  obtain ⟨b1, b2, b3, b4⟩ := lo (n := 0) hcb.1 hcb.2
  obtain ⟨g1, g2⟩ := two (x := t.g2) (z := t.g1) (by omega) (by omega) (by omega) (by omega)
  obtain ⟨g3, g4⟩ := two (x := t.g1) (z := t.g2) (by omega) (by omega) (by omega) (by omega)
  have er : (t.cr.toNat : Int) = t.cr := Int.toNat_of_nonneg hcr.1
  have eb : (t.cb.toNat : Int) = t.cb := Int.toNat_of_nonneg hcb.1
  have e1 : (t.g1.toNat : Int) = t.g1 := Int.toNat_of_nonneg hg1.1
  have e2 : (t.g2.toNat : Int) = t.g2 := Int.toNat_of_nonneg hg2.1
  have q1 : -32768 ≤ t.cr * cr ∧ t.cr * cr ≤ 32767 := by rw [mul_comm]; omega
  have q2 : -32768 ≤ t.cb * cb ∧ t.cb * cb ≤ 32767 := by rw [mul_comm]; omega
  have q3 : -32768 ≤ t.g1 * cr + t.g2 * cb ∧ t.g1 * cr + t.g2 * cb ≤ 32767 := by
    rw [mul_comm, mul_comm t.g2]; omega
  cases o with
  | uv =>
    simp only [NVOrder.uPos, NVOrder.vPos, Nat.add_zero] at hu hv
    refine ⟨s16_maddubs ?_ q1.1 q1.2, s16_maddubs ?_ q3.1 q3.2, s16_maddubs ?_ q2.1 q2.2⟩
    · rw [set1_16_even, set1_16_odd, hu, hv, r3, r4, er]; simp
    · rw [set1_16_even, set1_16_odd, hu, hv, g3, g4, e1, e2]; ring
    · rw [set1_16_even, set1_16_odd, hu, hv, b1, b2, eb]; simp
  | vu =>
    simp only [NVOrder.uPos, NVOrder.vPos, Nat.add_zero] at hu hv
    refine ⟨s16_maddubs ?_ q1.1 q1.2, s16_maddubs ?_ q3.1 q3.2, s16_maddubs ?_ q2.1 q2.2⟩
    · rw [set1_16_even, set1_16_odd, hu, hv, r1, r2, er]; simp
    · rw [set1_16_even, set1_16_odd, hu, hv, g1, g2, e1, e2]
    · rw [set1_16_even, set1_16_odd, hu, hv, b3, b4, eb]; simp

/-- The three colours of one pixel. -/
theorem fastSum_at {pack : Reg → Reg → Reg} {L : Prop} [Decidable L] {i k : Nat}
    (hp : ∀ a b, pack a b i = satU8 (s16 (if L then a else b) k)) {t : InvCoef} (ht : NvFastFits t)
    {yLo yHi : Reg} {cLo cHi : Reg × Reg × Reg} {bias y u v : Nat} (hY : y < 256)
    (h0 : (if L then yLo else yHi) (2 * k) = y - bias) (h1 : (if L then yLo else yHi) (2 * k + 1) = 0)
    (hr : s16 (if L then cLo.1 else cHi.1) k = t.cr * ((v : Int) - 128))
    (hg : s16 (if L then cLo.2.1 else cHi.2.1) k = t.g1 * ((v : Int) - 128) + t.g2 * ((u : Int) - 128))
    (hb : s16 (if L then cLo.2.2 else cHi.2.2) k = t.cb * ((u : Int) - 128)) :
    ((fastSum pack t yLo yHi cLo cHi).1 i, (fastSum pack t yLo yHi cLo cHi).2.1 i,
      (fastSum pack t yLo yHi cLo cHi).2.2 i) = fastDecoded t bias y u v := by
  have hl := fastLuma h0 h1 (by omega) ht.y
  have sat : ∀ x : Int, satU8 x = (max (min x 255) 0).toNat := by intro x; unfold satU8; omega
  have e16 : ∀ x, asI16 x = int16 x := fun _ => rfl
  unfold fastDecoded
  simp only [fastSum, fastPack]
  refine Prod.ext ?_ (Prod.ext ?_ ?_) <;> dsimp only <;> rw [hp, ← sat] <;>
    refine congrArg satU8 ?_ <;> rw [← e16]
  · rw [← hl, ← hr]
    by_cases h : L
    · simp only [if_pos h, s16_srai16, s16_add]
    · simp only [if_neg h, s16_srai16, s16_add]
  · rw [← hl, ← hg]
    by_cases h : L
    · simp only [if_pos h, s16_srai16, s16_sub]
    · simp only [if_neg h, s16_srai16, s16_sub]
  · rw [← hl, ← hb]
    by_cases h : L
    · simp only [if_pos h, s16_srai16, s16_add]
    · simp only [if_neg h, s16_srai16, s16_add]

theorem packus16_at (a b : Reg) (i : Nat) :
    packus16 a b i = satU8 (s16 (if i % 16 < 8 then a else b) (i / 16 * 8 + i % 8)) := by
  unfold packus16; rfl

theorem lumaHalves (y : Reg) {i : Nat} (hi : i < 32) :
    (if i % 16 < 8 then unpacklo 1 y zero else unpackhi 1 y zero) (2 * (i / 16 * 8 + i % 8)) = y i ∧
    (if i % 16 < 8 then unpacklo 1 y zero else unpackhi 1 y zero) (2 * (i / 16 * 8 + i % 8) + 1) = 0 := by
  interval_cases i <;> exact ⟨rfl, rfl⟩

theorem dupHalves (c : Reg) {i : Nat} (hi : i < 32) :
    s16 (if i % 16 < 8 then unpacklo 2 c c else unpackhi 2 c c) (i / 16 * 8 + i % 8) = s16 c (i / 2) := by
  have : w16 (if i % 16 < 8 then unpacklo 2 c c else unpackhi 2 c c) (i / 16 * 8 + i % 8) = w16 c (i / 2) := by
    interval_cases i <;> rfl
  exact s16_eq_of this

/-- 4:2:0 and 4:2:2: one pair for two pixels. -/
theorem fastShared {n : Nat} (hn : n ≤ 32) (he : n % 2 = 0) {rg : ChromaRange} {t : InvCoef} (ht : NvFastFits t)
    (hb : rg.biasUv = 128) (hby : rg.biasY < 256) (o : NVOrder) (y c0 c1 : Reg) (hy : ∀ i, y i < 256)
    (h0 : ∀ i, c0 i < 256) (i : Nat) (hi : i < n) :
    (fun c => ((fastSum packus16 t (unpacklo 1 (subsU8 y (set1_8 rg.biasY)) zero)
        (unpackhi 1 (subsU8 y (set1_8 rg.biasY)) zero) (dupPairLo c) (dupPairHi c)).1 i,
      (fastSum packus16 t (unpacklo 1 (subsU8 y (set1_8 rg.biasY)) zero)
        (unpackhi 1 (subsU8 y (set1_8 rg.biasY)) zero) (dupPairLo c) (dupPairHi c)).2.1 i,
      (fastSum packus16 t (unpacklo 1 (subsU8 y (set1_8 rg.biasY)) zero)
        (unpackhi 1 (subsU8 y (set1_8 rg.biasY)) zero) (dupPairLo c) (dupPairHi c)).2.2 i))
      (fastTerms o t (sub8 c0 (set1_8 rg.biasUv))) =
    fastDecoded t rg.biasY (y i) (cat2 n c0 c1 (2 * (i / 2) + o.uPos)) (cat2 n c0 c1 (2 * (i / 2) + o.vPos)) := by
  have hup := uPos_lt o
  have hvp := vPos_lt o
  obtain ⟨l0, l1⟩ := lumaHalves (subsU8 y (set1_8 rg.biasY)) (i := i) (by omega)
  rw [subsU8_at hby] at l0
  have hc : ∀ b, b < 2 → asI8 (sub8 c0 (set1_8 rg.biasUv) (2 * (i / 2) + b))
      = (cat2 n c0 c1 (2 * (i / 2) + b) : Int) - 128 := by
    intro b hb'
    rw [hb, sub8_at (h0 _), cat2, if_pos (by omega)]
  obtain ⟨r, g, b⟩ := fastTerms_at ht o (hc _ hup) (hc _ hvp)
  exact fastSum_at (L := i % 16 < 8) (k := i / 16 * 8 + i % 8) (packus16_at · · i) ht (hy i) l0 l1
    ((dupHalves _ (by omega)).trans r) ((dupHalves _ (by omega)).trans g) ((dupHalves _ (by omega)).trans b)

/-- The terms of a pair of 4:4:4. -/
theorem fastOwn {n : Nat} {t : InvCoef} (ht : NvFastFits t) (o : NVOrder) {c0 c1 : Reg}
    (h0 : ∀ i, c0 i < 256) (h1 : ∀ i, c1 i < 256) {i k : Nat} {L : Prop} [Decidable L]
    (hk : ∀ b, b < 2 → cat2 n c0 c1 (2 * i + b) = (if L then c0 else c1) (2 * k + b)) :
    s16 (if L then (fastTerms o t (sub8 c0 (set1_8 (128 : Nat)))).1
        else (fastTerms o t (sub8 c1 (set1_8 (128 : Nat)))).1) k
      = t.cr * ((cat2 n c0 c1 (2 * i + o.vPos) : Int) - 128) ∧
    s16 (if L then (fastTerms o t (sub8 c0 (set1_8 (128 : Nat)))).2.1
        else (fastTerms o t (sub8 c1 (set1_8 (128 : Nat)))).2.1) k
      = t.g1 * ((cat2 n c0 c1 (2 * i + o.vPos) : Int) - 128)
        + t.g2 * ((cat2 n c0 c1 (2 * i + o.uPos) : Int) - 128) ∧
    s16 (if L then (fastTerms o t (sub8 c0 (set1_8 (128 : Nat)))).2.2
        else (fastTerms o t (sub8 c1 (set1_8 (128 : Nat)))).2.2) k
      = t.cb * ((cat2 n c0 c1 (2 * i + o.uPos) : Int) - 128) := by
  have hup := uPos_lt o
  have hvp := vPos_lt o
  rw [hk _ hup, hk _ hvp]
  by_cases h : L
  · simp only [if_pos h]
    exact fastTerms_at ht o (sub8_at (h0 _)) (sub8_at (h0 _))
  · simp only [if_neg h]
    exact fastTerms_at ht o (sub8_at (h1 _)) (sub8_at (h1 _))

theorem avx2FastRgb_ok {rg : ChromaRange} {t : InvCoef} (ht : NvFastFits t)
    (hb : rg.biasUv = 128) (hby : rg.biasY < 256)
    (s : Sampling) (o : NVOrder) (y c0 c1 : Reg) (hy : ∀ i, y i < 256) (h0 : ∀ i, c0 i < 256)
    (h1 : ∀ i, c1 i < 256) (i : Nat) (hi : i < 32) :
    ((avx2FastRgb s o rg t y c0 c1).1 i, (avx2FastRgb s o rg t y c0 c1).2.1 i,
      (avx2FastRgb s o rg t y c0 c1).2.2 i) =
    fastDecoded t rg.biasY (y i) (cat2 32 c0 c1 (2 * (i / hdiv s) + o.uPos))
      (cat2 32 c0 c1 (2 * (i / hdiv s) + o.vPos)) := by
  cases s with
  | yuv420 => exact fastShared (le_refl _) rfl ht hb hby o y c0 c1 hy h0 i hi
  | yuv422 => exact fastShared (le_refl _) rfl ht hb hby o y c0 c1 hy h0 i hi
  | yuv444 =>
    simp only [avx2FastRgb, hb, hdiv, Nat.div_one]
    have y256 := hy i
    obtain ⟨r, g, b⟩ := fastOwn (n := 32) ht o h0 h1 (i := i) (k := i % 16) (L := i < 16) (by
      intro b hb'
      unfold cat2
      by_cases h : i < 16
      · rw [if_pos (by omega), if_pos h]; congr 1; omega
      · rw [if_neg (by omega), if_neg h]; congr 1; omega)
    refine fastSum_at (L := i < 16) (k := i % 16) ?_ ht y256 ?_ ?_ r g b
    · intro a b
      rw [avx2PackU16_at a b hi]
      by_cases h : i < 16
      · rw [if_pos h, if_pos h, Nat.mod_eq_of_lt h]
      · rw [if_neg h, if_neg h, show i % 16 = i - 16 by omega]
    · by_cases h : i < 16
      · rw [if_pos h, widenLo, mk16, if_pos (by omega), show 2 * (i % 16) / 2 = i by omega, subsU8_at hby]
        unfold asU16; omega
      · rw [if_neg h, widenHi, mk16, if_pos (by omega), show 16 + 2 * (i % 16) / 2 = i by omega, subsU8_at hby]
        unfold asU16; omega
    · by_cases h : i < 16
      · rw [if_pos h, widenLo, mk16, if_neg (by omega), show (2 * (i % 16) + 1) / 2 = i by omega, subsU8_at hby]
        unfold asU16; omega
      · rw [if_neg h, widenHi, mk16, if_neg (by omega), show 16 + (2 * (i % 16) + 1) / 2 = i by omega,
          subsU8_at hby]
        unfold asU16; omega

theorem sseFastRgb_ok {rg : ChromaRange} {t : InvCoef} (ht : NvFastFits t)
    (hb : rg.biasUv = 128) (hby : rg.biasY < 256)
    (s : Sampling) (o : NVOrder) (y c0 c1 : Reg) (hy : ∀ i, y i < 256) (h0 : ∀ i, c0 i < 256)
    (h1 : ∀ i, c1 i < 256) (i : Nat) (hi : i < 16) :
    ((sseFastRgb s o rg t y c0 c1).1 i, (sseFastRgb s o rg t y c0 c1).2.1 i,
      (sseFastRgb s o rg t y c0 c1).2.2 i) =
    fastDecoded t rg.biasY (y i) (cat2 16 c0 c1 (2 * (i / hdiv s) + o.uPos))
      (cat2 16 c0 c1 (2 * (i / hdiv s) + o.vPos)) := by
  cases s with
  | yuv420 => exact fastShared (by decide) rfl ht hb hby o y c0 c1 hy h0 i hi
  | yuv422 => exact fastShared (by decide) rfl ht hb hby o y c0 c1 hy h0 i hi
  | yuv444 =>
    simp only [sseFastRgb, hb, hdiv, Nat.div_one]
    obtain ⟨l0, l1⟩ := lumaHalves (subsU8 y (set1_8 rg.biasY)) (i := i) (by omega)
    rw [subsU8_at hby] at l0
    obtain ⟨r, g, b⟩ := fastOwn (n := 16) ht o h0 h1 (i := i) (k := i / 16 * 8 + i % 8) (L := i % 16 < 8) (by
      intro b hb'
      unfold cat2
      by_cases h : i < 8
      · rw [if_pos (by omega), if_pos (by omega)]; congr 1; omega
      · rw [if_neg (by omega), if_neg (by omega)]; congr 1; omega)
    exact fastSum_at (L := i % 16 < 8) (k := i / 16 * 8 + i % 8) (packus16_at · · i) ht (hy i) l0 l1 r g b

theorem avx2NvFast_ok {rg : ChromaRange} {t : InvCoef} (ht : NvFastFits t) (hb : rg.biasUv = 128)
    (hby : rg.biasY < 256) : avx2NvFast.Ok rg t (fastDecoded t rg.biasY) where
  even := rfl
  pos := by decide
  tailEven := rfl
  tailLe := le_refl _
  store := avx2Store_eq
  rgb := avx2FastRgb_ok ht hb hby

theorem sseNvFast_ok {rg : ChromaRange} {t : InvCoef} (ht : NvFastFits t) (hb : rg.biasUv = 128)
    (hby : rg.biasY < 256) : sseNvFast.Ok rg t (fastDecoded t rg.biasY) where
  even := rfl
  pos := by decide
  tailEven := rfl
  tailLe := le_refl _
  store := sseStore_eq
  rgb := sseFastRgb_ok ht hb hby

end Verif.X86
