import Verif.Model.X86Decode
import Verif.Lemmas.X86
/-! # What the x86 planar decoders write -/
namespace Verif.X86
open Spec

/-- All five coefficients fit an `i16`. -/
def Coef16 (t : InvCoef) : Prop :=
  (-32767 ≤ t.y ∧ t.y ≤ 32767) ∧ (-32767 ≤ t.cr ∧ t.cr ≤ 32767) ∧ (-32767 ≤ t.cb ∧ t.cb ≤ 32767) ∧
    (-32767 ≤ t.g1 ∧ t.g1 ≤ 32767) ∧ (-32767 ≤ t.g2 ∧ t.g2 ≤ 32767)

theorem expand10_bounds {x : Nat} (h : x < 256) : 0 ≤ expand10 x ∧ expand10 x ≤ 1023 := by
  unfold expand10; omega

theorem expand10_128 : expand10 128 = 514 := rfl

/-- Word `k` of the three chroma terms belongs to the chroma samples `U`, `V`. -/
def ChromaAt (t : InvCoef) (c : Reg × Reg × Reg) (k U V : Nat) : Prop :=
  s16 c.1 k = mulRound (expand10 V - expand10 128) t.cr ∧
  s16 c.2.1 k = mulRound (expand10 V - expand10 128) t.g1
    + mulRound (expand10 U - expand10 128) t.g2 ∧
  s16 c.2.2 k = mulRound (expand10 U - expand10 128) t.cb

theorem chromaTerms_at {rg : ChromaRange} (hb : rg.biasUv = 128) {t : InvCoef} (ht : Coef16 t)
    {u v : Reg} {k U V : Nat} (hU : U < 256) (hV : V < 256) (hu : s16 u k = expand10 U)
    (hv : s16 v k = expand10 V) : ChromaAt t (chromaTerms rg t u v) k U V := by
  obtain ⟨_, h2, h3, h4, h5⟩ := ht
  have bU := expand10_bounds hU
  have bV := expand10_bounds hV
  have e : uvCorr rg = 514 := by unfold uvCorr; rw [hb]; rfl
  have cb : s16 (sub16 u (set1_16 (uvCorr rg))) k = expand10 U - expand10 128 := by
    rw [s16_sub, s16_set1, hu, e, expand10_128, asI16_id (x := 514) (by omega) (by omega),
      asI16_id (by omega) (by omega)]
  have cr : s16 (sub16 v (set1_16 (uvCorr rg))) k = expand10 V - expand10 128 := by
    rw [s16_sub, s16_set1, hv, e, expand10_128, asI16_id (x := 514) (by omega) (by omega),
      asI16_id (by omega) (by omega)]
  have bcb : -1023 ≤ expand10 U - expand10 128 ∧ expand10 U - expand10 128 ≤ 1023 := by
    rw [expand10_128]; omega
  have bcr : -1023 ≤ expand10 V - expand10 128 ∧ expand10 V - expand10 128 ≤ 1023 := by
    rw [expand10_128]; omega
  have b4 := mulRound_bounds bcr h4
  have b5 := mulRound_bounds bcb h5
  refine ⟨?_, ?_, ?_⟩
  · simp only [chromaTerms]
    rw [s16_mulhrs (by rw [cr]; exact bcr) h2, cr]
  · simp only [chromaTerms]
    rw [s16_add, s16_mulhrs (by rw [cr]; exact bcr) h4, s16_mulhrs (by rw [cb]; exact bcb) h5, cr,
      cb, asI16_id (by omega) (by omega)]
  · simp only [chromaTerms]
    rw [s16_mulhrs (by rw [cb]; exact bcb) h3, cb]

/-- Low words: the pixel sums do not wrap. -/
theorem sums_at {t : InvCoef} (ht : Coef16 t) {y : Reg} {c : Reg × Reg × Reg} {k Y U V : Nat}
    (hY : Y < 256) (hU : U < 256) (hV : V < 256) (hy : s16 y k = expand10 Y)
    (hc : ChromaAt t c k U V) :
    satU8 (s16 (add16 (mulhrs16 y (set1_16 (asI16 t.y))) c.1) k) = (vecRGB t Y U V).1 ∧
    satU8 (s16 (sub16 (mulhrs16 y (set1_16 (asI16 t.y))) c.2.1) k) = (vecRGB t Y U V).2.1 ∧
    satU8 (s16 (add16 (mulhrs16 y (set1_16 (asI16 t.y))) c.2.2) k) = (vecRGB t Y U V).2.2 := by
  obtain ⟨h1, h2, h3, h4, h5⟩ := ht
  obtain ⟨c1, c2, c3⟩ := hc
  have bY := expand10_bounds hY
  have bU := expand10_bounds hU
  have bV := expand10_bounds hV
  have bcb : -1023 ≤ expand10 U - expand10 128 ∧ expand10 U - expand10 128 ≤ 1023 := by
    rw [expand10_128]; omega
  have bcr : -1023 ≤ expand10 V - expand10 128 ∧ expand10 V - expand10 128 ≤ 1023 := by
    rw [expand10_128]; omega
  have by' : -1023 ≤ expand10 Y ∧ expand10 Y ≤ 1023 := by omega
  have by1 := mulRound_bounds by' h1
  have b2 := mulRound_bounds bcr h2
  have b3 := mulRound_bounds bcb h3
  have b4 := mulRound_bounds bcr h4
  have b5 := mulRound_bounds bcb h5
  have ey : s16 (mulhrs16 y (set1_16 (asI16 t.y))) k = mulRound (expand10 Y) t.y := by
    rw [s16_mulhrs (by rw [hy]; exact by') h1, hy]
  refine ⟨?_, ?_, ?_⟩
  · rw [s16_add, ey, c1, asI16_id (by omega) (by omega)]; rfl
  · rw [s16_sub, ey, c2, asI16_id (by omega) (by omega)]; rfl
  · rw [s16_add, ey, c3, asI16_id (by omega) (by omega)]; rfl

/-- The packed bytes of a vector step of `n` pixels. -/
def RgbAt (t : InvCoef) (c : Reg × Reg × Reg) (n : Nat) (Y U V : Nat → Nat) : Prop :=
  ∀ i, i < n → c.1 i = (vecRGB t (Y i) (U i) (V i)).1 ∧ c.2.1 i = (vecRGB t (Y i) (U i) (V i)).2.1 ∧
    c.2.2 i = (vecRGB t (Y i) (U i) (V i)).2.2

theorem packRgb_at {t : InvCoef} (ht : Coef16 t) {yLo yHi : Reg} {cLo cHi : Reg × Reg × Reg} {n : Nat}
    (hn : n % 16 = 0) {Y U V : Nat → Nat}
    (hY : ∀ i, i < n → Y i < 256) (hU : ∀ i, i < n → U i < 256) (hV : ∀ i, i < n → V i < 256)
    (hyLo : ∀ k, 2 * k < n → s16 yLo k = expand10 (Y (k / 8 * 16 + k % 8)))
    (hyHi : ∀ k, 2 * k < n → s16 yHi k = expand10 (Y (k / 8 * 16 + 8 + k % 8)))
    (hcLo : ∀ k, 2 * k < n →
      ChromaAt t cLo k (U (k / 8 * 16 + k % 8)) (V (k / 8 * 16 + k % 8)))
    (hcHi : ∀ k, 2 * k < n →
      ChromaAt t cHi k (U (k / 8 * 16 + 8 + k % 8)) (V (k / 8 * 16 + 8 + k % 8))) :
    RgbAt t (packRgb t yLo yHi cLo cHi) n Y U V := by
  intro i hi
  have h2 : 2 * (i / 16 * 8 + i % 8) < n := by omega
  simp only [packRgb, packus16]
  by_cases h : i % 16 < 8
  · simp only [h, if_true]
    have e : (i / 16 * 8 + i % 8) / 8 * 16 + (i / 16 * 8 + i % 8) % 8 = i := by omega
    have h5 := hyLo _ h2
    have h6 := hcLo _ h2
    rw [e] at h5 h6
    exact sums_at ht (hY i hi) (hU i hi) (hV i hi) h5 h6
  · simp only [h, if_false]
    have e : (i / 16 * 8 + i % 8) / 8 * 16 + 8 + (i / 16 * 8 + i % 8) % 8 = i := by omega
    have h5 := hyHi _ h2
    have h6 := hcHi _ h2
    rw [e] at h5 h6
    exact sums_at ht (hY i hi) (hU i hi) (hV i hi) h5 h6

theorem packRgbLow_at {t : InvCoef} (ht : Coef16 t) {yLo : Reg} {cLo : Reg × Reg × Reg}
    {Y U V : Nat → Nat}
    (hY : ∀ i, i < 8 → Y i < 256) (hU : ∀ i, i < 8 → U i < 256) (hV : ∀ i, i < 8 → V i < 256)
    (hyLo : ∀ k, k < 8 → s16 yLo k = expand10 (Y k))
    (hcLo : ∀ k, k < 8 → ChromaAt t cLo k (U k) (V k)) :
    RgbAt t (packRgbLow t yLo cLo) 8 Y U V := by
  intro i hi
  simp only [packRgbLow]
  rw [packus_low hi, packus_low hi, packus_low hi]
  exact sums_at ht (hY i hi) (hU i hi) (hV i hi) (hyLo i hi) (hcLo i hi)

theorem s16_expandLo {v : Reg} {k : Nat} (h : v (k / 8 * 16 + k % 8) < 256) :
    s16 (expandLo v) k = expand10 (v (k / 8 * 16 + k % 8)) :=
  s16_srli6 h (w16_unpacklo1 v v k)

theorem s16_expandHi {v : Reg} {k : Nat} (h : v (k / 8 * 16 + 8 + k % 8) < 256) :
    s16 (expandHi v) k = expand10 (v (k / 8 * 16 + 8 + k % 8)) :=
  s16_srli6 h (w16_unpackhi1 v v k)

theorem rgb444_at {rg : ChromaRange} (hb : rg.biasUv = 128) {t : InvCoef} (ht : Coef16 t) {n : Nat}
    (hn : n % 16 = 0) {y u v : Reg} (hy : ∀ i, i < n → y i < 256) (hu : ∀ i, i < n → u i < 256)
    (hv : ∀ i, i < n → v i < 256) : RgbAt t (rgb444 rg t y u v) n y u v := by
  have lo : ∀ k, 2 * k < n → k / 8 * 16 + k % 8 < n := by intro k hk; omega
  have hi : ∀ k, 2 * k < n → k / 8 * 16 + 8 + k % 8 < n := by intro k hk; omega
  apply packRgb_at ht hn hy hu hv
  · intro k hk; exact s16_expandLo (hy _ (lo k hk))
  · intro k hk; exact s16_expandHi (hy _ (hi k hk))
  · intro k hk
    exact chromaTerms_at hb ht (hu _ (lo k hk)) (hv _ (lo k hk)) (s16_expandLo (hu _ (lo k hk)))
      (s16_expandLo (hv _ (lo k hk)))
  · intro k hk
    exact chromaTerms_at hb ht (hu _ (hi k hk)) (hv _ (hi k hk)) (s16_expandHi (hu _ (hi k hk)))
      (s16_expandHi (hv _ (hi k hk)))

/-- The kernels that compute the chroma terms once and duplicate them. -/
theorem dup_at {rg : ChromaRange} (hb : rg.biasUv = 128) {t : InvCoef} (ht : Coef16 t) {n : Nat}
    (hn : n % 16 = 0) {y uw vw : Reg} {U V : Nat → Nat} (hy : ∀ i, i < n → y i < 256)
    (hU : ∀ k, 2 * k < n → U k < 256) (hV : ∀ k, 2 * k < n → V k < 256)
    (hu : ∀ k, 2 * k < n → s16 uw k = expand10 (U k))
    (hv : ∀ k, 2 * k < n → s16 vw k = expand10 (V k)) :
    RgbAt t (packRgb t (expandLo y) (expandHi y) (dupLo (chromaTerms rg t uw vw))
      (dupHi (chromaTerms rg t uw vw))) n y (fun i => U (i / 2)) (fun i => V (i / 2)) := by
  have lo : ∀ k, 2 * k < n → k / 8 * 16 + k % 8 < n := by intro k hk; omega
  have hi : ∀ k, 2 * k < n → k / 8 * 16 + 8 + k % 8 < n := by intro k hk; omega
  apply packRgb_at ht hn hy (fun i h => hU _ (by omega)) (fun i h => hV _ (by omega))
  · intro k hk; exact s16_expandLo (hy _ (lo k hk))
  · intro k hk; exact s16_expandHi (hy _ (hi k hk))
  · intro k hk
    have e : (k / 8 * 16 + k % 8) / 2 = k / 8 * 8 + k % 8 / 2 := by omega
    have hk2 : 2 * (k / 8 * 8 + k % 8 / 2) < n := by omega
    rw [e]
    have := chromaTerms_at hb ht (hU _ hk2) (hV _ hk2) (hu _ hk2) (hv _ hk2)
    simp only [ChromaAt, dupLo, s16_dupLo]
    exact this
  · intro k hk
    have e : (k / 8 * 16 + 8 + k % 8) / 2 = k / 8 * 8 + 4 + k % 8 / 2 := by omega
    have hk2 : 2 * (k / 8 * 8 + 4 + k % 8 / 2) < n := by omega
    rw [e]
    have := chromaTerms_at hb ht (hU _ hk2) (hV _ hk2) (hu _ hk2) (hv _ hk2)
    simp only [ChromaAt, dupHi, s16_dupHi]
    exact this

/-- A step of `n` pixels stores `vecPixelAt`. -/
theorem RgbAt.pixels {t : InvCoef} {c : Reg × Reg × Reg} {n : Nat} {Y U V : Nat → Nat}
    (h : RgbAt t c n Y U V) (ch : Channels) :
    pixels ch n c.1 c.2.1 c.2.2 (set1_8 255)
      = (List.range n).flatMap fun i => vecPixelAt ch t (Y i) (U i) (V i) := by
  apply range_flatMap_congr
  intro i hi
  obtain ⟨h1, h2, h3⟩ := h i hi
  rw [h1, h2, h3]
  rfl

theorem RgbAt.congr {t : InvCoef} {c : Reg × Reg × Reg} {n : Nat} {Y U V Y' U' V' : Nat → Nat}
    (h : RgbAt t c n Y U V) (hY : ∀ i, i < n → Y i = Y' i) (hU : ∀ i, i < n → U i = U' i)
    (hV : ∀ i, i < n → V i = V' i) : RgbAt t c n Y' U' V' := by
  intro i hi
  rw [← hY i hi, ← hU i hi, ← hV i hi]
  exact h i hi

/-! ## Chroma reshuffles -/

theorem avx2Double_at (c : Reg) {i : Nat} (h : i < 32) : avx2Double c i = c (i / 2) := by
  have : ∀ i, i < 32 → avx2Double (fun k => k) i = i / 2 := by decide
  have e : avx2Double c i = c (avx2Double (fun k => k) i) := by
    have hm : ∀ i, i < 32 → ¬ 128 ≤ setr8 [0, 0, 1, 1, 2, 2, 3, 3, 4, 4, 5, 5, 6, 6, 7, 7, 8, 8, 9,
        9, 10, 10, 11, 11, 12, 12, 13, 13, 14, 14, 15, 15] i := by decide
    simp only [avx2Double, shuffle8, if_neg (hm i h), insertHi]
    split <;> rfl
  rw [e, this i h]

theorem sseDouble_at (c : Reg) {i : Nat} (h : i < 16) : sseDouble c i = c (i / 2) := by
  have : ∀ i, i < 16 → sseDouble (fun k => k) i = i / 2 := by decide
  have e : sseDouble c i = c (sseDouble (fun k => k) i) := by
    have hm : ∀ i, i < 16 → ¬ 128 ≤ setr8 [0, 0, 1, 1, 2, 2, 3, 3, 4, 4, 5, 5, 6, 6, 7, 7] i := by
      decide
    simp only [sseDouble, shuffle8, if_neg (hm i h)]
  rw [e, this i h]

theorem sseQuad_at (c : Reg) {i : Nat} (h : i < 16) : sseQuad c i = c (i / 4) := by
  have : ∀ i, i < 16 → sseQuad (fun k => k) i = i / 4 := by decide
  have e : sseQuad c i = c (sseQuad (fun k => k) i) := by
    have hm : ∀ i, i < 16 → ¬ 128 ≤ setr8 [0, 0, 0, 0, 1, 1, 1, 1, 2, 2, 2, 2, 3, 3, 3, 3] i := by
      decide
    simp only [sseQuad, shuffle8, if_neg (hm i h)]
  rw [e, this i h]

theorem permute50_at (c : Reg) {k : Nat} (h : k < 16) :
    permute4x64 0x50 c (k / 8 * 16 + k % 8) = c k := by
  have : ∀ k, k < 16 → 0x50 / 4 ^ ((k / 8 * 16 + k % 8) / 8) % 4 * 8 + (k / 8 * 16 + k % 8) % 8 = k := by
    decide
  rw [permute4x64, this k h]

/-! ## Loads -/

/-- The samples of a slice are below 256 everywhere. -/
theorem getD_lt {l : Buf} (h : ∀ s ∈ l, s < 256) (i : Nat) : l.getD i 0 < 256 := by
  rw [List.getD_eq_getElem?_getD]
  by_cases hi : i < l.length
  · rw [List.getElem?_eq_getElem hi]; exact h _ (List.getElem_mem hi)
  · rw [List.getElem?_eq_none (by omega)]; decide

end Verif.X86
