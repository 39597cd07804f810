import Verif.Model.X86Alpha
import Verif.Model.X86Ayuv
import Verif.Spec.VecAlpha
import Verif.Lemmas.X86Handlers
import Verif.Lemmas.AlphaDecode
/-! # The x86 kernels of the decoders with an alpha plane -/
namespace Verif.X86
open Spec

/-! ## Premultiplication, word by word -/

theorem asU16_asI16 (x : Int) : asU16 (asI16 x) = asU16 x := by unfold asU16 asI16; omega

theorem w16_add (a b : Reg) (k : Nat) : w16 (add16 a b) k = asU16 (s16 a k + s16 b k) := by
  rw [add16, w16_mk16]

/-- The signed element belongs to the unsigned one. -/
theorem s16_of_w16 {r : Reg} {k : Nat} : s16 r k = asI16 (w16 r k) := rfl

theorem w16_srli8 (a : Reg) (k : Nat) (h : w16 a k < 65536) : w16 (srli16 8 a) k = w16 a k / 256 := by
  rw [srli16, w16_mk16]; unfold asU16; omega

theorem w16_set127 (k : Nat) : w16 (set1_16 127) k = 127 := by
  rw [set1_16, w16_mk16]; rfl

theorem w16_add' {a b : Reg} {k x y : Nat} (ha : w16 a k = x) (hb : w16 b k = y) :
    w16 (add16 a b) k = (x + y) % 65536 := by
  rw [w16_add, s16, s16, ha, hb]; unfold asU16 asI16; omega

theorem w16_avx2Div255 {v : Reg} {k w : Nat} (h : w16 v k = w) (hw : w < 65536) :
    w16 (avx2Div255 v) k = avx2Div w := by
  have e1 := w16_add' h (w16_set127 k)
  have e2 := w16_srli8 (add16 v (set1_16 127)) k (by rw [e1]; omega)
  rw [e1] at e2
  have e3 := w16_add' h e2
  rw [avx2Div255, w16_srli8 _ _ (by rw [e3]; omega), e3]
  rfl

theorem w16_sseDiv255 {v : Reg} {k w : Nat} (h : w16 v k = w) (hw : w < 65536) :
    w16 (sseDiv255 v) k = sseDiv w := by
  have e1 := w16_add' h (w16_set127 k)
  have e2 := w16_srli8 v k (by omega)
  rw [h] at e2
  have e3 := w16_add' e1 e2
  rw [sseDiv255, w16_srli8 _ _ (by rw [e3]; omega), e3]
  unfold sseDiv
  omega

theorem avx2Div_lt (w : Nat) : avx2Div w < 256 := by unfold avx2Div; omega
theorem sseDiv_lt (w : Nat) : sseDiv w < 256 := by unfold sseDiv; omega

theorem satU8_small {r : Reg} {k w : Nat} (h : w16 r k = w) (hw : w < 256) :
    satU8 (s16 r k) = w := by
  rw [s16, h]; unfold satU8 asI16; omega

theorem asI16_mul (x y : Int) : asU16 (asI16 x * y) = asU16 (x * y) := by
  have : asI16 x * y = x * y + 65536 * (-((x + 32768) / 65536) * y) := by
    have : asI16 x = x - 65536 * ((x + 32768) / 65536) := by unfold asI16; omega
    rw [this]; ring
  rw [this]
  generalize -((x + 32768) / 65536) * y = z
  unfold asU16; omega

theorem w16_mullo {a b : Reg} {k : Nat} {x y : Int} (ha : s16 a k = x) (hb : s16 b k = y) :
    w16 (mullo16 a b) k = wrap16 (x * y) := by
  rw [mullo16, w16_mk16, ha, hb]; rfl

theorem wrap16_lt (x : Int) : wrap16 x < 65536 := by unfold wrap16; omega

theorem wrap16_small {n : Nat} (h : n < 65536) : wrap16 (n : Int) = n := by unfold wrap16; omega

/-- Bytes widened with zeros. -/
theorem s16_zeroLo {v : Reg} {k : Nat} (h : v (k / 8 * 16 + k % 8) < 256) :
    s16 (unpacklo 1 v zero) k = (v (k / 8 * 16 + k % 8) : Int) := by
  rw [s16, w16_unpacklo1]; simp only [zero, Nat.mul_zero, Nat.add_zero]
  exact asI16_id (by omega) (by omega)

theorem s16_zeroHi {v : Reg} {k : Nat} (h : v (k / 8 * 16 + 8 + k % 8) < 256) :
    s16 (unpackhi 1 v zero) k = (v (k / 8 * 16 + 8 + k % 8) : Int) := by
  rw [s16, w16_unpackhi1]; simp only [zero, Nat.mul_zero, Nat.add_zero]
  exact asI16_id (by omega) (by omega)

/-- Two halves whose words are `F` times alpha. -/
theorem scaleAlpha_at {div : Reg → Reg} {D : Nat → Nat}
    (hdiv : ∀ v k w, w16 v k = w → w < 65536 → w16 (div v) k = D w) (hD : ∀ w, D w < 256)
    {a lo hi : Reg} {n : Nat} (hn : n % 16 = 0) {F : Nat → Int}
    (ha : ∀ i, i < n → a i < 256)
    (hlo : ∀ k, 2 * k < n → s16 lo k = F (k / 8 * 16 + k % 8))
    (hhi : ∀ k, 2 * k < n → s16 hi k = F (k / 8 * 16 + 8 + k % 8)) {i : Nat} (h : i < n) :
    scaleAlpha div a lo hi i = D (wrap16 (F i * a i)) := by
  have hk : 2 * (i / 16 * 8 + i % 8) < n := by omega
  unfold scaleAlpha packus16
  by_cases h8 : i % 16 < 8
  · have e : (i / 16 * 8 + i % 8) / 8 * 16 + (i / 16 * 8 + i % 8) % 8 = i := by omega
    have h1 := hlo _ hk
    have h2 := s16_zeroLo (v := a) (k := i / 16 * 8 + i % 8) (by rw [e]; exact ha i h)
    rw [e] at h1 h2
    rw [if_pos h8, satU8_small (hdiv _ _ _ (w16_mullo h1 h2) (wrap16_lt _)) (hD _)]
  · have e : (i / 16 * 8 + i % 8) / 8 * 16 + 8 + (i / 16 * 8 + i % 8) % 8 = i := by omega
    have h1 := hhi _ hk
    have h2 := s16_zeroHi (v := a) (k := i / 16 * 8 + i % 8) (by rw [e]; exact ha i h)
    rw [e] at h1 h2
    rw [if_neg h8, satU8_small (hdiv _ _ _ (w16_mullo h1 h2) (wrap16_lt _)) (hD _)]

theorem packus_at {lo hi : Reg} {n : Nat} (hn : n % 16 = 0) {F : Nat → Int}
    (hlo : ∀ k, 2 * k < n → s16 lo k = F (k / 8 * 16 + k % 8))
    (hhi : ∀ k, 2 * k < n → s16 hi k = F (k / 8 * 16 + 8 + k % 8)) {i : Nat} (h : i < n) :
    packus16 lo hi i = byteSat (F i) := by
  have hk : 2 * (i / 16 * 8 + i % 8) < n := by omega
  unfold packus16
  by_cases h8 : i % 16 < 8
  · have e : (i / 16 * 8 + i % 8) / 8 * 16 + (i / 16 * 8 + i % 8) % 8 = i := by omega
    have h1 := hlo _ hk
    rw [e] at h1
    rw [if_pos h8, h1]; rfl
  · have e : (i / 16 * 8 + i % 8) / 8 * 16 + 8 + (i / 16 * 8 + i % 8) % 8 = i := by omega
    have h1 := hhi _ hk
    rw [e] at h1
    rw [if_neg h8, h1]; rfl

theorem byteSat_lt (x : Int) : byteSat x < 256 := by unfold byteSat; omega

/-- The register operation behind each kind of premultiplication. -/
def preOf : PremulKind → Reg → Reg → Reg → Reg
  | .avx2Loop => avx2Premul
  | .avx2Tail => avx2PremulTail
  | .sse => ssePremul
  | .avx2Raw => avx2PremulRaw

theorem preOf_at (kind : PremulKind) {a lo hi : Reg} {n : Nat} (hn : n % 16 = 0) {F : Nat → Int}
    (hF : ∀ i, i < n → -32768 ≤ F i ∧ F i ≤ 32767)
    (ha : ∀ i, i < n → a i < 256)
    (hlo : ∀ k, 2 * k < n → s16 lo k = F (k / 8 * 16 + k % 8))
    (hhi : ∀ k, 2 * k < n → s16 hi k = F (k / 8 * 16 + 8 + k % 8)) {i : Nat} (h : i < n) :
    preOf kind a lo hi i = vecPremul kind (F i) (a i) := by
  have lo' : ∀ k, 2 * k < n → k / 8 * 16 + k % 8 < n := by intro k hk; omega
  have hi' : ∀ k, 2 * k < n → k / 8 * 16 + 8 + k % 8 < n := by intro k hk; omega
  cases kind with
  | avx2Loop =>
    have e := scaleAlpha_at (div := avx2Div255) (D := avx2Div) (fun v k w => w16_avx2Div255)
      avx2Div_lt hn (F := fun j => (byteSat (F j) : Int)) ha
      (lo := unpacklo 1 (packus16 lo hi) zero) (hi := unpackhi 1 (packus16 lo hi) zero)
      (fun k hk => by
        have e := packus_at hn hlo hhi (lo' k hk)
        rw [s16_zeroLo (by rw [e]; exact byteSat_lt _), e])
      (fun k hk => by
        have e := packus_at hn hlo hhi (hi' k hk)
        rw [s16_zeroHi (by rw [e]; exact byteSat_lt _), e]) h
    have b1 := byteSat_lt (F i)
    have b2 := ha i h
    have b3 : byteSat (F i) * a i < 65536 := by
      have : byteSat (F i) * a i ≤ 255 * 255 := Nat.mul_le_mul (by omega) (by omega)
      omega
    have e3 : ((byteSat (F i) : Nat) : Int) * (a i : Int) = ((byteSat (F i) * a i : Nat) : Int) := by
      push_cast; rfl
    simp only [e3] at e
    rw [wrap16_small b3] at e
    exact e
  | avx2Tail =>
    have mx : ∀ (r : Reg) (k j : Nat), j < n → s16 r k = F j → s16 (max16 r zero) k = max (F j) 0 := by
      intro r k j hj hr
      have z : s16 zero k = 0 := by simp only [s16, w16, zero]; rfl
      have := hF j hj
      rw [max16, s16_mk16, hr, z, asI16_id (by omega) (by omega)]
    have e := scaleAlpha_at (div := avx2Div255) (D := avx2Div) (fun v k w => w16_avx2Div255)
      avx2Div_lt hn (F := fun j => max (F j) 0) ha (lo := max16 lo zero) (hi := max16 hi zero)
      (fun k hk => mx _ _ _ (lo' k hk) (hlo k hk)) (fun k hk => mx _ _ _ (hi' k hk) (hhi k hk)) h
    simp only [preOf, avx2PremulTail, vecPremul]
    exact e
  | sse =>
    have e := scaleAlpha_at (div := sseDiv255) (D := sseDiv) (fun v k w => w16_sseDiv255)
      sseDiv_lt hn (F := F) ha hlo hhi h
    simp only [preOf, ssePremul, vecPremul]
    exact e
  | avx2Raw =>
    have e := scaleAlpha_at (div := avx2Div255) (D := avx2Div) (fun v k w => w16_avx2Div255)
      avx2Div_lt hn (F := F) ha hlo hhi h
    simp only [preOf, avx2PremulRaw, vecPremul]
    exact e

/-! ## The sums -/

theorem vecRGB_sums (t : InvCoef) (yo u v : Nat) :
    vecRGB t yo u v = (byteSat (vecSums t yo u v).1, byteSat (vecSums t yo u v).2.1,
      byteSat (vecSums t yo u v).2.2) := rfl

/-- The sums do not wrap. -/
theorem sumsRgb_at {t : InvCoef} (ht : Coef16 t) {y : Reg} {c : Reg × Reg × Reg} {k Y U V : Nat}
    (hY : Y < 256) (hU : U < 256) (hV : V < 256) (hy : s16 y k = expand10 Y)
    (hc : ChromaAt t c k U V) :
    s16 (sumsRgb t y c).1 k = (vecSums t Y U V).1 ∧
    s16 (sumsRgb t y c).2.1 k = (vecSums t Y U V).2.1 ∧
    s16 (sumsRgb t y c).2.2 k = (vecSums t Y U V).2.2 := by
  obtain ⟨h1, h2, h3, h4, h5⟩ := ht
  obtain ⟨c1, c2, c3⟩ := hc
  have bY := expand10_bounds hY
  have bU := expand10_bounds hU
  have bV := expand10_bounds hV
  have bcb : -1023 ≤ expand10 U - expand10 128 ∧ expand10 U - expand10 128 ≤ 1023 := by
    rw [expand10_128]; omega
  have bcr : -1023 ≤ expand10 V - expand10 128 ∧ expand10 V - expand10 128 ≤ 1023 := by
    rw [expand10_128]; omega
  have by' : -1023 ≤ expand10 Y ∧ expand10 Y ≤ 1023 := by omega
  have by1 := mulRound_bounds by' h1
  have b2 := mulRound_bounds bcr h2
  have b3 := mulRound_bounds bcb h3
  have b4 := mulRound_bounds bcr h4
  have b5 := mulRound_bounds bcb h5
  have ey : s16 (mulhrs16 y (set1_16 (asI16 t.y))) k = mulRound (expand10 Y) t.y := by
    rw [s16_mulhrs (by rw [hy]; exact by') h1, hy]
  refine ⟨?_, ?_, ?_⟩
  · simp only [sumsRgb]; rw [s16_add, ey, c1, asI16_id (by omega) (by omega)]; rfl
  · simp only [sumsRgb]; rw [s16_sub, ey, c2, asI16_id (by omega) (by omega)]; rfl
  · simp only [sumsRgb]; rw [s16_add, ey, c3, asI16_id (by omega) (by omega)]; rfl

theorem vecSums_bounds {t : InvCoef} (ht : Coef16 t) {Y U V : Nat} (hY : Y < 256) (hU : U < 256)
    (hV : V < 256) :
    (-3072 ≤ (vecSums t Y U V).1 ∧ (vecSums t Y U V).1 ≤ 3072) ∧
    (-3072 ≤ (vecSums t Y U V).2.1 ∧ (vecSums t Y U V).2.1 ≤ 3072) ∧
    (-3072 ≤ (vecSums t Y U V).2.2 ∧ (vecSums t Y U V).2.2 ≤ 3072) := by
  obtain ⟨h1, h2, h3, h4, h5⟩ := ht
  have bY := expand10_bounds hY
  have bU := expand10_bounds hU
  have bV := expand10_bounds hV
  have bcb : -1023 ≤ expand10 U - expand10 128 ∧ expand10 U - expand10 128 ≤ 1023 := by
    rw [expand10_128]; omega
  have bcr : -1023 ≤ expand10 V - expand10 128 ∧ expand10 V - expand10 128 ≤ 1023 := by
    rw [expand10_128]; omega
  have by' : -1023 ≤ expand10 Y ∧ expand10 Y ≤ 1023 := by omega
  have by1 := mulRound_bounds by' h1
  have b2 := mulRound_bounds bcr h2
  have b3 := mulRound_bounds bcb h3
  have b4 := mulRound_bounds bcr h4
  have b5 := mulRound_bounds bcb h5
  simp only [vecSums]
  omega

/-- A colour of a pixel: saturated, or multiplied by alpha. -/
def shade (kind : PremulKind) (pm : Bool) (a : Nat) (c : Int) : Nat :=
  if pm then vecPremul kind c a else byteSat c

/-- What a step leaves in its registers. -/
theorem alphaRgb_at {rg : ChromaRange} (hb : rg.biasUv = 128) {t : InvCoef} (ht : Coef16 t)
    (kind : PremulKind) (pm : Bool) {n : Nat}
    (hn : n % 16 = 0) {y u v a : Reg} (hy : ∀ i, i < n → y i < 256) (hu : ∀ i, i < n → u i < 256)
    (hv : ∀ i, i < n → v i < 256) (ha : ∀ i, i < n → a i < 256) {i : Nat} (h : i < n) :
    let c := alphaRgb (preOf kind) pm rg t y u v a
    let s := vecSums t (y i) (u i) (v i)
    c.1 i = shade kind pm (a i) s.1 ∧ c.2.1 i = shade kind pm (a i) s.2.1 ∧
      c.2.2 i = shade kind pm (a i) s.2.2 := by
  have lo : ∀ k, 2 * k < n → k / 8 * 16 + k % 8 < n := by intro k hk; omega
  have hi : ∀ k, 2 * k < n → k / 8 * 16 + 8 + k % 8 < n := by intro k hk; omega
  have L := fun k hk => sumsRgb_at ht (hy _ (lo k hk)) (hu _ (lo k hk)) (hv _ (lo k hk))
    (s16_expandLo (hy _ (lo k hk)))
    (chromaTerms_at hb ht (hu _ (lo k hk)) (hv _ (lo k hk)) (s16_expandLo (hu _ (lo k hk)))
      (s16_expandLo (hv _ (lo k hk))))
  have H := fun k hk => sumsRgb_at ht (hy _ (hi k hk)) (hu _ (hi k hk)) (hv _ (hi k hk))
    (s16_expandHi (hy _ (hi k hk)))
    (chromaTerms_at hb ht (hu _ (hi k hk)) (hv _ (hi k hk)) (s16_expandHi (hu _ (hi k hk)))
      (s16_expandHi (hv _ (hi k hk))))
  have B := fun i hi' => vecSums_bounds ht (hy i hi') (hu i hi') (hv i hi')
  have key : ∀ {l r : Reg} {F : Nat → Int}, (∀ i, i < n → -3072 ≤ F i ∧ F i ≤ 3072) →
      (∀ k, 2 * k < n → s16 l k = F (k / 8 * 16 + k % 8)) →
      (∀ k, 2 * k < n → s16 r k = F (k / 8 * 16 + 8 + k % 8)) →
      (if pm then preOf kind a else packus16) l r i = shade kind pm (a i) (F i) := by
    intro l r F hF hl hr
    unfold shade
    cases pm with
    | true =>
      simp only [if_true]
      exact preOf_at kind hn (fun i hi' => by have := hF i hi'; omega) ha hl hr h
    | false =>
      simp only [Bool.false_eq_true, if_false]
      exact packus_at hn hl hr h
  refine ⟨?_, ?_, ?_⟩
  · exact key (F := fun i => (vecSums t (y i) (u i) (v i)).1) (fun i h => (B i h).1)
      (fun k hk => (L k hk).1) (fun k hk => (H k hk).1)
  · exact key (F := fun i => (vecSums t (y i) (u i) (v i)).2.1) (fun i h => (B i h).2.1)
      (fun k hk => (L k hk).2.1) (fun k hk => (H k hk).2.1)
  · exact key (F := fun i => (vecSums t (y i) (u i) (v i)).2.2) (fun i h => (B i h).2.2)
      (fun k hk => (L k hk).2.2) (fun k hk => (H k hk).2.2)

/-! ## The bodies -/

theorem avx2AlphaChroma_at {s : Sampling} {c : Buf} {ux : Nat} (h : ux + chromaStep s 32 ≤ c.length)
    (hc : ∀ x ∈ c, x < 256) :
    ∃ r, avx2AlphaChroma s c ux = .ok r ∧ (∀ i, i < 32 → r i = c.getD (ux + i / hdiv s) 0) ∧
      ∀ i, i < 32 → r i < 256 := by
  have dbl : ∀ (r : Reg) (i : Nat), i < 32 → insertHi (unpacklo 1 r r) (unpackhi 1 r r) i = r (i / 2) := by
    intro r i hi
    unfold insertHi unpacklo unpackhi
    simp only [ite_self]
    split <;> congr 1 <;> omega
  have sub : ∀ s, s ≠ .yuv444 → hdiv s = 2 → (ux + 16 ≤ c.length) →
      (∃ r, (load 16 c ux >>= fun r => Outcome.ok (insertHi (unpacklo 1 r r) (unpackhi 1 r r))) = .ok r ∧
      (∀ i, i < 32 → r i = c.getD (ux + i / hdiv s) 0) ∧ ∀ i, i < 32 → r i < 256) := by
    intro s _ h2 hlen
    obtain ⟨r, e, h3, h4⟩ := load_at hlen hc
    refine ⟨_, by rw [e]; rfl, ?_, ?_⟩
    · intro i hi; rw [dbl _ _ hi, h3 _ (by omega), h2]
    · intro i hi; rw [dbl _ _ hi]; exact h4 _
  cases s
  · exact sub .yuv420 (by decide) rfl h
  · exact sub .yuv422 (by decide) rfl h
  · obtain ⟨r, e, h3, h4⟩ := load_at (n := 32) h hc
    exact ⟨r, e, fun i hi => by rw [h3 i hi]; simp [hdiv], fun i _ => h4 i⟩

/-- Pixel `x` of a row. -/
def alphaPixAt (kind : PremulKind) (pm : Bool) (ch : Channels) (rg : ChromaRange) (t : InvCoef)
    (Y U V A : Nat) : Buf :=
  let s := vecSums t (Y - rg.biasY) U V
  layout ch (shade kind pm A s.1) (shade kind pm A s.2.1) (shade kind pm A s.2.2) A

theorem alphaPixAt_length (kind : PremulKind) (pm : Bool) (ch : Channels) (rg : ChromaRange)
    (t : InvCoef) (Y U V A : Nat) : (alphaPixAt kind pm ch rg t Y U V A).length = ch.count :=
  layout_length' ..

/-- The pixels a step of `n` stores. -/
def alphaStep (kind : PremulKind) (pm : Bool) (ch : Channels) (rg : ChromaRange) (t : InvCoef)
    (hd n : Nat) (y u v a : Buf) (cx ux : Nat) : Buf :=
  (List.range n).flatMap fun j => alphaPixAt kind pm ch rg t (y.getD (cx + j) 0)
    (u.getD (ux + j / hd) 0) (v.getD (ux + j / hd) 0) (a.getD (cx + j) 0)

variable {rg : ChromaRange} {t : InvCoef}

theorem alphaRgb_pixels (hb : rg.biasUv = 128) (hby : rg.biasY < 256) (ht : Coef16 t)
    (kind : PremulKind) (pm : Bool) (ch : Channels) {n : Nat} (hn : n % 16 = 0) {hd : Nat}
    {y u v a : Buf} {cx ux : Nat} {yr ur vr ar : Reg}
    (y1 : ∀ i, i < n → yr i = y.getD (cx + i) 0) (y2 : ∀ i, yr i < 256)
    (a1 : ∀ i, i < n → ar i = a.getD (cx + i) 0) (a2 : ∀ i, ar i < 256)
    (u1 : ∀ i, i < n → ur i = u.getD (ux + i / hd) 0) (u2 : ∀ i, i < n → ur i < 256)
    (v1 : ∀ i, i < n → vr i = v.getD (ux + i / hd) 0) (v2 : ∀ i, i < n → vr i < 256) :
    pixels ch n (alphaRgb (preOf kind) pm rg t (subsU8 yr (set1_8 rg.biasY)) ur vr ar).1
      (alphaRgb (preOf kind) pm rg t (subsU8 yr (set1_8 rg.biasY)) ur vr ar).2.1
      (alphaRgb (preOf kind) pm rg t (subsU8 yr (set1_8 rg.biasY)) ur vr ar).2.2 ar
      = alphaStep kind pm ch rg t hd n y u v a cx ux := by
  apply range_flatMap_congr
  intro i hi
  obtain ⟨h1, h2, h3⟩ := alphaRgb_at hb ht kind pm hn (y := subsU8 yr (set1_8 rg.biasY)) (u := ur)
    (v := vr) (a := ar) (fun i _ => by rw [subsU8_at hby]; have := y2 i; omega) u2 v2
    (fun i _ => a2 i) hi
  rw [h1, h2, h3, subsU8_at hby, y1 i hi, u1 i hi, v1 i hi, a1 i hi]
  rfl

theorem avx2AlphaBody_eq (hb : rg.biasUv = 128) (hby : rg.biasY < 256) (ht : Coef16 t)
    (kind : PremulKind) (pm : Bool) (s : Sampling)
    (ch : Channels) {y u v a : Buf} (hy : ∀ x ∈ y, x < 256) (hu : ∀ x ∈ u, x < 256)
    (hv : ∀ x ∈ v, x < 256) (ha : ∀ x ∈ a, x < 256) {cx ux : Nat} (ly : cx + 32 ≤ y.length)
    (la : cx + 32 ≤ a.length)
    (lu : ux + chromaStep s 32 ≤ u.length) (lv : ux + chromaStep s 32 ≤ v.length) (p : Nat)
    (row : Buf) :
    avx2AlphaBody (preOf kind) pm s ch rg t y u v a cx ux p row
      = put row p (alphaStep kind pm ch rg t (hdiv s) 32 y u v a cx ux) := by
  obtain ⟨yr, ey, y1, y2⟩ := load_at ly hy
  obtain ⟨ar, ea, a1, a2⟩ := load_at la ha
  obtain ⟨ur, eu, u1, u2⟩ := avx2AlphaChroma_at lu hu
  obtain ⟨vr, ev, v1, v2⟩ := avx2AlphaChroma_at lv hv
  rw [avx2AlphaBody, ey, Outcome.bind_ok, ea, Outcome.bind_ok, eu, Outcome.bind_ok, ev,
    Outcome.bind_ok, avx2Store_eq, alphaRgb_pixels hb hby ht kind pm ch rfl y1 y2 a1 a2 u1 u2 v1 v2]

theorem sseAlphaBody_eq (hb : rg.biasUv = 128) (hby : rg.biasY < 256) (ht : Coef16 t)
    (pm : Bool) (s : Sampling)
    (ch : Channels) {y u v a : Buf} (hy : ∀ x ∈ y, x < 256) (hu : ∀ x ∈ u, x < 256)
    (hv : ∀ x ∈ v, x < 256) (ha : ∀ x ∈ a, x < 256) {cx ux : Nat} (ly : cx + 16 ≤ y.length)
    (la : cx + 16 ≤ a.length)
    (lu : ux + chromaStep s 16 ≤ u.length) (lv : ux + chromaStep s 16 ≤ v.length)
    (row : Buf) :
    sseAlphaBody pm s ch rg t y u v a cx ux row
      = put row (cx * ch.count) (alphaStep .sse pm ch rg t (hdiv s) 16 y u v a cx ux) := by
  obtain ⟨yr, ey, y1, y2⟩ := load_at ly hy
  obtain ⟨ar, ea, a1, a2⟩ := load_at la ha
  obtain ⟨ur, eu, u1, u2⟩ := sseChroma_at (.inl rfl) lu hu
  obtain ⟨vr, ev, v1, v2⟩ := sseChroma_at (.inl rfl) lv hv
  rw [sseAlphaBody, ey, Outcome.bind_ok, ea, Outcome.bind_ok, eu, Outcome.bind_ok, ev,
    Outcome.bind_ok, sseStore_eq]
  have := alphaRgb_pixels hb hby ht .sse pm ch (n := 16) rfl y1 y2 a1 a2 u1 u2 v1 v2
  rw [← this]
  rfl

/-! ## Rows -/

/-- Pixel `x` of a row; the kind of premultiplication may depend on the column. -/
def alphaRowPix (kind : Nat → PremulKind) (pm : Bool) (ch : Channels) (rg : ChromaRange) (t : InvCoef)
    (hd : Nat) (y u v a : Buf) (x : Nat) : Buf :=
  alphaPixAt (kind x) pm ch rg t (y.getD x 0) (u.getD (x / hd) 0) (v.getD (x / hd) 0) (a.getD x 0)

theorem alphaRowPix_length (kind : Nat → PremulKind) (pm : Bool) (ch : Channels) (rg : ChromaRange)
    (t : InvCoef) (hd : Nat) (y u v a : Buf) (x : Nat) :
    (alphaRowPix kind pm ch rg t hd y u v a x).length = ch.count := alphaPixAt_length ..

theorem alphaStep_row (kind : Nat → PremulKind) (k : PremulKind) (pm : Bool) (ch : Channels)
    (rg : ChromaRange) (t : InvCoef) {hd : Nat} (hhd : 0 < hd) (n : Nat)
    (y u v a : Buf) {cx ux : Nat} (h : ux * hd = cx) (hk : ∀ j, j < n → kind (cx + j) = k) :
    alphaStep k pm ch rg t hd n y u v a cx ux
      = (List.range n).flatMap fun j => alphaRowPix kind pm ch rg t hd y u v a (cx + j) := by
  apply range_flatMap_congr
  intro j hj
  have e : (cx + j) / hd = ux + j / hd := by
    rw [← h, Nat.add_comm, Nat.add_mul_div_right _ _ hhd, Nat.add_comm]
  simp only [alphaRowPix, e, hk j hj]

/-- The last pixels of a row through the stack buffers. -/
theorem avx2AlphaTail_ok (s : Sampling) (ch : Channels) (pm : Bool) (k : PremulKind)
    {kind : Nat → PremulKind} {w : Nat}
    {f : Buf → Buf → Buf → Buf → Buf → Outcome Buf} {y u v a row : Buf}
    (hy : ∀ x ∈ y, x < 256) (hu : ∀ x ∈ u, x < 256) (hv : ∀ x ∈ v, x < 256) (ha : ∀ x ∈ a, x < 256)
    (hf : ∀ y u v a d : Buf, (∀ x ∈ y, x < 256) → (∀ x ∈ u, x < 256) → (∀ x ∈ v, x < 256) →
      (∀ x ∈ a, x < 256) →
      y.length = 32 → u.length = 32 → v.length = 32 → a.length = 32 →
      f y u v a d = put d 0 (alphaStep k pm ch rg t (hdiv s) 32 y u v a 0 0))
    (ly : w ≤ y.length) (lu : (w - 1) / hdiv s + 1 ≤ u.length)
    (lv : (w - 1) / hdiv s + 1 ≤ v.length) (la : w ≤ a.length) (hw : w * ch.count ≤ row.length)
    {cx ux : Nat}
    (h1 : ux * hdiv s = cx) (h2 : cx ≤ w) (h3 : w ≤ cx + 32) (hk : ∀ x, cx ≤ x → kind x = k) :
    ∃ ux', avx2AlphaTail s ch w f y u v a
        (painted ch.count (alphaRowPix kind pm ch rg t (hdiv s) y u v a) cx row) cx ux
      = .ok (painted ch.count (alphaRowPix kind pm ch rg t (hdiv s) y u v a) w row, w, ux') := by
  unfold avx2AlphaTail
  by_cases hlt : cx < w
  · rw [if_pos hlt]
    have z256 : ∀ x ∈ List.replicate 32 0, x < 256 := by
      intro x hx; rw [(List.mem_replicate.1 hx).2]; decide
    have hd32 : chromaStep s (w - cx) ≤ 32 := by
      cases s <;> simp only [chromaStep, ceil2] <;> omega
    obtain ⟨yb, ey, ly', y1, y2⟩ := copyIn_ok (src := y) (dst := List.replicate 32 0) (p := cx)
      (n := w - cx) (by omega) (by simp; omega)
    obtain ⟨ab, ea, la', a1, a2⟩ := copyIn_ok (src := a) (dst := List.replicate 32 0) (p := cx)
      (n := w - cx) (by omega) (by simp; omega)
    obtain ⟨ub, eu, lu', u1, u2⟩ := copyIn_ok (src := u) (dst := List.replicate 32 0) (p := ux)
      (n := chromaStep s (w - cx)) (chroma_tail h1 hlt lu) (by simp; omega)
    obtain ⟨vb, ev, lv', v1, v2⟩ := copyIn_ok (src := v) (dst := List.replicate 32 0) (p := ux)
      (n := chromaStep s (w - cx)) (chroma_tail h1 hlt lv) (by simp; omega)
    have e1 := hf yb ub vb ab (List.replicate 128 0)
      (fun x hx => (y2 x hx).elim (hy x) (z256 x)) (fun x hx => (u2 x hx).elim (hu x) (z256 x))
      (fun x hx => (v2 x hx).elim (hv x) (z256 x)) (fun x hx => (a2 x hx).elim (ha x) (z256 x))
      (by simpa using ly') (by simpa using lu') (by simpa using lv') (by simpa using la')
    simp only [ey, eu, ev, ea, e1, Outcome.bind_ok, if_neg (show ¬ 32 < w - cx by omega)]
    have e2 := copyOut_put (N := 32) (L := 128) (n := w - cx) (cn := ch.count)
      (by have := count_le ch; omega) (by omega)
      (f := fun j => alphaPixAt k pm ch rg t (yb.getD (0 + j) 0) (ub.getD (0 + j / hdiv s) 0)
        (vb.getD (0 + j / hdiv s) 0) (ab.getD (0 + j) 0)) (fun j => alphaPixAt_length ..)
      (painted ch.count (alphaRowPix kind pm ch rg t (hdiv s) y u v a) cx row) (cx * ch.count)
    refine ⟨ux + chromaStep s (w - cx), ?_⟩
    have e3 : ((List.range (w - cx)).flatMap fun j => alphaPixAt k pm ch rg t (yb.getD (0 + j) 0)
        (ub.getD (0 + j / hdiv s) 0) (vb.getD (0 + j / hdiv s) 0) (ab.getD (0 + j) 0))
        = (List.range (w - cx)).flatMap fun j =>
          alphaRowPix kind pm ch rg t (hdiv s) y u v a (cx + j) := by
      rw [← alphaStep_row kind k pm ch rg t (hdiv_pos s) _ y u v a h1 (fun j _ => hk _ (by omega))]
      apply range_flatMap_congr
      intro j hj
      have hc : j / hdiv s < chromaStep s (w - cx) := by
        cases s <;> simp only [hdiv, chromaStep, ceil2] <;> omega
      rw [Nat.zero_add, Nat.zero_add, y1 j hj, u1 _ hc, v1 _ hc, a1 j hj]
    rw [e3, painted_put (alphaRowPix_length kind pm ch rg t (hdiv s) y u v a)
      (by rw [Nat.add_sub_cancel' h2]; exact hw), Nat.add_sub_cancel' h2] at e2
    have e4 : (put (List.replicate 128 0) 0 (alphaStep k pm ch rg t (hdiv s) 32 yb ub vb ab 0 0)
        >>= fun db => copyOut db ((w - cx) * ch.count)
          (painted ch.count (alphaRowPix kind pm ch rg t (hdiv s) y u v a) cx row) (cx * ch.count))
        = .ok (painted ch.count (alphaRowPix kind pm ch rg t (hdiv s) y u v a) w row) := e2
    simp only [Nat.add_sub_cancel' h2]
    rw [← bind_assoc', e4]
    rfl
  · rw [if_neg hlt]
    obtain rfl : cx = w := by omega
    exact ⟨ux, rfl⟩

/-- Which premultiplication the AVX2 kernel applies in column `x`. -/
def avx2Kind (w x : Nat) : PremulKind := if x < 32 * ((w - 1) / 32) then .avx2Loop else .avx2Tail

theorem avx2AlphaRow_ok (hb : rg.biasUv = 128) (hby : rg.biasY < 256) (ht : Coef16 t) (pm : Bool)
    (s : Sampling) (ch : Channels) {w : Nat} {y u v a row : Buf}
    (hy : ∀ x ∈ y, x < 256) (hu : ∀ x ∈ u, x < 256) (hv : ∀ x ∈ v, x < 256) (ha : ∀ x ∈ a, x < 256)
    (ly : w ≤ y.length) (lu : (w - 1) / hdiv s + 1 ≤ u.length)
    (lv : (w - 1) / hdiv s + 1 ≤ v.length) (la : w ≤ a.length) (hw : w * ch.count ≤ row.length) :
    ∃ ux, avx2AlphaRow pm s ch rg t w y u v a row 0 0
      = .ok (painted ch.count (alphaRowPix (avx2Kind w) pm ch rg t (hdiv s) y u v a) w row, w, ux) := by
  obtain ⟨cx, ux, e, hc, ⟨h2, _⟩, h3, h4⟩ := paintLoopI (step := 32) (ustep := chromaStep s 32)
    (width := w) (cn := ch.count) (I := fun cx ux => ux * hdiv s = cx ∧ cx % 32 = 0) (by decide)
    (fun cx ux g => ⟨by rw [Nat.add_mul, g.1, chromaStep_hdiv s rfl], by omega⟩)
    (alphaRowPix_length (avx2Kind w) pm ch rg t (hdiv s) y u v a) (row := row) hw
    (body := fun cx ux row => avx2AlphaBody avx2Premul pm s ch rg t y u v a cx ux (cx * ch.count) row)
    (cx0 := 0) (ux0 := 0) ⟨Nat.zero_mul _, rfl⟩
    (by
      rintro cx ux r _ ⟨hux, hal⟩ hlt
      rw [← alphaStep_row (avx2Kind w) .avx2Loop pm ch rg t (hdiv_pos s) _ y u v a hux
        (fun j hj => by unfold avx2Kind; rw [if_pos (by omega)])]
      exact avx2AlphaBody_eq hb hby ht .avx2Loop pm s ch hy hu hv ha (by omega) (by omega)
        (chroma_room hux rfl (by omega) lu (by decide))
        (chroma_room hux rfl (by omega) lv (by decide)) _ _)
    (Nat.zero_le _)
  rw [painted_zero] at e
  simp only [avx2AlphaRow, e, Outcome.bind_ok]
  have hcx : cx = 32 * ((w - 1) / 32) := by rw [hc]; unfold loopEnd; omega
  exact avx2AlphaTail_ok s ch pm .avx2Tail hy hu hv ha
    (fun y u v a d hy hu hv ha ly lu lv la => avx2AlphaBody_eq hb hby ht .avx2Tail pm s ch hy hu hv ha
      (by omega) (by omega)
      (by cases s <;> simp only [chromaStep, ceil2] <;> omega)
      (by cases s <;> simp only [chromaStep, ceil2] <;> omega) _ _)
    ly lu lv la hw h2 h3 h4 (fun x hx => by unfold avx2Kind; rw [if_neg (by omega)])

/-- A row with the SSE kernel: whole steps of 16, the rest is left. -/
theorem sseAlphaRow_ok (hb : rg.biasUv = 128) (hby : rg.biasY < 256) (ht : Coef16 t) (pm : Bool)
    (s : Sampling) (ch : Channels) {w : Nat} {y u v a row : Buf}
    (hy : ∀ x ∈ y, x < 256) (hu : ∀ x ∈ u, x < 256) (hv : ∀ x ∈ v, x < 256) (ha : ∀ x ∈ a, x < 256)
    (ly : w ≤ y.length) (lu : (w - 1) / hdiv s + 1 ≤ u.length)
    (lv : (w - 1) / hdiv s + 1 ≤ v.length) (la : w ≤ a.length) (hw : w * ch.count ≤ row.length) :
    ∃ ux, sseAlphaRow pm s ch rg t w y u v a row 0 0
      = .ok (painted ch.count (alphaRowPix (fun _ => .sse) pm ch rg t (hdiv s) y u v a)
        (16 * ((w - 1) / 16)) row, 16 * ((w - 1) / 16), ux) := by
  obtain ⟨cx, ux, e, hc, h2, h3, h4⟩ := paintLoop (step := 16) (ustep := chromaStep s 16) (width := w)
    (cn := ch.count) (hd := hdiv s) (by decide) (chromaStep_hdiv s rfl)
    (alphaRowPix_length (fun _ => .sse) pm ch rg t (hdiv s) y u v a) (row := row) hw
    (body := sseAlphaBody pm s ch rg t y u v a)
    (cx0 := 0) (ux0 := 0) (Nat.zero_mul _)
    (by
      intro cx ux r _ hux hlt
      rw [← alphaStep_row (fun _ => .sse) .sse pm ch rg t (hdiv_pos s) _ y u v a hux
        (fun j hj => rfl)]
      exact sseAlphaBody_eq hb hby ht pm s ch hy hu hv ha (by omega) (by omega)
        (chroma_room hux rfl (by omega) lu (by decide))
        (chroma_room hux rfl (by omega) lv (by decide)) _)
    (Nat.zero_le _)
  rw [painted_zero] at e
  have hcx : 16 * ((w - 1) / 16) = cx := by rw [hc]; unfold loopEnd; omega
  rw [hcx]
  exact ⟨ux, e⟩

/-! ## The handler -/

/-- The pixel in column `x` on each class of processor; `px` is the scalar decoding. -/
def cpuAlphaRow (cpu : Cpu) (pm : Bool) (ch : Channels) (rg : ChromaRange) (t : InvCoef)
    (px : Nat → Nat → Nat → Nat → Buf) (w x y u v a : Nat) : Buf :=
  match cpu with
  | .plain => px y u v a
  | .avx2 => alphaPixAt (avx2Kind w x) pm ch rg t y u v a
  | .sse41 => if x < 16 * ((w - 1) / 16) then alphaPixAt .sse pm ch rg t y u v a else px y u v a

theorem alphaHandlerOn_fills (cpu : Cpu) (pm : Bool) (s : Sampling) (ch : Channels) {w : Nat}
    (hb : rg.biasUv = 128) (hby : rg.biasY < 256) (ht : Coef16 t)
    (px : Nat → Nat → Nat → Nat → Buf) :
    (alphaHandlerOn cpu pm s ch rg t w).Fills true 256 ch.count w (hdiv s) px
      (fun x y u v a p => p = cpuAlphaRow cpu pm ch rg t px w x y u v a) := by
  intro y u v a row hy hu hv ha ly lu lv la hw
  cases cpu with
  | avx2 =>
    obtain ⟨ux, e⟩ := avx2AlphaRow_ok hb hby ht pm s ch hy hu hv ha ly lu lv la hw
    exact ⟨_, w, by simp only [alphaHandlerOn, done, e, Outcome.bind_ok]; rfl,
      painted_done (count_pos ch) (fun _ => alphaRowPix_length ..) hw (le_refl _) (.inr rfl)
        fun x _ => rfl,
      fun x h1 h2 => absurd h1.le (by omega)⟩
  | sse41 =>
    obtain ⟨ux, e⟩ := sseAlphaRow_ok hb hby ht pm s ch hy hu hv ha ly lu lv la hw
    refine ⟨_, 16 * ((w - 1) / 16), by simp only [alphaHandlerOn, done, e, Outcome.bind_ok]; rfl,
      painted_done (count_pos ch) (fun _ => alphaRowPix_length ..) hw (by omega)
        (.inl (by cases s <;> simp only [hdiv] <;> omega)) fun x hx => ?_, fun x h1 _ => ?_⟩
    · simp only [cpuAlphaRow, if_pos hx]; rfl
    · simp only [cpuAlphaRow, if_neg (show ¬ x < 16 * ((w - 1) / 16) from by have := h1.le; omega)]
  | plain =>
    obtain ⟨row', cx, e, hd⟩ := noAlphaSimd_ok (B := 256) y u v a row hy hu hv ha ly lu lv la hw
    exact ⟨row', cx, e, rowDone_imp hd fun _ _ _ h => h.elim, fun _ _ _ => rfl⟩

end Verif.X86
