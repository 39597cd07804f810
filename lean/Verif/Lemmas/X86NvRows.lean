import Verif.Model.X86NvDecode
import Verif.Lemmas.X86Handlers
import Verif.Lemmas.NvDecode
import Mathlib.Tactic.IntervalCases
/-! # Bodies of the x86 semi-planar decoders -/
namespace Verif.X86
open Spec

variable {rg : ChromaRange} {t : InvCoef}

/-! ## Chroma reshuffles -/

theorem avx2Even_at (c : Reg) {i : Nat} (h : i < 32) : avx2Even c i = c (2 * (i / 2)) := by
  have : ∀ i, i < 32 → avx2Even (fun k => k) i = 2 * (i / 2) := by decide
  have e : avx2Even c i = c (avx2Even (fun k => k) i) := by
    have hm : ∀ i, i < 32 → ¬ 128 ≤ setr8 [0, 0, 2, 2, 4, 4, 6, 6, 8, 8, 10, 10, 12, 12, 14, 14, 16,
        16, 18, 18, 20, 20, 22, 22, 24, 24, 26, 26, 28, 28, 30, 30] i := by decide
    simp only [avx2Even, shuffle8, if_neg (hm i h)]
  rw [e, this i h]

theorem avx2Odd_at (c : Reg) {i : Nat} (h : i < 32) : avx2Odd c i = c (2 * (i / 2) + 1) := by
  have : ∀ i, i < 32 → avx2Odd (fun k => k) i = 2 * (i / 2) + 1 := by decide
  have e : avx2Odd c i = c (avx2Odd (fun k => k) i) := by
    have hm : ∀ i, i < 32 → ¬ 128 ≤ setr8 [1, 1, 3, 3, 5, 5, 7, 7, 9, 9, 11, 11, 13, 13, 15, 15, 17,
        17, 19, 19, 21, 21, 23, 23, 25, 25, 27, 27, 29, 29, 31, 31] i := by decide
    simp only [avx2Odd, shuffle8, if_neg (hm i h)]
  rw [e, this i h]

theorem shE_at (c : Reg) {i : Nat} (h : i < 32) : shuffle8 c shE i = c (2 * (i / 2)) := by
  have : ∀ i, i < 32 → shuffle8 (fun k => k) shE i = 2 * (i / 2) := by decide
  have e : shuffle8 c shE i = c (shuffle8 (fun k => k) shE i) := by
    have hm : ∀ i, i < 32 → ¬ 128 ≤ shE i := by decide
    simp only [shuffle8, if_neg (hm i h)]
  rw [e, this i h]

theorem shO_at (c : Reg) {i : Nat} (h : i < 32) : shuffle8 c shO i = c (2 * (i / 2) + 1) := by
  have : ∀ i, i < 32 → shuffle8 (fun k => k) shO i = 2 * (i / 2) + 1 := by decide
  have e : shuffle8 c shO i = c (shuffle8 (fun k => k) shO i) := by
    have hm : ∀ i, i < 32 → ¬ 128 ≤ shO i := by decide
    simp only [shuffle8, if_neg (hm i h)]
  rw [e, this i h]

/-- The bytes of two registers one after the other. -/
def cat2 (n : Nat) (a b : Reg) : Reg := fun i => if i < n then a i else b (i - n)

theorem avx2Deinterleave_at (a b : Reg) {i : Nat} (h : i < 32) :
    (avx2Deinterleave a b).1 i = cat2 32 a b (2 * i) ∧
      (avx2Deinterleave a b).2 i = cat2 32 a b (2 * i + 1) := by
  interval_cases i <;> exact ⟨rfl, rfl⟩

theorem sseDeinterleave_at (a b : Reg) {i : Nat} (h : i < 16) :
    (sseDeinterleave a b).1 i = cat2 16 a b (2 * i) ∧
      (sseDeinterleave a b).2 i = cat2 16 a b (2 * i + 1) := by
  interval_cases i <;> exact ⟨rfl, rfl⟩

/-- What holds of the first bytes of the pairs and of the second bytes, after the swap. -/
theorem swap_at {o : NVOrder} {E O : Reg} {P : Reg → Nat → Prop} (hE : P E 0) (hO : P O 1) :
    P (swapUv o (E, O)).1 o.uPos ∧ P (swapUv o (E, O)).2 o.vPos := by
  cases o
  · exact ⟨hE, hO⟩
  · exact ⟨hO, hE⟩

theorem nvWords_at (o : NVOrder) {r : Reg} (hr : ∀ i, r i < 256) {k : Nat} (hk : k < 16) :
    s16 (nvWords o r).1 k = expand10 (r (2 * k + o.uPos)) ∧
      s16 (nvWords o r).2 k = expand10 (r (2 * k + o.vPos)) := by
  refine swap_at (P := fun w b => s16 w k = expand10 (r (2 * k + b))) ?_ ?_
  · apply s16_srli6 (hr _)
    have e1 : 2 * (2 * k / 2) = 2 * k := by omega
    have e2 : 2 * ((2 * k + 1) / 2) = 2 * k := by omega
    simp only [w16]
    rw [shE_at _ (by omega), shE_at _ (by omega), e1, e2, Nat.add_zero]
  · apply s16_srli6 (hr _)
    have e1 : 2 * (2 * k / 2) + 1 = 2 * k + 1 := by omega
    have e2 : 2 * ((2 * k + 1) / 2) + 1 = 2 * k + 1 := by omega
    simp only [w16]
    rw [shO_at _ (by omega), shO_at _ (by omega), e1, e2]

/-! ## Steps -/

/-- What a body of `n` pixels stores when the luma above its offset is `f y`. -/
def stepNv (ch : Channels) (t : InvCoef) (f : Nat → Nat) (hd n : Nat) (o : NVOrder) (y uv : Buf)
    (cx ux : Nat) : Buf :=
  (List.range n).flatMap fun j => vecPixelAt ch t (f (y.getD (cx + j) 0))
    (uv.getD (ux + (2 * (j / hd) + o.uPos)) 0) (uv.getD (ux + (2 * (j / hd) + o.vPos)) 0)

/-- Bytes per pixel of the two chroma planes: each holds byte `b` of the pair of pixel `i`. -/
def PairBytes (n hd : Nat) (uv : Buf) (ux : Nat) (r : Reg) (b : Nat) : Prop :=
  (∀ i, i < n → r i = uv.getD (ux + (2 * (i / hd) + b)) 0) ∧ ∀ i, i < n → r i < 256

/-- Words per pixel of the two chroma planes. -/
def PairWords (n hd : Nat) (uv : Buf) (ux : Nat) (r : Reg) (b : Nat) : Prop :=
  ∀ k, k < n → s16 r k = expand10 (uv.getD (ux + (2 * (k / hd) + b)) 0)

theorem evenOdd_at (o : NVOrder) {uv : Buf} {ux : Nat} {r : Reg}
    (h1 : ∀ i, i < 32 → r i = uv.getD (ux + i) 0) (h2 : ∀ i, r i < 256) :
    PairBytes 32 2 uv ux (swapUv o (avx2Even r, avx2Odd r)).1 o.uPos ∧
      PairBytes 32 2 uv ux (swapUv o (avx2Even r, avx2Odd r)).2 o.vPos := by
  refine swap_at (P := fun r b => PairBytes 32 2 uv ux r b) ⟨?_, ?_⟩ ⟨?_, ?_⟩
  · intro i hi; rw [avx2Even_at _ hi, h1 _ (by omega), Nat.add_zero]
  · intro i hi; rw [avx2Even_at _ hi]; exact h2 _
  · intro i hi; rw [avx2Odd_at _ hi, h1 _ (by omega)]
  · intro i hi; rw [avx2Odd_at _ hi]; exact h2 _

theorem avx2NvChroma_at {s : Sampling} {o : NVOrder} {uv : Buf} {ux : Nat}
    (h : ux + nvStep s 32 ≤ uv.length) (hc : ∀ x ∈ uv, x < 256) :
    ∃ c, avx2NvChroma s o uv ux = .ok c ∧ PairBytes 32 (hdiv s) uv ux c.1 o.uPos ∧
      PairBytes 32 (hdiv s) uv ux c.2 o.vPos := by
  have sub : ux + 32 ≤ uv.length →
      ∃ c, (load 32 uv ux >>= fun r => Outcome.ok (swapUv o (avx2Even r, avx2Odd r))) = .ok c ∧
      PairBytes 32 2 uv ux c.1 o.uPos ∧ PairBytes 32 2 uv ux c.2 o.vPos := by
    intro hlen
    obtain ⟨r, e, h3, h4⟩ := load_at hlen hc
    exact ⟨_, by rw [e]; rfl, evenOdd_at o h3 h4⟩
  cases s
  · exact sub h
  · exact sub h
  · replace h : ux + 64 ≤ uv.length := h
    obtain ⟨a, ea, a1, a2⟩ := load_at (n := 32) (p := ux) (by omega) hc
    obtain ⟨b, eb, b1, b2⟩ := load_at (n := 32) (p := ux + 32) (by omega) hc
    have hcat : ∀ i, i < 64 → cat2 32 a b i = uv.getD (ux + i) 0 := by
      intro i hi
      unfold cat2
      split
      · exact a1 i (by omega)
      · rw [b1 _ (by omega)]; congr 1; omega
    have hlt : ∀ i, cat2 32 a b i < 256 := by
      intro i; unfold cat2; split
      · exact a2 _
      · exact b2 _
    refine ⟨swapUv o ((avx2Deinterleave a b).1, (avx2Deinterleave a b).2), by
      rw [avx2NvChroma, ea, Outcome.bind_ok, eb, Outcome.bind_ok]; rfl, ?_⟩
    refine swap_at (P := fun r c => PairBytes 32 (hdiv .yuv444) uv ux r c) ⟨?_, ?_⟩ ⟨?_, ?_⟩
    · intro i hi
      rw [(avx2Deinterleave_at a b hi).1, hcat _ (by omega)]; simp only [hdiv, Nat.div_one, Nat.add_zero]
    · intro i hi; rw [(avx2Deinterleave_at a b hi).1]; exact hlt _
    · intro i hi
      rw [(avx2Deinterleave_at a b hi).2, hcat _ (by omega)]; simp only [hdiv, Nat.div_one]
    · intro i hi; rw [(avx2Deinterleave_at a b hi).2]; exact hlt _

theorem avx2NvBody_eq (hb : rg.biasUv = 128) (hby : rg.biasY < 256) (ht : Coef16 t) (s : Sampling)
    (o : NVOrder) (ch : Channels) {y uv : Buf} (hy : ∀ x ∈ y, x < 256) (hu : ∀ x ∈ uv, x < 256)
    {cx ux : Nat} (ly : cx + 32 ≤ y.length) (lu : ux + nvStep s 32 ≤ uv.length) (p : Nat)
    (row : Buf) :
    avx2NvBody s o ch rg t y uv cx ux p row
      = put row p (stepNv ch t (· - rg.biasY) (hdiv s) 32 o y uv cx ux) := by
  obtain ⟨yr, ey, y1, y2⟩ := load_at ly hy
  obtain ⟨c, ec, ⟨u1, u2⟩, v1, v2⟩ := avx2NvChroma_at (o := o) lu hu
  rw [avx2NvBody, ey, Outcome.bind_ok, ec, Outcome.bind_ok]
  simp only []
  rw [avx2Store_eq]
  have h := rgb444_at hb ht (n := 32) rfl (y := subsU8 yr (set1_8 rg.biasY)) (u := c.1) (v := c.2)
    (fun i _ => by rw [subsU8_at hby]; have := y2 i; omega) u2 v2
  rw [(h.congr (fun i hi => by rw [subsU8_at hby, y1 i hi]) u1 v1).pixels ch]
  rfl

theorem avx2NvBody422_eq (hb : rg.biasUv = 128) (hby : rg.biasY < 256) (ht : Coef16 t)
    (o : NVOrder) (ch : Channels) {y uv : Buf} (hy : ∀ x ∈ y, x < 256) (hu : ∀ x ∈ uv, x < 256)
    {cx ux : Nat} (ly : cx + 32 ≤ y.length) (lu : ux + 32 ≤ uv.length) (p : Nat) (row : Buf) :
    avx2NvBody422 o ch rg t y uv cx ux p row
      = put row p (stepNv ch t (· - rg.biasY) 2 32 o y uv cx ux) := by
  obtain ⟨yr, ey, y1, y2⟩ := load_at ly hy
  obtain ⟨r, er, u1, u2⟩ := load_at lu hu
  rw [avx2NvBody422, ey, Outcome.bind_ok, er, Outcome.bind_ok]
  have h := dup_at hb ht (n := 32) rfl (y := subsU8 yr (set1_8 rg.biasY))
    (uw := (nvWords o r).1) (vw := (nvWords o r).2) (U := fun k => r (2 * k + o.uPos))
    (V := fun k => r (2 * k + o.vPos))
    (fun i _ => by rw [subsU8_at hby]; have := y2 i; omega) (fun k _ => u2 _) (fun k _ => u2 _)
    (fun k hk => (nvWords_at o u2 (by omega)).1) (fun k hk => (nvWords_at o u2 (by omega)).2)
  have hup := uPos_lt o
  have hvp := vPos_lt o
  simp only []
  rw [avx2Store_eq, (h.congr (Y' := fun i => y.getD (cx + i) 0 - rg.biasY)
    (U' := fun i => uv.getD (ux + (2 * (i / 2) + o.uPos)) 0)
    (V' := fun i => uv.getD (ux + (2 * (i / 2) + o.vPos)) 0)
    (fun i hi => by rw [subsU8_at hby, y1 i hi]) (fun i hi => u1 _ (by omega))
    (fun i hi => u1 _ (by omega))).pixels ch]
  rfl

theorem avx2NvBody420_eq (hb : rg.biasUv = 128) (hby : rg.biasY < 256) (ht : Coef16 t)
    (o : NVOrder) (ch : Channels) {y0 y1 uv : Buf} (hy0 : ∀ x ∈ y0, x < 256)
    (hy1 : ∀ x ∈ y1, x < 256) (hu : ∀ x ∈ uv, x < 256) {cx ux : Nat} (ly0 : cx + 32 ≤ y0.length)
    (ly1 : cx + 32 ≤ y1.length) (lu : ux + 32 ≤ uv.length) (p : Nat) (r0 r1 : Buf) :
    avx2NvBody420 o ch rg t y0 y1 uv cx ux p (r0, r1)
      = (do
        let a ← put r0 p (stepNv ch t (· - rg.biasY) 2 32 o y0 uv cx ux)
        let b ← put r1 p (stepNv ch t (· - rg.biasY) 2 32 o y1 uv cx ux)
        return (a, b)) := by
  obtain ⟨yr0, ey0, a1, a2⟩ := load_at ly0 hy0
  obtain ⟨yr1, ey1, b1, b2⟩ := load_at ly1 hy1
  obtain ⟨r, er, u1, u2⟩ := load_at lu hu
  rw [avx2NvBody420, ey0, Outcome.bind_ok, ey1, Outcome.bind_ok, er, Outcome.bind_ok]
  simp only []
  obtain ⟨⟨c1, c2⟩, c3, c4⟩ := evenOdd_at o (ux := ux) u1 u2
  generalize swapUv o (avx2Even r, avx2Odd r) = c at *
  have key : ∀ (yr : Reg) (y : Buf), (∀ i, i < 32 → yr i = y.getD (cx + i) 0) → (∀ i, yr i < 256) →
      RgbAt t (rgb444 rg t (subsU8 yr (set1_8 rg.biasY)) c.1 c.2) 32
        (fun i => y.getD (cx + i) 0 - rg.biasY)
        (fun i => uv.getD (ux + (2 * (i / 2) + o.uPos)) 0)
        (fun i => uv.getD (ux + (2 * (i / 2) + o.vPos)) 0) := by
    intro yr y h1 h2
    have h := rgb444_at hb ht (n := 32) rfl (y := subsU8 yr (set1_8 rg.biasY)) (u := c.1)
      (v := c.2) (fun i _ => by rw [subsU8_at hby]; have := h2 i; omega) c2 c4
    exact h.congr (fun i hi => by rw [subsU8_at hby, h1 i hi]) c1 c3
  rw [avx2Store_eq, (key yr0 y0 a1 a2).pixels ch]
  congr 1
  funext a
  rw [avx2Store_eq, (key yr1 y1 b1 b2).pixels ch]
  rfl

/-! ## SSE4.1 -/

theorem sseNvBody16_eq (hb : rg.biasUv = 128) (hby : rg.biasY < 256) (ht : Coef16 t) (s : Sampling)
    (o : NVOrder) (ch : Channels) {y uv : Buf} (hy : ∀ x ∈ y, x < 256) (hu : ∀ x ∈ uv, x < 256)
    {cx ux : Nat} (ly : cx + 16 ≤ y.length) (lu : ux + nvStep s 16 ≤ uv.length) (row : Buf) :
    sseNvBody16 s o ch rg t y uv cx ux row
      = put row (cx * ch.count) (stepNv ch t (· - rg.biasY) (hdiv s) 16 o y uv cx ux) := by
  obtain ⟨yr, ey, y1, y2⟩ := load_at ly hy
  have hyl : ∀ i, i < 16 → subsU8 yr (set1_8 rg.biasY) i < 256 := fun i _ => by
    rw [subsU8_at hby]; have := y2 i; omega
  have hup := uPos_lt o
  have hvp := vPos_lt o
  rw [sseNvBody16, ey, Outcome.bind_ok]
  simp only []
  have sub : ux + 16 ≤ uv.length →
      ((load 16 uv ux >>= fun r => Outcome.ok
          ((expandLo (swapUv o (shuffle8 r shE, shuffle8 r shO)).1,
            expandLo (swapUv o (shuffle8 r shE, shuffle8 r shO)).2),
          (expandHi (swapUv o (shuffle8 r shE, shuffle8 r shO)).1,
            expandHi (swapUv o (shuffle8 r shE, shuffle8 r shO)).2))) >>= fun c =>
        sseStore ch (cx * ch.count)
          (packRgb t (expandLo (subsU8 yr (set1_8 rg.biasY))) (expandHi (subsU8 yr (set1_8 rg.biasY)))
            (chromaTerms rg t c.1.1 c.1.2) (chromaTerms rg t c.2.1 c.2.2)).1
          (packRgb t (expandLo (subsU8 yr (set1_8 rg.biasY))) (expandHi (subsU8 yr (set1_8 rg.biasY)))
            (chromaTerms rg t c.1.1 c.1.2) (chromaTerms rg t c.2.1 c.2.2)).2.1
          (packRgb t (expandLo (subsU8 yr (set1_8 rg.biasY))) (expandHi (subsU8 yr (set1_8 rg.biasY)))
            (chromaTerms rg t c.1.1 c.1.2) (chromaTerms rg t c.2.1 c.2.2)).2.2 (set1_8 255) row)
      = put row (cx * ch.count) (stepNv ch t (· - rg.biasY) 2 16 o y uv cx ux) := by
    intro hlen
    obtain ⟨r, er, u1, u2⟩ := load_at hlen hu
    rw [er, Outcome.bind_ok, Outcome.bind_ok]
    simp only []
    have hp : PairBytes 16 2 uv ux (swapUv o (shuffle8 r shE, shuffle8 r shO)).1 o.uPos ∧
        PairBytes 16 2 uv ux (swapUv o (shuffle8 r shE, shuffle8 r shO)).2 o.vPos := by
      refine swap_at (P := fun r c => PairBytes 16 2 uv ux r c) ⟨?_, ?_⟩ ⟨?_, ?_⟩
      · intro i hi; rw [shE_at _ (by omega), u1 _ (by omega), Nat.add_zero]
      · intro i hi; rw [shE_at _ (by omega)]; exact u2 _
      · intro i hi; rw [shO_at _ (by omega), u1 _ (by omega)]
      · intro i hi; rw [shO_at _ (by omega)]; exact u2 _
    obtain ⟨⟨c1, c2⟩, c3, c4⟩ := hp
    generalize swapUv o (shuffle8 r shE, shuffle8 r shO) = c at *
    have h := rgb444_at hb ht (n := 16) rfl (y := subsU8 yr (set1_8 rg.biasY)) (u := c.1) (v := c.2)
      hyl c2 c4
    rw [sseStore_eq]
    exact congrArg (put row _)
      ((h.congr (fun i hi => by rw [subsU8_at hby, y1 i hi]) c1 c3).pixels ch)
  cases s
  · exact sub lu
  · exact sub lu
  · replace lu : ux + 32 ≤ uv.length := lu
    obtain ⟨a, ea, a1, a2⟩ := load_at (n := 16) (p := ux) (by omega) hu
    obtain ⟨b, eb, b1, b2⟩ := load_at (n := 16) (p := ux + 16) (by omega) hu
    rw [sseNvWords16, ea, Outcome.bind_ok, eb, Outcome.bind_ok, Outcome.pure_eq, Outcome.bind_ok]
    simp only []
    have h : RgbAt t (packRgb t (expandLo (subsU8 yr (set1_8 rg.biasY)))
        (expandHi (subsU8 yr (set1_8 rg.biasY)))
        (chromaTerms rg t (nvWords o a).1 (nvWords o a).2)
        (chromaTerms rg t (nvWords o b).1 (nvWords o b).2)) 16 (subsU8 yr (set1_8 rg.biasY))
        (fun i => uv.getD (ux + (2 * (i / 1) + o.uPos)) 0)
        (fun i => uv.getD (ux + (2 * (i / 1) + o.vPos)) 0) := by
      apply packRgb_at ht rfl hyl (fun i _ => getD_lt hu _) (fun i _ => getD_lt hu _)
      · intro k hk; exact s16_expandLo (hyl _ (by omega))
      · intro k hk; exact s16_expandHi (hyl _ (by omega))
      · intro k hk
        apply chromaTerms_at hb ht (getD_lt hu _) (getD_lt hu _)
        · rw [(nvWords_at o a2 (by omega)).1, a1 _ (by omega)]
          have e : ux + (2 * k + o.uPos) = ux + (2 * ((k / 8 * 16 + k % 8) / 1) + o.uPos) := by omega
          rw [e]
        · rw [(nvWords_at o a2 (by omega)).2, a1 _ (by omega)]
          have e : ux + (2 * k + o.vPos) = ux + (2 * ((k / 8 * 16 + k % 8) / 1) + o.vPos) := by omega
          rw [e]
      · intro k hk
        apply chromaTerms_at hb ht (getD_lt hu _) (getD_lt hu _)
        · rw [(nvWords_at o b2 (by omega)).1, b1 _ (by omega)]
          have e : ux + 16 + (2 * k + o.uPos)
              = ux + (2 * ((k / 8 * 16 + 8 + k % 8) / 1) + o.uPos) := by omega
          rw [e]
        · rw [(nvWords_at o b2 (by omega)).2, b1 _ (by omega)]
          have e : ux + 16 + (2 * k + o.vPos)
              = ux + (2 * ((k / 8 * 16 + 8 + k % 8) / 1) + o.vPos) := by omega
          rw [e]
    rw [sseStore_eq, (h.congr (fun i hi => by rw [subsU8_at hby, y1 i hi]) (fun i _ => rfl)
      (fun i _ => rfl)).pixels ch]
    rfl

/-- A step of the 8-pixel loops: signed luma, chroma words per pixel. -/
theorem half_eq (hb : rg.biasUv = 128) (hby : rg.biasY < 256) (ht : Coef16 t) {hd : Nat}
    {o : NVOrder} (ch : Channels) {y uv : Buf} (hu : ∀ x ∈ uv, x < 256) {cx ux : Nat} {yr : Reg}
    (y1 : ∀ i, i < 8 → yr i = y.getD (cx + i) 0) {c : Reg × Reg}
    (hc : PairWords 8 hd uv ux c.1 o.uPos ∧ PairWords 8 hd uv ux c.2 o.vPos) :
    pixels ch 8 (packRgbLow t (expandLo (subsI8 yr (set1_8 rg.biasY))) (chromaTerms rg t c.1 c.2)).1
      (packRgbLow t (expandLo (subsI8 yr (set1_8 rg.biasY))) (chromaTerms rg t c.1 c.2)).2.1
      (packRgbLow t (expandLo (subsI8 yr (set1_8 rg.biasY))) (chromaTerms rg t c.1 c.2)).2.2
      (set1_8 255) = stepNv ch t (signedLuma rg.biasY) hd 8 o y uv cx ux := by
  have h := low_at hb ht (y := subsI8 yr (set1_8 rg.biasY)) (uw := c.1) (vw := c.2)
    (U := fun i => uv.getD (ux + (2 * (i / hd) + o.uPos)) 0)
    (V := fun i => uv.getD (ux + (2 * (i / hd) + o.vPos)) 0)
    (fun i _ => by rw [subsI8_at hby]; exact signedLuma_lt ..) (fun k _ => getD_lt hu _)
    (fun k _ => getD_lt hu _) hc.1 hc.2
  exact (h.congr (fun i hi => by rw [subsI8_at hby, y1 i hi]) (fun i _ => rfl)
    (fun i _ => rfl)).pixels ch

theorem sseNvWords8_at {s : Sampling} {o : NVOrder} {uv : Buf} {ux : Nat}
    (h : ux + nvStep s 8 ≤ uv.length) (hc : ∀ x ∈ uv, x < 256) :
    ∃ c, sseNvWords8 s o uv ux = .ok c ∧ PairWords 8 (hdiv s) uv ux c.1 o.uPos ∧
      PairWords 8 (hdiv s) uv ux c.2 o.vPos := by
  have hup := uPos_lt o
  have hvp := vPos_lt o
  have sub : ux + 8 ≤ uv.length →
      ∃ c, (load 8 uv ux >>= fun r => Outcome.ok (swapUv o
        (srli16 6 (shuffle8 r (setr8 [0, 0, 0, 0, 2, 2, 2, 2, 4, 4, 4, 4, 6, 6, 6, 6])),
        srli16 6 (shuffle8 r (setr8 [1, 1, 1, 1, 3, 3, 3, 3, 5, 5, 5, 5, 7, 7, 7, 7]))))) = .ok c ∧
      PairWords 8 2 uv ux c.1 o.uPos ∧ PairWords 8 2 uv ux c.2 o.vPos := by
    intro hlen
    obtain ⟨r, e, h3, h4⟩ := load_at hlen hc
    refine ⟨_, by rw [e]; rfl, swap_at (P := fun r b => PairWords 8 2 uv ux r b) ?_ ?_⟩
    · intro k hk
      apply s16_srli6 (getD_lt hc _)
      rw [← h3 _ (by omega)]
      interval_cases k <;> rfl
    · intro k hk
      apply s16_srli6 (getD_lt hc _)
      rw [← h3 _ (by omega)]
      interval_cases k <;> rfl
  cases s
  · exact sub h
  · exact sub h
  · replace h : ux + 16 ≤ uv.length := h
    obtain ⟨r, e, h3, h4⟩ := load_at h hc
    refine ⟨_, by rw [sseNvWords8, e]; rfl, ?_, ?_⟩
    · intro k hk
      rw [(nvWords_at o h4 (by omega)).1, h3 _ (by omega)]; simp only [hdiv, Nat.div_one]
    · intro k hk
      rw [(nvWords_at o h4 (by omega)).2, h3 _ (by omega)]; simp only [hdiv, Nat.div_one]

theorem sseNvBody8_eq (hb : rg.biasUv = 128) (hby : rg.biasY < 256) (ht : Coef16 t) (s : Sampling)
    (o : NVOrder) (ch : Channels) {y uv : Buf} (hy : ∀ x ∈ y, x < 256) (hu : ∀ x ∈ uv, x < 256)
    {cx ux : Nat} (ly : cx + 8 ≤ y.length) (lu : ux + nvStep s 8 ≤ uv.length) (p : Nat) (row : Buf) :
    sseNvBody8 s o ch rg t y uv cx ux p row
      = put row p (stepNv ch t (signedLuma rg.biasY) (hdiv s) 8 o y uv cx ux) := by
  obtain ⟨yr, ey, y1, y2⟩ := load_at ly hy
  obtain ⟨c, ec, hc⟩ := sseNvWords8_at (o := o) lu hu
  rw [sseNvBody8, ey, Outcome.bind_ok, ec, Outcome.bind_ok]
  simp only []
  rw [sseStoreHalf_eq, half_eq hb hby ht ch hu y1 hc]

theorem sseNvBody422_eq (hb : rg.biasUv = 128) (hby : rg.biasY < 256) (ht : Coef16 t)
    (o : NVOrder) (ch : Channels) {y uv : Buf} (hy : ∀ x ∈ y, x < 256) (hu : ∀ x ∈ uv, x < 256)
    {cx ux : Nat} (ly : cx + 16 ≤ y.length) (lu : ux + 16 ≤ uv.length) (row : Buf) :
    sseNvBody422 o ch rg t y uv cx ux row
      = put row (cx * ch.count) (stepNv ch t (· - rg.biasY) 2 16 o y uv cx ux) := by
  obtain ⟨yr, ey, y1, y2⟩ := load_at ly hy
  obtain ⟨r, er, u1, u2⟩ := load_at lu hu
  rw [sseNvBody422, ey, Outcome.bind_ok, er, Outcome.bind_ok]
  have hup := uPos_lt o
  have hvp := vPos_lt o
  have h := dup_at hb ht (n := 16) rfl (y := subsU8 yr (set1_8 rg.biasY))
    (uw := (nvWords o r).1) (vw := (nvWords o r).2) (U := fun k => r (2 * k + o.uPos))
    (V := fun k => r (2 * k + o.vPos))
    (fun i _ => by rw [subsU8_at hby]; have := y2 i; omega) (fun k _ => u2 _) (fun k _ => u2 _)
    (fun k hk => (nvWords_at o u2 (by omega)).1) (fun k hk => (nvWords_at o u2 (by omega)).2)
  simp only []
  rw [sseStore_eq, (h.congr (Y' := fun i => y.getD (cx + i) 0 - rg.biasY)
    (U' := fun i => uv.getD (ux + (2 * (i / 2) + o.uPos)) 0)
    (V' := fun i => uv.getD (ux + (2 * (i / 2) + o.vPos)) 0)
    (fun i hi => by rw [subsU8_at hby, y1 i hi]) (fun i hi => u1 _ (by omega))
    (fun i hi => u1 _ (by omega))).pixels ch]
  rfl

theorem sseNvBody422Half_eq (hb : rg.biasUv = 128) (hby : rg.biasY < 256) (ht : Coef16 t)
    (o : NVOrder) (ch : Channels) {y uv : Buf} (hy : ∀ x ∈ y, x < 256) (hu : ∀ x ∈ uv, x < 256)
    {cx ux : Nat} (ly : cx + 8 ≤ y.length) (lu : ux + 8 ≤ uv.length) (p : Nat) (row : Buf) :
    sseNvBody422Half o ch rg t y uv cx ux p row
      = put row p (stepNv ch t (signedLuma rg.biasY) 2 8 o y uv cx ux) := by
  obtain ⟨yr, ey, y1, y2⟩ := load_at ly hy
  obtain ⟨r, er, u1, u2⟩ := load_at lu hu
  rw [sseNvBody422Half, ey, Outcome.bind_ok, er, Outcome.bind_ok]
  have hc : PairWords 8 2 uv ux (swapUv o (srli16 6 (sseQuad (sseDeinterleave r zero).1),
        srli16 6 (sseQuad (sseDeinterleave r zero).2))).1 o.uPos ∧
      PairWords 8 2 uv ux (swapUv o (srli16 6 (sseQuad (sseDeinterleave r zero).1),
        srli16 6 (sseQuad (sseDeinterleave r zero).2))).2 o.vPos := by
    refine swap_at (P := fun r b => PairWords 8 2 uv ux r b) ?_ ?_
    · intro k hk
      apply s16_srli6 (getD_lt hu _)
      rw [← u1 _ (by omega)]
      interval_cases k <;> rfl
    · intro k hk
      apply s16_srli6 (getD_lt hu _)
      rw [← u1 _ (by omega)]
      interval_cases k <;> rfl
  simp only []
  rw [sseStoreHalf_eq, half_eq hb hby ht ch hu y1 hc]

theorem sseNvBody420_eq (hb : rg.biasUv = 128) (hby : rg.biasY < 256) (ht : Coef16 t)
    (o : NVOrder) (ch : Channels) {y0 y1 uv : Buf} (hy0 : ∀ x ∈ y0, x < 256)
    (hy1 : ∀ x ∈ y1, x < 256) (hu : ∀ x ∈ uv, x < 256) {cx ux : Nat} (ly0 : cx + 16 ≤ y0.length)
    (ly1 : cx + 16 ≤ y1.length) (lu : ux + 16 ≤ uv.length) (r0 r1 : Buf) :
    sseNvBody420 o ch rg t y0 y1 uv cx ux (r0, r1)
      = (do
        let a ← put r0 (cx * ch.count) (stepNv ch t (· - rg.biasY) 2 16 o y0 uv cx ux)
        let b ← put r1 (cx * ch.count) (stepNv ch t (· - rg.biasY) 2 16 o y1 uv cx ux)
        return (a, b)) := by
  obtain ⟨yr0, ey0, a1, a2⟩ := load_at ly0 hy0
  obtain ⟨yr1, ey1, b1, b2⟩ := load_at ly1 hy1
  obtain ⟨r, er, u1, u2⟩ := load_at lu hu
  rw [sseNvBody420, ey0, Outcome.bind_ok, ey1, Outcome.bind_ok, er, Outcome.bind_ok]
  have hup := uPos_lt o
  have hvp := vPos_lt o
  simp only []
  have key : ∀ (yr : Reg) (y : Buf), (∀ i, i < 16 → yr i = y.getD (cx + i) 0) → (∀ i, yr i < 256) →
      RgbAt t (packRgb t (expandLo (subsU8 yr (set1_8 rg.biasY)))
        (expandHi (subsU8 yr (set1_8 rg.biasY)))
        (dupLo (chromaTerms rg t (nvWords o r).1 (nvWords o r).2))
        (dupHi (chromaTerms rg t (nvWords o r).1 (nvWords o r).2))) 16
        (fun i => y.getD (cx + i) 0 - rg.biasY)
        (fun i => uv.getD (ux + (2 * (i / 2) + o.uPos)) 0)
        (fun i => uv.getD (ux + (2 * (i / 2) + o.vPos)) 0) := by
    intro yr y h1 h2
    have h := dup_at hb ht (n := 16) rfl (y := subsU8 yr (set1_8 rg.biasY))
      (uw := (nvWords o r).1) (vw := (nvWords o r).2) (U := fun k => r (2 * k + o.uPos))
      (V := fun k => r (2 * k + o.vPos))
      (fun i _ => by rw [subsU8_at hby]; have := h2 i; omega) (fun k _ => u2 _) (fun k _ => u2 _)
      (fun k hk => (nvWords_at o u2 (by omega)).1) (fun k hk => (nvWords_at o u2 (by omega)).2)
    exact h.congr (fun i hi => by rw [subsU8_at hby, h1 i hi]) (fun i hi => u1 _ (by omega))
      (fun i hi => u1 _ (by omega))
  rw [sseStore_eq, (key yr0 y0 a1 a2).pixels ch]
  congr 1
  funext a
  rw [sseStore_eq, (key yr1 y1 b1 b2).pixels ch]
  rfl

/-- The coefficients the 8-pixel steps of the 4:2:0 kernel use: the one of Cr in place of the one
of Cb. -/
def crForCb (t : InvCoef) : InvCoef := { t with cb := t.cr }

theorem Coef16.crForCb (h : Coef16 t) : Coef16 (crForCb t) := ⟨h.1, h.2.1, h.2.1, h.2.2.2⟩

theorem sseNvBody420Half_eq (hb : rg.biasUv = 128) (hby : rg.biasY < 256) (ht : Coef16 t)
    (o : NVOrder) (ch : Channels) {y0 y1 uv : Buf} (hy0 : ∀ x ∈ y0, x < 256)
    (hy1 : ∀ x ∈ y1, x < 256) (hu : ∀ x ∈ uv, x < 256) {cx ux : Nat} (ly0 : cx + 8 ≤ y0.length)
    (ly1 : cx + 8 ≤ y1.length) (lu : ux + 8 ≤ uv.length) (p : Nat) (r0 r1 : Buf) :
    sseNvBody420Half o ch rg t y0 y1 uv cx ux p (r0, r1)
      = (do
        let a ← put r0 p (stepNv ch (crForCb t) (signedLuma rg.biasY) 2 8 o y0 uv cx ux)
        let b ← put r1 p (stepNv ch (crForCb t) (signedLuma rg.biasY) 2 8 o y1 uv cx ux)
        return (a, b)) := by
  obtain ⟨yr0, ey0, a1, a2⟩ := load_at ly0 hy0
  obtain ⟨yr1, ey1, b1, b2⟩ := load_at ly1 hy1
  obtain ⟨r, er, u1, u2⟩ := load_at lu hu
  rw [sseNvBody420Half, ey0, Outcome.bind_ok, ey1, Outcome.bind_ok, er, Outcome.bind_ok]
  have hup := uPos_lt o
  have hvp := vPos_lt o
  simp only []
  have hc : PairWords 8 2 uv ux (expandLo (sseDouble (swapUv o (sseDeinterleave r zero)).1)) o.uPos ∧
      PairWords 8 2 uv ux (expandLo (sseDouble (swapUv o (sseDeinterleave r zero)).2)) o.vPos := by
    refine swap_at (o := o) (E := (sseDeinterleave r zero).1) (O := (sseDeinterleave r zero).2)
      (P := fun r b => PairWords 8 2 uv ux (expandLo (sseDouble r)) b) ?_ ?_
    · intro k hk
      apply s16_srli6 (getD_lt hu _)
      rw [← u1 _ (by omega)]
      interval_cases k <;> rfl
    · intro k hk
      apply s16_srli6 (getD_lt hu _)
      rw [← u1 _ (by omega)]
      interval_cases k <;> rfl
  have ht' := ht.crForCb
  generalize expandLo (sseDouble (swapUv o (sseDeinterleave r zero)).1) = c1 at *
  generalize expandLo (sseDouble (swapUv o (sseDeinterleave r zero)).2) = c2 at *
  have e0 := half_eq hb hby ht' ch hu a1 (c := (c1, c2)) hc
  have e1 := half_eq hb hby ht' ch hu b1 (c := (c1, c2)) hc
  rw [← e0, ← e1, sseStoreHalf_eq]
  congr 1
  funext a
  rw [sseStoreHalf_eq]
  rfl

end Verif.X86
