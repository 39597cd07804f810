import Verif.Lemmas.NeonShuffle
import Verif.Props.X86Shuffle
import Verif.Props.Neon
/-!
# C116: the channel shuffles on 64-bit ARM
-/
namespace Verif
open Spec Neon

/-- C116: what a shuffle writes on 64-bit ARM: no load or store leaves its row, nothing but the pixels is
written, and a pixel receives the colours of the same source pixel in its own order and the source alpha; when
the source has none, 255 in the groups of 16 pixels and 0 in the pixels after them. -/
theorem c116_neon_shuffle (sc dc : Channels) (src : Buf) (sStride : Nat)
    (dst : Buf) (dStride w h : Nat) (hw : 0 < w) (hh : 0 < h) (hw32 : U32 w) (hh32 : U32 h)
    (hs : GoodDst src.length sStride w h sc.count) (hb : Bytes src)
    (hd : GoodDst dst.length dStride w h dc.count) :
    ∃ out, shuffleNeon sc dc src sStride dst dStride w h = .ok out ∧
      FrameSpec out dst dStride w h dc.count (fun x y =>
        let s := pixelAt src sStride sc.count x y
        layout dc (red sc s) (green sc s) (blue sc s)
          (alphaOr (if x < 16 * (w / 16) then 255 else 0) sc s)) := by
  have hg : ∀ s ∈ [(⟨src, sStride, sc.count, true⟩ : Src)], GoodSrc s w h 256 := by
    intro s hs'
    rw [List.mem_singleton] at hs'
    subst hs'
    exact goodSrc_packed (X86.count_pos sc) hs hb
  unfold shuffleNeon shuffle
  rw [hs.accepted hw hh hw32 hh32 (X86.count_pos sc) (count_le sc),
    hd.accepted hw hh hw32 hh32 (X86.count_pos dc) (count_le dc)]
  simp only [Outcome.bind_ok]
  obtain ⟨out, e, h⟩ := mapFrame_cut hw (X86.count_pos dc) hg (shuffleBody_ok rfl)
    (shufHandler_fills rfl rfl) hd.cols_le hd.full
  exact ⟨out, e, frameRel_eq h⟩

/-- C116, what holds: if the source has alpha, or the destination has none, or the width is a multiple of 16,
the result is that of the portable code.
Missing: from a layout without alpha to one with it, when the width is not a multiple of 16, where
`c116_transparent` shows the claim false. -/
theorem c116_neon_shuffle_agrees_partial (sc dc : Channels) (src : Buf) (sStride : Nat)
    (dst : Buf) (dStride w h : Nat) (hw : 0 < w) (hh : 0 < h) (hw32 : U32 w) (hh32 : U32 h)
    (hs : GoodDst src.length sStride w h sc.count) (hb : Bytes src)
    (hd : GoodDst dst.length dStride w h dc.count)
    (hc : sc.hasAlpha = true ∨ dc.hasAlpha = false ∨ w % 16 = 0) :
    shuffleNeon sc dc src sStride dst dStride w h = shuffle x64 sc dc noMap src sStride dst dStride w h := by
  obtain ⟨o, e, h1⟩ := c116_neon_shuffle sc dc src sStride dst dStride w h hw hh hw32 hh32 hs hb hd
  obtain ⟨o', e', h1'⟩ := c40_shuffle_exact sc dc src sStride dst dStride w h hw hh hw32 hh32 hs hb hd
  rw [e, e', frameSpec_unique h1 (frameSpec_congr h1' fun x y hx hy => ?_)]
  simp only
  rcases hc with hc | hc | hc
  · have hl := GoodDst_pixel hs hx hy
    generalize pixelAt src sStride sc.count x y = s at hl
    cases sc <;> simp only [Channels.count] at hl <;> cases hc
    all_goals
      simp only [alphaOr, List.getD_eq_getElem?_getD, List.getElem?_eq_getElem (show 3 < s.length by omega)]
      rfl
  · cases dc <;> first | rfl | cases hc
  · rw [if_pos (show x < 16 * (w / 16) by omega)]

/-- C116, what holds of every shuffle: the colours of every pixel are those of the source pixel, and there and
back the pixel is the source pixel if the layout in between has alpha or the source has none. -/
theorem c116_colours_and_back (sc dc : Channels) (src : Buf) (sStride : Nat) (mid : Buf) (mStride : Nat)
    (dst : Buf) (dStride w h : Nat) (hw : 0 < w) (hh : 0 < h) (hw32 : U32 w) (hh32 : U32 h)
    (hs : GoodDst src.length sStride w h sc.count) (hb : Bytes src) (hb' : Bytes mid)
    (hm : GoodDst mid.length mStride w h dc.count) (hd : GoodDst dst.length dStride w h sc.count) :
    ∃ m out, shuffleNeon sc dc src sStride mid mStride w h = .ok m ∧
      shuffleNeon dc sc m mStride dst dStride w h = .ok out ∧
      ∀ x y, x < w → y < h →
        let s := pixelAt src sStride sc.count x y
        let p := pixelAt m mStride dc.count x y
        (red dc p = red sc s ∧ green dc p = green sc s ∧ blue dc p = blue sc s) ∧
        (dc.hasAlpha = true ∨ sc.hasAlpha = false → pixelAt out dStride sc.count x y = s) := by
  obtain ⟨m, e1, h1⟩ := c116_neon_shuffle sc dc src sStride mid mStride w h hw hh hw32 hh32 hs hb hm
  have hmb : Bytes m := frameSpec_bound' h1 hb' fun x y hx hy => by
    have hp : ∀ a ∈ pixelAt src sStride sc.count x y, a < 256 := mem_pixelAt hb
    obtain ⟨c1, c2, c3⟩ := comps_lt (by decide) sc hp
    refine layout_bound dc c1 c2 c3 ?_
    have hz : (if x < 16 * (w / 16) then 255 else 0) < 256 := by split <;> decide
    cases sc <;> simp only [alphaOr] <;> try exact hz
    all_goals
      rw [List.getD_eq_getElem?_getD]
      cases e : (pixelAt src sStride _ x y)[3]? with
      | none => exact hz
      | some a => exact hp a (List.mem_of_getElem? e)
  obtain ⟨out, e2, h2⟩ := c116_neon_shuffle dc sc m mStride dst dStride w h hw hh hw32 hh32
    (by rw [h1.1]; exact hm) hmb hd
  refine ⟨m, out, e1, e2, fun x y hx hy => ?_⟩
  have a1 := frameSpec_pixel h1 hx hy (layout_length ..)
  have a2 := frameSpec_pixel h2 hx hy (layout_length ..)
  simp only [a1] at a2 ⊢
  generalize (if x < 16 * (w / 16) then 255 else 0 : Nat) = o at a2
  generalize hp : pixelAt src sStride sc.count x y = s at a2
  have hlen : s.length = sc.count := by rw [← hp]; exact GoodDst_pixel hs hx hy
  obtain ⟨c1, c2, c3⟩ := layout_colours dc (red sc s) (green sc s) (blue sc s) (alphaOr o sc s)
  refine ⟨⟨(layout_colours ..).1, (layout_colours ..).2.1, (layout_colours ..).2.2⟩, fun hor => ?_⟩
  rw [c1, c2, c3, layout_alpha] at a2
  rw [a2]
  rcases hor with h | h
  · rw [h, if_pos rfl]
    exact layout_of_pixel sc s hlen o
  · have : layout sc (red sc s) (green sc s) (blue sc s) (if dc.hasAlpha then alphaOr o sc s else o)
        = layout sc (red sc s) (green sc s) (blue sc s) (alphaOr o sc s) := by
      cases sc <;> first | rfl | cases h
    rw [this]
    exact layout_of_pixel sc s hlen o

/-- C116 fails: from RGB or BGR to RGBA or BGRA, the pixels after the groups of 16 in every row become fully
transparent, where the portable code makes them opaque. -/
theorem c116_transparent (sc dc : Channels) (hsc : sc.hasAlpha = false) (hdc : dc.hasAlpha = true) (src : Buf)
    (sStride : Nat) (dst : Buf) (dStride w h : Nat) (hw : 0 < w) (hh : 0 < h) (hw32 : U32 w) (hh32 : U32 h)
    (hs : GoodDst src.length sStride w h sc.count) (hb : Bytes src)
    (hd : GoodDst dst.length dStride w h dc.count) :
    ∃ out out', shuffleNeon sc dc src sStride dst dStride w h = .ok out ∧
      shuffle x64 sc dc noMap src sStride dst dStride w h = .ok out' ∧
      ∀ x y, x < w → y < h → 16 * (w / 16) ≤ x →
        alphaOr 0 dc (pixelAt out dStride dc.count x y) = 0 ∧
        alphaOr 0 dc (pixelAt out' dStride dc.count x y) = 255 := by
  obtain ⟨o, e, h1⟩ := c116_neon_shuffle sc dc src sStride dst dStride w h hw hh hw32 hh32 hs hb hd
  obtain ⟨o', e', h1'⟩ := c40_shuffle_exact sc dc src sStride dst dStride w h hw hh hw32 hh32 hs hb hd
  refine ⟨o, o', e, e', fun x y hx hy hc => ?_⟩
  rw [frameSpec_pixel h1 hx hy (layout_length ..), frameSpec_pixel h1' hx hy (layout_length ..), layout_alpha,
    layout_alpha, hdc, if_neg (show ¬ x < 16 * (w / 16) by omega)]
  cases sc <;> first | exact ⟨rfl, rfl⟩ | cases hsc

/-- Three RGB pixels to RGBA: transparent with NEON, opaque without. -/
theorem c116_transparent_witness :
    shuffleNeon .rgb .rgba [1, 2, 3, 4, 5, 6, 7, 8, 9] 9 (List.replicate 12 77) 12 3 1
      = .ok [1, 2, 3, 0, 4, 5, 6, 0, 7, 8, 9, 0] ∧
    shuffle x64 .rgb .rgba noMap [1, 2, 3, 4, 5, 6, 7, 8, 9] 9 (List.replicate 12 77) 12 3 1
      = .ok [1, 2, 3, 255, 4, 5, 6, 255, 7, 8, 9, 255] := by
  decide +kernel

/-- The hypotheses on a 2 × 2 image with padded rows, and a result that is right. -/
example : GoodDst 14 7 2 2 3 ∧ GoodDst 18 9 2 2 4 ∧
    shuffleNeon .rgba .bgra [1, 2, 3, 4, 5, 6, 7, 8, 9, 10, 11, 12] 12 (List.replicate 14 77) 14 3 1
    = .ok [3, 2, 1, 4, 7, 6, 5, 8, 11, 10, 9, 12, 77, 77] :=
  ⟨⟨by unfold U32; decide, by decide, by unfold FullRows; decide, by decide⟩,
    ⟨by unfold U32; decide, by decide, by unfold FullRows; decide, by decide⟩, by decide +kernel⟩

end Verif
