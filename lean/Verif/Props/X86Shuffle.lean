import Verif.Lemmas.X86Shuffle
import Verif.Props.Shuffle
/-!
# C74: the channel shuffles on x86

Every public shuffle converts between two different layouts (/repo/src/shuffle.rs:180-490), hence the
hypothesis `sc ≠ dc`.
-/
namespace Verif
open Spec X86

/-- The shuffle as it runs on a processor of the given class. -/
def shuffleOn (cpu : Cpu) (sc dc : Channels) (src : Buf) (sStride : Nat) (dst : Buf)
    (dStride w h : Nat) : Outcome Buf :=
  shuffle x64 sc dc (shuffleHandler cpu sc dc w) src sStride dst dStride w h

/-- C74: on every processor, every pixel receives the colours of the same source pixel in its own
order, and the source alpha, or 255 when the source has none; nothing else is written, whatever the
width. -/
theorem c74_x86_shuffle (cpu : Cpu) (sc dc : Channels) (hne : sc ≠ dc) (src : Buf) (sStride : Nat)
    (dst : Buf) (dStride w h : Nat) (hw : 0 < w) (hh : 0 < h) (hw32 : U32 w) (hh32 : U32 h)
    (hs : GoodDst src.length sStride w h sc.count) (hb : Bytes src)
    (hd : GoodDst dst.length dStride w h dc.count) :
    ∃ out, shuffleOn cpu sc dc src sStride dst dStride w h = .ok out ∧
      FrameSpec out dst dStride w h dc.count (fun x y =>
        let s := pixelAt src sStride sc.count x y
        layout dc (red sc s) (green sc s) (blue sc s) (alphaOr 255 sc s)) := by
  have hg : ∀ s ∈ [(⟨src, sStride, sc.count, true⟩ : Src)], GoodSrc s w h 256 := by
    intro s hs'
    rw [List.mem_singleton] at hs'
    subst hs'
    exact goodSrc_packed (count_pos sc) hs hb
  unfold shuffleOn shuffle
  rw [hs.accepted hw hh hw32 hh32 (count_pos sc) (count_le sc),
    hd.accepted hw hh hw32 hh32 (count_pos dc) (count_le dc)]
  simp only [Outcome.bind_ok]
  obtain ⟨out, e, h⟩ := mapFrame_cut hw (count_pos dc) hg (shuffleBody_ok rfl)
    (shuffleHandler_fills cpu hne rfl rfl) hd.cols_le hd.full
  exact ⟨out, e, frameRel_eq h⟩

/-- C74: the bytes do not depend on the processor. -/
theorem c74_cpu_agreement (cpu cpu' : Cpu) (sc dc : Channels) (hne : sc ≠ dc) (src : Buf)
    (sStride : Nat) (dst : Buf) (dStride w h : Nat) (hw : 0 < w) (hh : 0 < h) (hw32 : U32 w)
    (hh32 : U32 h) (hs : GoodDst src.length sStride w h sc.count) (hb : Bytes src)
    (hd : GoodDst dst.length dStride w h dc.count) :
    shuffleOn cpu sc dc src sStride dst dStride w h
      = shuffleOn cpu' sc dc src sStride dst dStride w h := by
  obtain ⟨o, e, h1⟩ := c74_x86_shuffle cpu sc dc hne src sStride dst dStride w h hw hh hw32 hh32 hs hb hd
  obtain ⟨o', e', h1'⟩ := c74_x86_shuffle cpu' sc dc hne src sStride dst dStride w h hw hh hw32 hh32 hs
    hb hd
  rw [e, e', frameSpec_unique h1 h1']

/-- C74: there and back, even on two different processors, returns every pixel unchanged if the layout
in between has alpha or the source has none, and otherwise the colours with alpha 255. -/
theorem c74_round_trip (cpu cpu' : Cpu) (sc dc : Channels) (hne : sc ≠ dc) (src : Buf) (sStride : Nat)
    (mid : Buf) (mStride : Nat) (dst : Buf) (dStride w h : Nat) (hw : 0 < w) (hh : 0 < h)
    (hw32 : U32 w) (hh32 : U32 h)
    (hs : GoodDst src.length sStride w h sc.count) (hb : Bytes src) (hb' : Bytes mid)
    (hm : GoodDst mid.length mStride w h dc.count) (hd : GoodDst dst.length dStride w h sc.count) :
    ∃ m out, shuffleOn cpu sc dc src sStride mid mStride w h = .ok m ∧
      shuffleOn cpu' dc sc m mStride dst dStride w h = .ok out ∧
      ∀ x y, x < w → y < h →
        let s := pixelAt src sStride sc.count x y
        pixelAt out dStride sc.count x y
          = layout sc (red sc s) (green sc s) (blue sc s)
              (if dc.hasAlpha then alphaOr 255 sc s else 255) ∧
        (dc.hasAlpha = true ∨ sc.hasAlpha = false → pixelAt out dStride sc.count x y = s) := by
  have plain : ∀ (sc dc : Channels) (a : Buf) (sa : Nat) (b : Buf) (sb : Nat),
      shuffle x64 sc dc noMap a sa b sb w h = shuffleOn .plain sc dc a sa b sb w h := fun _ _ _ _ _ _ => rfl
  obtain ⟨m, out, e1, e2, h3⟩ := c40_round_trip sc dc src sStride mid mStride dst dStride w h hw hh hw32
    hh32 hs hb hb' hm hd
  obtain ⟨m', e1', h1⟩ := c40_shuffle_exact sc dc src sStride mid mStride w h hw hh hw32 hh32 hs hb hm
  obtain rfl : m = m' := by rw [e1] at e1'; exact Outcome.ok.inj e1'
  have hmb : Bytes m := frameSpec_bound' h1 hb' fun x y hx hy => by
    have hp : ∀ a ∈ pixelAt src sStride sc.count x y, a < 256 := mem_pixelAt hb
    obtain ⟨c1, c2, c3⟩ := comps_lt (by decide) sc hp
    refine layout_bound dc c1 c2 c3 ?_
    cases sc <;> simp only [alphaOr] <;> try decide
    all_goals
      rw [List.getD_eq_getElem?_getD]
      cases e : (pixelAt src sStride _ x y)[3]? with
      | none => decide
      | some a => exact hp a (List.mem_of_getElem? e)
  rw [plain] at e1 e2
  refine ⟨m, out, ?_, ?_, h3⟩
  · rw [c74_cpu_agreement cpu .plain sc dc hne src sStride mid mStride w h hw hh hw32 hh32 hs hb hm, e1]
  · rw [c74_cpu_agreement cpu' .plain dc sc (Ne.symm hne) m mStride dst dStride w h hw hh hw32 hh32
      (by rw [h1.1]; exact hm) hmb hd, e2]

/-- The hypotheses on a 2 × 2 image with padded rows, and the result with AVX2 and SSE4.1. -/
example : GoodDst 14 7 2 2 3 ∧ GoodDst 18 9 2 2 4 ∧
    shuffleOn .avx2 .rgb .bgra [1, 2, 3, 4, 5, 6, 0, 7, 8, 9, 10, 11, 12, 0] 7
      (List.replicate 18 77) 9 2 2
    = .ok [3, 2, 1, 255, 6, 5, 4, 255, 77, 9, 8, 7, 255, 12, 11, 10, 255, 77] ∧
    shuffleOn .sse41 .rgba .bgra [1, 2, 3, 4, 5, 6, 7, 8, 9, 10, 11, 12] 12
      (List.replicate 14 77) 14 3 1
    = .ok [3, 2, 1, 4, 7, 6, 5, 8, 11, 10, 9, 12, 77, 77] :=
  ⟨⟨by unfold U32; decide, by decide, by unfold FullRows; decide, by decide⟩,
    ⟨by unfold U32; decide, by decide, by unfold FullRows; decide, by decide⟩,
    by decide +kernel, by decide +kernel⟩
/-- Why the layouts must differ: between equal layouts with alpha the table would still swap red and
blue (no public function does this). -/
example : shuffleOn .avx2 .rgba .rgba [1, 2, 3, 4] 4 [0, 0, 0, 0] 4 1 1 = .ok [3, 2, 1, 4] ∧
    shuffleOn .plain .rgba .rgba [1, 2, 3, 4] 4 [0, 0, 0, 0] 4 1 1 = .ok [1, 2, 3, 4] := by
  decide +kernel

end Verif
