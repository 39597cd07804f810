import Verif.Lemmas.NeonYcgco
import Verif.Props.Neon
/-!
# C113: the YCgCo decoder on 64-bit ARM
-/
namespace Verif
open Spec Neon

/-- The alpha 64-bit ARM writes in row `y` of an image of height `h`: with full range, 255 in the pairs of
rows of a 4:2:0 image and 0 elsewhere; with limited range 255. -/
def neonCgcoAlpha (rg : YuvRange) (s : Sampling) (h y : Nat) : Nat :=
  match rg with
  | .full => if neonPaired s h y then 255 else 0
  | .limited => 255

/-- With limited range there is no vector code. -/
theorem neonCgco_limited (ch : Channels) (s : Sampling) (i : Planar) (rgba : Buf) (stride : Nat) :
    ycgcoToRgbxNeon ch s i rgba stride .limited = ycgcoToRgbx x64 8 ch s i rgba stride .limited := by
  cases s <;> rfl

/-- C113: on 64-bit ARM the 8-bit YCgCo decoder succeeds on every good image and destination — no load or
store of the vector code leaves its slice — and writes exactly the pixels of the image.  Their red, green
and blue are the decoding of the samples shown there, and their alpha is `neonCgcoAlpha`. -/
theorem c113_neon_ycgco_decode (ch : Channels) (s : Sampling) (i : Planar) (rgba : Buf) (stride : Nat)
    (rg : YuvRange) (hi : GoodPlanar i s 256)
    (hdst : GoodDst rgba.length stride i.width i.height ch.count) :
    ∃ out, ycgcoToRgbxNeon ch s i rgba stride rg = .ok out ∧
      FrameSpec out rgba stride i.width i.height ch.count (fun x y =>
        cgcoPixel 8 ch rg (neonCgcoAlpha rg s i.height y) (Planar.Y i x y) (Planar.U i s x y)
          (Planar.V i s x y)) := by
  cases rg with
  | limited =>
    rw [neonCgco_limited]
    exact c34_decode 8 (.inl rfl) ch s i rgba stride .limited hi hdst
  | full =>
    have hr := hi.rows
    have hcn := count_pos ch
    have hst : 0 < stride := Nat.lt_of_lt_of_le (Nat.mul_pos hr.wpos hcn) hdst.cols_le
    have p1 : PutOk (2 ^ 8) ch.count (putCgco 8 (getYuvRange 8 .full) ch 255) (cgcoPixel 8 ch .full 255) :=
      ⟨fun y u v c hy hu hv hc => putCgco_ok (.inl rfl) .full ch _ hy hu hv hc, fun _ _ _ => layout_length ..⟩
    have h1 := cgcoHandler_fills s ch (w := i.width) (cgcoPixel 8 ch .full 255)
    have h2 := cgcoHandler420_fills ch (w := i.width) (cgcoPixel 8 ch .full 255)
    unfold ycgcoToRgbxNeon
    rw [hdst.accepted hi.wpos hi.hpos hi.w32 hi.h32 hcn (count_le ch), hi.accepted]
    simp only [Outcome.bind_ok]
    cases s with
    | yuv444 =>
      obtain ⟨out, e, h⟩ := (decode444_q hr hcn p1 h1 hdst.cols_le hdst.full).spec hcn hst hdst.cols_le
        hdst.full.1
      exact ⟨out, e, frameRel_eq h⟩
    | yuv422 =>
      obtain ⟨out, e, h⟩ := (decode422_q hr hcn p1 h1 hdst.cols_le hdst.full).spec hcn hst hdst.cols_le
        hdst.full.1
      exact ⟨out, e, frameRel_eq h⟩
    | yuv420 =>
      obtain ⟨out, e, h⟩ := (decode420_q hr hcn p1 p1 h1 h2 hdst.cols_le hdst.full).spec hcn hst
        hdst.cols_le hdst.full.1
      refine ⟨out, e, frameRel_eq ⟨h.1, fun x y hx hy => ?_, h.2.2⟩⟩
      have q := h.2.1 x y hx hy
      by_cases hy : y = 2 * (i.height / 2)
      · simp only [if_pos hy] at q
        simp only [neonCgcoAlpha, neonPaired_last hy]
        exact q
      · simp only [if_neg hy] at q
        simp only [neonCgcoAlpha, neonPaired_pair hy]
        exact q

example : GoodPlanar (flat93 80 90 100) .yuv420 256 ∧
    GoodDst (List.replicate 108 0 : Buf).length 36 9 3 (Channels.count .rgba) :=
  ⟨flat93_good, by unfold U32; decide, by decide, by unfold FullRows; decide, by decide⟩

/-- C113, in part: the whole destination is what the portable code leaves when the destination has no
alpha, when the range is limited, or when the image is 4:2:0 of even height.  Missing: the other images,
where `c113_transparent` shows alpha 0. -/
theorem c113_neon_ycgco_agrees_partial (ch : Channels) (s : Sampling) (i : Planar) (rgba : Buf)
    (stride : Nat) (rg : YuvRange) (hi : GoodPlanar i s 256)
    (hdst : GoodDst rgba.length stride i.width i.height ch.count)
    (hc : ch = .rgb ∨ ch = .bgr ∨ rg = .limited ∨ (s = .yuv420 ∧ i.height % 2 = 0)) :
    ∃ out, ycgcoToRgbxNeon ch s i rgba stride rg = .ok out ∧
      ycgcoToRgbx x64 8 ch s i rgba stride rg = .ok out := by
  obtain ⟨out, e, h⟩ := c113_neon_ycgco_decode ch s i rgba stride rg hi hdst
  obtain ⟨out', e', h'⟩ := c34_decode 8 (.inl rfl) ch s i rgba stride rg hi hdst
  refine ⟨out, e, ?_⟩
  rw [e']
  refine congrArg Outcome.ok (frameSpec_unique h' (frameSpec_congr h fun x y hx hy => ?_))
  rcases hc with rfl | rfl | rfl | ⟨rfl, he⟩
  · rfl
  · rfl
  · rfl
  · cases rg with
    | limited => rfl
    | full =>
      simp only [neonCgcoAlpha, neonPaired_pair (show ¬ y = 2 * (i.height / 2) by omega)]
      rfl

/-- C113, colours: everywhere and for every destination, red, green and blue of a pixel are those the
portable code writes. -/
theorem c113_neon_ycgco_colours (ch : Channels) (s : Sampling) (i : Planar) (rgba : Buf)
    (stride : Nat) (rg : YuvRange) (hi : GoodPlanar i s 256)
    (hdst : GoodDst rgba.length stride i.width i.height ch.count) :
    ∃ out out', ycgcoToRgbxNeon ch s i rgba stride rg = .ok out ∧
      ycgcoToRgbx x64 8 ch s i rgba stride rg = .ok out' ∧
      (∀ x y, x < i.width → y < i.height → ∃ r g b a : Nat,
        pixelAt out stride ch.count x y = layout ch r g b a ∧
        pixelAt out' stride ch.count x y = layout ch r g b 255) ∧
      (∀ k, ¬ InFrame stride i.width i.height ch.count k → out[k]? = out'[k]?) := by
  obtain ⟨out, e, h⟩ := c113_neon_ycgco_decode ch s i rgba stride rg hi hdst
  obtain ⟨out', e', h'⟩ := c34_decode 8 (.inl rfl) ch s i rgba stride rg hi hdst
  exact ⟨out, out', e, e', fun x y hx hy => ⟨cgcoR 8 rg (Planar.Y i x y) (Planar.U i s x y) (Planar.V i s x y),
    cgcoG 8 rg (Planar.Y i x y) (Planar.U i s x y) (Planar.V i s x y),
    cgcoB 8 rg (Planar.Y i x y) (Planar.U i s x y) (Planar.V i s x y),
    neonCgcoAlpha rg s i.height y, frameSpec_pixel h hx hy (layout_length ..),
    frameSpec_pixel h' hx hy (layout_length ..)⟩, fun k hk => (h.2.2 k hk).trans (h'.2.2 k hk).symm⟩

/-- C113 fails for alpha: a full-range 4:2:2 or 4:4:4 image decodes to pixels that are all fully
transparent, and so does the last row of a 4:2:0 image of odd height. -/
theorem c113_transparent (ch : Channels) (s : Sampling) (i : Planar) (rgba : Buf) (stride : Nat)
    (hi : GoodPlanar i s 256) (hdst : GoodDst rgba.length stride i.width i.height ch.count) :
    ∃ out, ycgcoToRgbxNeon ch s i rgba stride .full = .ok out ∧
      ∀ x y, x < i.width → y < i.height → (s ≠ .yuv420 ∨ (i.height % 2 = 1 ∧ y = i.height - 1)) →
        ∃ r g b : Nat, pixelAt out stride ch.count x y = layout ch r g b 0 := by
  obtain ⟨out, e, h⟩ := c113_neon_ycgco_decode ch s i rgba stride .full hi hdst
  refine ⟨out, e, fun x y hx hy hs => ⟨cgcoR 8 .full (Planar.Y i x y) (Planar.U i s x y) (Planar.V i s x y),
    cgcoG 8 .full (Planar.Y i x y) (Planar.U i s x y) (Planar.V i s x y),
    cgcoB 8 .full (Planar.Y i x y) (Planar.U i s x y) (Planar.V i s x y), ?_⟩⟩
  rw [frameSpec_pixel h hx hy (layout_length ..)]
  have : neonPaired s i.height y = false := by
    rcases hs with hs | ⟨h1, h2⟩
    · cases s <;> first | rfl | exact absurd rfl hs
    · cases s
      · exact neonPaired_last (by omega)
      · rfl
      · rfl
  simp only [neonCgcoAlpha, this]
  rfl

/-- A 9×3 image of luma 80 without colour: on 64-bit ARM the last row of the RGBA image is transparent,
and the portable code makes it opaque; the 4:4:4 image is transparent everywhere. -/
theorem c113_transparent_witness :
    ycgcoToRgbxNeon .rgba .yuv420 (flat93 80 128 128) (List.replicate 108 7) 36 .full =
      .ok (List.replicate 18 [80, 80, 80, 255] ++ List.replicate 9 [80, 80, 80, 0]).flatten ∧
    ycgcoToRgbx x64 8 .rgba .yuv420 (flat93 80 128 128) (List.replicate 108 7) 36 .full =
      .ok (List.replicate 27 [80, 80, 80, 255]).flatten ∧
    ycgcoToRgbxNeon .rgba .yuv444 ⟨[80, 90, 100], 3, [128, 128, 128], 3, [128, 128, 128], 3, 3, 1⟩
      (List.replicate 12 7) 12 .full = .ok [80, 80, 80, 0, 90, 90, 90, 0, 100, 100, 100, 0] := by
  refine ⟨?_, ?_, ?_⟩ <;> decide +kernel

end Verif
