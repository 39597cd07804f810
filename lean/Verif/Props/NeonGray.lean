import Verif.Lemmas.NeonGray
import Verif.Props.NeonEncode
import Verif.Props.Neon
/-!
# C117 and C118: grey images on 64-bit ARM
-/
namespace Verif
open Spec Neon

/-! ## C117 -/

/-- C117: what encoding to grey writes on 64-bit ARM: no load or store leaves its row, nothing but the
samples is written, and each sample is a function of its pixel and of whether it belongs to a whole group of
eight. -/
theorem c117_neon_to_gray (rdm : Bool) (ch : Channels) (i : Gray) (rgba : Buf) (stride : Nat)
    (rg : YuvRange) (m : Matrix) (D : Nat) (hi : GoodGray i D)
    (hs : GoodDst rgba.length stride i.width i.height ch.count) (hb : Bytes rgba) :
    ∃ out, rgbxToYNeon rdm ch i rgba stride rg m = .ok out ∧
      FrameSpec out i.y i.yStride i.width i.height 1 (fun x y =>
        [neonGrayLuma rdm ch rg m i.width x (pixelAt rgba stride ch.count x y)]) := by
  have hcn := X86.count_pos ch
  have hg : ∀ s ∈ packedSrc ch rgba stride, GoodSrc s i.width i.height 256 := by
    intro s hs'; rw [List.mem_singleton] at hs'; subst hs'; exact goodSrc_packed hcn hs hb
  unfold rgbxToYNeon rgbxToY
  rw [hs.accepted hi.wpos hi.hpos hi.w32 hi.h32 hcn (count_le ch), hi.accepted]
  simp only [Outcome.bind_ok]
  obtain ⟨out, e, h⟩ := mapFrame_cols (cutDst := true) hi.wpos (by decide) hg
    (toGrayBody_ok (rg := rg) (m := m) rfl) (Neon.toGrayHandler_fills (rdm := rdm) ch hi.wpos rfl)
    (by rw [Nat.mul_one]; exact hi.y.cols_le) hi.y.full (Or.inl rfl)
  refine ⟨out, e, frameRel_eq ⟨h.1, fun x y hx hy => ?_, h.2.2⟩⟩
  have := h.2.1 x y hx hy
  simp only [pixelsAt, List.map_cons, List.map_nil, List.getD_cons_zero] at this
  rw [this]

/-- Without RDM luma lacks its offset and its rounding. -/
theorem rawLuma_scalar (ch : Channels) (rg : YuvRange) (m : Matrix) {px : Buf} (hb : ∀ a ∈ px, a < 256) :
    rawLuma ch rg m px + (if rg = .full then 0 else 16) ≤ luma8 13 ch rg m px ∧
      luma8 13 ch rg m px ≤ rawLuma ch rg m px + (if rg = .full then 0 else 16) + 1 := by
  obtain ⟨h1, h2, h3⟩ := comps_lt (by omega) ch hb
  have a1 := (rawFits rg m).byte (Nat.le_of_lt_succ h1) (Nat.le_of_lt_succ h2) (Nat.le_of_lt_succ h3)
  have a2 := (balFits rg m).1.1.byte (Nat.le_of_lt_succ h1) (Nat.le_of_lt_succ h2) (Nat.le_of_lt_succ h3)
  have e1 : rawLuma ch rg m px = low8 (X86.exactSum ((getYuvRange 8 rg).biasY : Int)
      (X86.kLuma (searchForward 13 8 rg m)) (red ch px) (green ch px) (blue ch px) / 2 ^ 13) := rfl
  have e2 : luma8 13 ch rg m px = low8 (X86.exactSum (X86.profBias 13 (getYuvRange 8 rg).biasY)
      (X86.kLuma (searchForward 13 8 rg m)) (red ch px) (green ch px) (blue ch px) / 2 ^ 13) := rfl
  rw [e1, e2]
  have hbias : (getYuvRange 8 rg).biasY = if rg = .full then 0 else 16 := by cases rg <;> rfl
  unfold X86.exactSum X86.profBias at *
  generalize ((red ch px : Nat) : Int) * (X86.kLuma (searchForward 13 8 rg m)).1
    + (green ch px : Nat) * (X86.kLuma (searchForward 13 8 rg m)).2.1
    + (blue ch px : Nat) * (X86.kLuma (searchForward 13 8 rg m)).2.2 = S at *
  rw [hbias] at *
  unfold low8
  norm_num at a1 a2 ⊢
  cases rg
  · simp only [if_neg (show ¬ YuvRange.limited = .full from fun h => YuvRange.noConfusion h)] at *
    omega
  · simp only [if_true] at *
    omega

/-- C117, what holds: with the rounding multiply-accumulate instructions, or in full range, every sample is
within one of that of the portable code; with those instructions it is within 1.18 of the exact luma.
Missing: limited range without the instructions, where `c117_no_offset` shows the claim false. -/
theorem c117_portable_agreement_partial (rdm : Bool) (ch : Channels) (i : Gray) (rgba : Buf)
    (stride : Nat) (rg : YuvRange) (m : Matrix) (D : Nat) (hi : GoodGray i D)
    (hs : GoodDst rgba.length stride i.width i.height ch.count) (hb : Bytes rgba)
    (hr : rdm = true ∨ rg = .full) :
    ∃ out out', rgbxToYNeon rdm ch i rgba stride rg m = .ok out ∧
      rgbxToY x64 ch noMap i rgba stride rg m = .ok out' ∧
      ∀ x y, x < i.width → y < i.height →
        (at' out i.yStride x y ≤ at' out' i.yStride x y ∧
          at' out' i.yStride x y ≤ at' out i.yStride x y + 1) ∧
        (rdm = true → ∀ px, px = pixelAt rgba stride ch.count x y →
          |(at' out i.yStride x y : Rat) - exactY 8 rg m (red ch px) (green ch px) (blue ch px)|
            ≤ 118 / 100) := by
  obtain ⟨out, e, h⟩ := c117_neon_to_gray rdm ch i rgba stride rg m D hi hs hb
  obtain ⟨out', e', h'⟩ := c26_gray_encode_exact ch i rgba stride rg m D hi hs hb
  refine ⟨out, out', e, e', fun x y hx hy => ?_⟩
  have hp : ∀ a ∈ pixelAt rgba stride ch.count x y, a < 256 := mem_pixelAt hb
  rw [frameSpec_at h hx hy, frameSpec_at h' hx hy]
  obtain ⟨r1, g1, b1⟩ := comps_lt (by omega) ch hp
  unfold neonGrayLuma
  refine ⟨?_, ?_⟩
  · split
    · cases rdm
      · rcases hr with hr | rfl
        · cases hr
        · have := rawLuma_scalar ch .full m hp
          simp only [if_true] at this
          exact ⟨this.1, this.2⟩
      · exact rdmLuma_scalar ch rg m hp
    · exact ⟨le_rfl, Nat.le_succ _⟩
  · rintro rfl px rfl
    split
    · exact rdmLuma_exact ch rg m hp
    · exact le_trans (low8_encode (Or.inl rfl) rg m r1 g1 b1).2.1 (by norm_num)

/-- C117, what holds: with the rounding multiply-accumulate instructions the luma of a grey image is within
one of the luma plane of the colour encoder, and equal to it in whole groups of eight.
Missing: processors without the instructions. -/
theorem c117_same_as_colour_partial (ch : Channels) (s : Sampling) (i : Gray) (j : Planar)
    (rgba : Buf) (stride : Nat) (rg : YuvRange) (m : Matrix) (D : Nat) (hi : GoodGray i D)
    (hj : GoodPlanar j s D) (hw : j.width = i.width ∧ j.height = i.height)
    (hs : GoodDst rgba.length stride i.width i.height ch.count) (hb : Bytes rgba) :
    ∃ out out', rgbxToYNeon true ch i rgba stride rg m = .ok out ∧
      rgbxToYuvNeon true ch s j rgba stride rg m = .ok out' ∧
      ∀ x y, x < i.width → y < i.height →
        at' out'.y j.yStride x y ≤ at' out i.yStride x y ∧
        at' out i.yStride x y ≤ at' out'.y j.yStride x y + 1 ∧
        (x < 8 * ((i.width - 1) / 8) → at' out i.yStride x y = at' out'.y j.yStride x y) := by
  obtain ⟨out, e, h⟩ := c117_neon_to_gray true ch i rgba stride rg m D hi hs hb
  obtain ⟨out', e', h'⟩ := c109_neon_encode true ch s j rgba stride rg m D hj
    (by rw [hw.1, hw.2]; exact hs) hb
  refine ⟨out, out', e, e', fun x y hx hy => ?_⟩
  have hp : ∀ a ∈ pixelAt rgba stride ch.count x y, a < 256 := mem_pixelAt hb
  rw [frameSpec_at h hx hy, frameSpec_at h'.y (by rw [hw.1]; exact hx) (by rw [hw.2]; exact hy)]
  have := rdmLuma_scalar ch rg m hp
  unfold neonGrayLuma
  simp only [if_true]
  refine ⟨?_, ?_, fun hc => by rw [if_pos hc]⟩ <;> split <;> omega

/-- C117 fails: in limited range, without the rounding multiply-accumulate instructions, every sample of a
whole group of eight pixels is 16 or 17 code values darker than with the portable code, which computes the
last pixels of the same row. -/
theorem c117_no_offset (ch : Channels) (i : Gray) (rgba : Buf) (stride : Nat) (m : Matrix) (D : Nat)
    (hi : GoodGray i D) (hs : GoodDst rgba.length stride i.width i.height ch.count) (hb : Bytes rgba) :
    ∃ out out', rgbxToYNeon false ch i rgba stride .limited m = .ok out ∧
      rgbxToY x64 ch noMap i rgba stride .limited m = .ok out' ∧
      ∀ x y, x < i.width → y < i.height →
        if x < 8 * ((i.width - 1) / 8) then
          at' out i.yStride x y + 16 ≤ at' out' i.yStride x y ∧
          at' out' i.yStride x y ≤ at' out i.yStride x y + 17
        else at' out i.yStride x y = at' out' i.yStride x y := by
  obtain ⟨out, e, h⟩ := c117_neon_to_gray false ch i rgba stride .limited m D hi hs hb
  obtain ⟨out', e', h'⟩ := c26_gray_encode_exact ch i rgba stride .limited m D hi hs hb
  refine ⟨out, out', e, e', fun x y hx hy => ?_⟩
  have hp : ∀ a ∈ pixelAt rgba stride ch.count x y, a < 256 := mem_pixelAt hb
  rw [frameSpec_at h hx hy, frameSpec_at h' hx hy]
  unfold neonGrayLuma
  split
  · have := rawLuma_scalar ch .limited m hp
    simp only [if_neg (show ¬ YuvRange.limited = .full from fun h => YuvRange.noConfusion h)] at this
    exact this
  · rfl

/-- Nine black pixels in limited range: eight samples 0, then 16; all are 16 with the portable code. -/
theorem c117_no_offset_witness :
    rgbxToYNeon false .rgb ⟨List.replicate 9 77, 9, 9, 1⟩ (List.replicate 27 0) 27 .limited .bt601
      = .ok [0, 0, 0, 0, 0, 0, 0, 0, 16] ∧
    rgbxToY x64 .rgb noMap ⟨List.replicate 9 77, 9, 9, 1⟩ (List.replicate 27 0) 27 .limited .bt601
      = .ok (List.replicate 9 16) := by
  decide +kernel

/-- The hypotheses on a row of nine pixels with padding, and a result that is right. -/
example : GoodGray ⟨List.replicate 10 77, 10, 9, 1⟩ 256 ∧ GoodDst 28 28 9 1 3 ∧
    rgbxToYNeon true .rgb ⟨List.replicate 10 77, 10, 9, 1⟩ (List.replicate 28 255) 28 .limited .bt601
      = .ok (List.replicate 9 235 ++ [77]) :=
  ⟨⟨by decide, by decide, by unfold U32; decide, by unfold U32; decide,
      ⟨by unfold U32; decide, by decide, by unfold FullRows; decide, by decide⟩⟩,
    ⟨by unfold U32; decide, by decide, by unfold FullRows; decide, by decide⟩, by decide +kernel⟩

/-! ## C118 -/

/-- C118: what decoding a grey image with an alpha plane writes on 64-bit ARM: no load or store leaves its row
or its scratch buffer, every pixel is grey and has the alpha of its own column, nothing else is written. -/
theorem c118_neon_gray_alpha (rdm : Bool) (ch : Channels) (ha : ch.hasAlpha = true) (i : GrayAlpha)
    (rgba : Buf) (stride : Nat) (rg : YuvRange) (m : Matrix) (hi : GoodGrayAlpha i 256)
    (hd : GoodDst rgba.length stride i.width i.height ch.count) :
    ∃ out, yAlphaToRgbxNeon rdm ch i rgba stride rg m = .ok out ∧
      FrameSpec out rgba stride i.width i.height ch.count (fun x y =>
        let l := neonGrayLevel rdm rg m (at' i.y i.yStride x y)
        layout ch l l l (at' i.a i.aStride x y)) := by
  have hcn := X86.count_pos ch
  have hs : ∀ s ∈ grayAlphaSrc i, GoodSrc s i.width i.height 256 := by
    intro s hs
    simp only [List.mem_cons, List.not_mem_nil, or_false] at hs
    rcases hs with rfl | rfl
    · exact goodSrc_plane hi.y
    · exact goodSrc_plane hi.a
  cases rg with
  | full =>
    obtain ⟨out, e, h⟩ := c26_gray_alpha_decode ch ha i rgba stride .full m hi hd (fun _ _ => False)
      noMap noMap_ok
    exact ⟨out, e, frameRel_or_eq h fun x y p _ _ hp => hp.resolve_right fun a => a.2⟩
  | limited =>
    unfold yAlphaToRgbxNeon yAlphaToRgbx
    rw [if_neg (by simp [ha]), hd.accepted hi.wpos hi.hpos hi.w32 hi.h32 hcn (count_le ch), hi.accepted]
    simp only [Outcome.bind_ok]
    obtain ⟨out, e, h⟩ := mapFrame_cols (cutDst := false) hi.wpos hcn hs
      (grayAlphaBody_ok (ch := ch) Nat.one_pos Nat.one_pos (fun y hy => grayVal8_ok .limited m hy))
      (greyAlphaHandler_fills (rdm := rdm) ch hi.wpos rfl rfl)
      hd.cols_le hd.full (Or.inr ⟨_, List.mem_cons_self, rfl⟩)
    refine ⟨out, e, frameRel_eq ⟨h.1, fun x y hx hy => ?_, h.2.2⟩⟩
    have := h.2.1 x y hx hy
    simp only [pixelsAt, List.map_cons, List.map_nil] at this
    rw [pixelAt_one hx hy hi.y, pixelAt_one hx hy hi.a] at this
    rw [this]
    rfl

/-- C118: every pixel is grey, its level is within one of that of the portable code, its alpha is that of
the portable code; in full range the bytes are the same; in limited range black is 0 and white is 255. -/
theorem c118_portable_agreement (rdm : Bool) (ch : Channels) (ha : ch.hasAlpha = true) (i : GrayAlpha)
    (rgba : Buf) (stride : Nat) (rg : YuvRange) (m : Matrix) (hi : GoodGrayAlpha i 256)
    (hd : GoodDst rgba.length stride i.width i.height ch.count) :
    ∃ out out', yAlphaToRgbxNeon rdm ch i rgba stride rg m = .ok out ∧
      yAlphaToRgbx x64 ch noMap i rgba stride rg m = .ok out' ∧
      (rg = .full → out = out') ∧
      (∀ x y, x < i.width → y < i.height → ∃ l l' : Nat,
        pixelAt out stride ch.count x y = layout ch l l l (at' i.a i.aStride x y) ∧
        pixelAt out' stride ch.count x y = layout ch l' l' l' (at' i.a i.aStride x y) ∧
        l ≤ l' + 1 ∧ l' ≤ l + 1 ∧
        (rg = .limited → at' i.y i.yStride x y ≤ 16 → l = 0) ∧
        (rg = .limited → 235 ≤ at' i.y i.yStride x y → l = 255)) ∧
      (∀ k, ¬ InFrame stride i.width i.height ch.count k → out[k]? = out'[k]?) := by
  obtain ⟨out, e, h⟩ := c118_neon_gray_alpha rdm ch ha i rgba stride rg m hi hd
  obtain ⟨out', e', h0⟩ := c26_gray_alpha_decode ch ha i rgba stride rg m hi hd (fun _ _ => False)
    noMap noMap_ok
  have h' := frameRel_or_eq h0 fun x y p _ _ hp => hp.resolve_right fun a => a.2
  refine ⟨out, out', e, e', fun hf => ?_, fun x y hx hy => ⟨_, _, frameSpec_pixel h hx hy (layout_length ..),
      frameSpec_pixel h' hx hy (layout_length ..), ?_⟩,
    fun k hk => (h.2.2 k hk).trans (h'.2.2 k hk).symm⟩
  · subst hf
    exact frameSpec_unique (frameSpec_congr h fun _ _ _ _ => rfl) h'
  · have g := grayA_lt hi hx hy
    cases rg with
    | full => exact ⟨Nat.le_succ _, Nat.le_succ _, fun h => YuvRange.noConfusion h,
        fun h => YuvRange.noConfusion h⟩
    | limited =>
      obtain ⟨⟨a, b⟩, c, d⟩ := neonGray_near rdm m g
      exact ⟨a, b, fun _ => c, fun _ => d⟩

/-- C118: with and without an alpha plane, an image decodes to the same grey levels, and with an opaque
plane to the same bytes. -/
theorem c118_opaque (rdm : Bool) (ch : Channels) (ha : ch.hasAlpha = true) (i : GrayAlpha) (rgba : Buf)
    (stride : Nat) (rg : YuvRange) (m : Matrix) (hi : GoodGrayAlpha i 256)
    (hd : GoodDst rgba.length stride i.width i.height ch.count) :
    ∃ out out', yAlphaToRgbxNeon rdm ch i rgba stride rg m = .ok out ∧
      yToRgbxNeon rdm ch ⟨i.y, i.yStride, i.width, i.height⟩ rgba stride rg m = .ok out' ∧
      (∀ x y, x < i.width → y < i.height →
        red ch (pixelAt out stride ch.count x y) = red ch (pixelAt out' stride ch.count x y)) ∧
      ((∀ x y, x < i.width → y < i.height → at' i.a i.aStride x y = 255) → out = out') := by
  obtain ⟨out, e, h⟩ := c118_neon_gray_alpha rdm ch ha i rgba stride rg m hi hd
  obtain ⟨out', e', h'⟩ := c106_neon_gray_decode rdm ch ⟨i.y, i.yStride, i.width, i.height⟩ rgba stride rg m
    ⟨hi.wpos, hi.hpos, hi.w32, hi.h32, hi.y⟩ hd
  refine ⟨out, out', e, e', fun x y hx hy => ?_, fun hop => ?_⟩
  · rw [frameSpec_pixel h hx hy (layout_length ..), frameSpec_pixel h' hx hy (layout_length ..)]
    exact (layout_colours ..).1.trans (layout_colours ..).1.symm
  · refine frameSpec_unique (frameSpec_congr h fun x y hx hy => ?_) h'
    simp only [hop x y hx hy]

/-- A row of three pixels with RDM: black, grey and white with their own alphas. -/
example : GoodGrayAlpha ⟨[16, 126, 235], 3, [1, 2, 3], 3, 3, 1⟩ 256 ∧ GoodDst 12 12 3 1 4 ∧
    yAlphaToRgbxNeon true .rgba ⟨[16, 126, 235], 3, [1, 2, 3], 3, 3, 1⟩ (List.replicate 12 77) 12 .limited
      .bt601 = .ok [0, 0, 0, 1, 129, 129, 129, 2, 255, 255, 255, 3] :=
  ⟨⟨by decide, by decide, by unfold U32; decide, by unfold U32; decide,
      ⟨by unfold U32; decide, by decide, by unfold FullRows; decide, by decide⟩,
      ⟨by unfold U32; decide, by decide, by unfold FullRows; decide, by decide⟩⟩,
    ⟨by unfold U32; decide, by decide, by unfold FullRows; decide, by decide⟩, by decide +kernel⟩

end Verif
