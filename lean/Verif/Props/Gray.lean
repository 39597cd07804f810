import Verif.Lemmas.Gray
import Verif.Props.Errors
import Verif.Props.DeepDecode
/-!
# C26, C43, C50: grey images
-/
namespace Verif
open Spec

/-- The luma plane of a grey image as the only source of a pixelwise loop. -/
abbrev graySrc (i : Gray) : List Src := [⟨i.y, i.yStride, 1, true⟩]
/-- The luma and alpha planes. -/
abbrev grayAlphaSrc (i : GrayAlpha) : List Src := [⟨i.y, i.yStride, 1, true⟩, ⟨i.a, i.aStride, 1, false⟩]
/-- An RGB(A) buffer as the only source. -/
abbrev packedSrc (ch : Channels) (rgba : Buf) (stride : Nat) : List Src :=
  [⟨rgba, stride, ch.count, false⟩]

theorem goodSrc_packed {buf : Buf} {stride w h cn B : Nat} {cut : Bool} (hcn : 0 < cn)
    (g : GoodDst buf.length stride w h cn) (hb : ∀ a ∈ buf, a < B) :
    GoodSrc ⟨buf, stride, cn, cut⟩ w h B :=
  ⟨hcn, g.stride32, g.cols_le, g.full, hb⟩

theorem frameSpec_bound' {out dst : Buf} {st w h cn B : Nat} {f : Nat → Nat → Buf}
    (hs : FrameSpec out dst st w h cn f) (hd : ∀ a ∈ dst, a < B)
    (hf : ∀ x y, x < w → y < h → ∀ a ∈ f x y, a < B) : ∀ a ∈ out, a < B := by
  intro a ha
  obtain ⟨j, hj⟩ := List.mem_iff_getElem?.1 ha
  by_cases hin : InFrame st w h cn j
  · obtain ⟨x, y, c, hx, hy, hc, rfl⟩ := hin
    rw [hs.2.1 x y c hx hy hc] at hj
    exact hf x y hx hy a (List.mem_of_getElem? hj)
  · rw [hs.2.2 j hin] at hj
    exact hd a (List.mem_of_getElem? hj)

/-! ## C26: 8 bits -/

/-- C26, decode: every pixel of the destination becomes the grey pixel of its luma sample, with
opaque alpha (or, in limited range, what the vector code guarantees), and nothing else changes. -/
theorem c26_gray_decode (ch : Channels) (i : Gray) (rgba : Buf) (stride : Nat) (rg : YuvRange)
    (m : Matrix) (hi : GoodGray i 256) (hd : GoodDst rgba.length stride i.width i.height ch.count)
    (R : List Buf → Buf → Prop) (hnd : MapHandler) (hh : hnd.Ok 256 i.width ch.count (graySrc i) R) :
    ∃ out, yToRgbx x64 ch hnd i rgba stride rg m = .ok out ∧
      FrameRel out rgba stride i.width i.height ch.count (fun x y p =>
        let l := grayLevel 8 rg m (at' i.y i.yStride x y)
        p = layout ch l l l 255 ∨ (rg = .limited ∧ R [[at' i.y i.yStride x y]] p)) := by
  have hcn := count_pos ch
  have hs : ∀ s ∈ graySrc i, GoodSrc s i.width i.height 256 := by
    intro s hs; rw [List.mem_singleton] at hs; subst hs; exact goodSrc_plane hi.y
  have hpx : ∀ x y, x < i.width → y < i.height →
      pixelsAt (graySrc i) x y = [[at' i.y i.yStride x y]] := by
    intro x y hx hy
    simp only [pixelsAt, List.map_cons, List.map_nil]
    rw [pixelAt_one hx hy hi.y]
  unfold yToRgbx
  rw [hd.accepted hi.wpos hi.hpos hi.w32 hi.h32 hcn (count_le ch), hi.accepted]
  simp only [Outcome.bind_ok]
  cases rg with
  | limited =>
    obtain ⟨out, e, h⟩ := mapFrame_spec (cutDst := true) hi.wpos hcn hs
      (grayBody_ok (a := 255) (ch := ch) Nat.one_pos (fun y hy => grayVal8_ok .limited m hy)) hh
      hd.cols_le hd.full (Or.inl rfl)
    refine ⟨out, e, h.1, fun x y hx hy => ?_, h.2.2⟩
    have := h.2.1 x y hx hy
    simp only [hpx x y hx hy] at this
    exact this.imp id fun r => ⟨rfl, r⟩
  | full =>
    obtain ⟨out, e, h⟩ := mapFrame_spec (cutDst := false) hi.wpos hcn hs
      (grayBody_ok (a := 255) (ch := ch) Nat.one_pos (fun y hy => grayVal8_ok .full m hy))
      (noMap_ok (R := fun _ _ => False)) hd.cols_le hd.full (Or.inr ⟨_, List.mem_singleton.2 rfl, rfl⟩)
    refine ⟨out, e, h.1, fun x y hx hy => ?_, h.2.2⟩
    have := h.2.1 x y hx hy
    simp only [hpx x y hx hy] at this
    exact Or.inl (this.resolve_right id)

/-- C26, decode without vector code: the destination is determined. -/
theorem c26_gray_decode_exact (ch : Channels) (i : Gray) (rgba : Buf) (stride : Nat) (rg : YuvRange)
    (m : Matrix) (hi : GoodGray i 256) (hd : GoodDst rgba.length stride i.width i.height ch.count) :
    ∃ out, yToRgbx x64 ch noMap i rgba stride rg m = .ok out ∧
      FrameSpec out rgba stride i.width i.height ch.count (fun x y =>
        let l := grayLevel 8 rg m (at' i.y i.yStride x y)
        layout ch l l l 255) := by
  obtain ⟨out, e, h⟩ := c26_gray_decode ch i rgba stride rg m hi hd (fun _ _ => False) noMap noMap_ok
  exact ⟨out, e, frameRel_or_eq h fun x y p _ _ hp => hp.resolve_right fun a => a.2⟩

/-- C26, full range: the grey level is the luma sample. -/
theorem c26_full_identity (d : Nat) (m : Matrix) (y : Nat) : grayLevel d .full m y = y := rfl

/-- C26: the grey level is the ITU expansion of the luma sample, rounded to nearest up to the
coefficient error; this is also the bound of the colour decoders. -/
theorem c26_level_close (d : Nat) (hd : Depth d) (rg : YuvRange) (m : Matrix) (y : Nat)
    (hy : y < 2 ^ d) :
    |(grayLevel d rg m y : Rat) - satQ d (maxV d * normY d rg y)| ≤ 1 / 2 + 2 ^ d / 2 ^ 13 := by
  have hu : 2 ^ (d - 1) < 2 ^ d := Nat.pow_lt_pow_right (by decide) (by
    unfold Depth at hd; omega)
  obtain ⟨c1, -, -⟩ := sums_close (p := 13) (Or.inr (Or.inl ⟨rfl, hd⟩)) (by decide) rg m hy hu hu
  have hz : exactR d rg m y ((2 ^ (d - 1) : Nat) : Rat) ((2 ^ (d - 1) : Nat) : Rat)
      = maxV d * normY d rg y := by
    unfold exactR normC offC
    push_cast
    ring
  rw [hz] at c1
  cases rg with
  | full =>
    have : maxV d * normY d .full y = y := by
      unfold normY offY gainY maxV
      have : (2 : Rat) ^ d - 1 ≠ 0 := by
        rcases hd with h | h | h | h | h <;> subst h <;> norm_num
      field_simp
      ring
    rw [this, c26_full_identity]
    have h1 : satQ d (y : Rat) = y := by
      unfold satQ
      have h0 : (0 : Rat) ≤ y := by positivity
      have h1 : (y : Rat) ≤ 2 ^ d - 1 := by
        have : (y : Rat) + 1 ≤ 2 ^ d := by exact_mod_cast hy
        linarith
      rw [min_eq_left (by unfold maxV; exact h1), max_eq_right h0]
    rw [h1, sub_self, abs_zero]
    positivity
  | limited =>
    have hc := saturate_close (dOut := d) (k := 13) (half := 2 ^ 12 - 1) (by decide) (Or.inl rfl) c1
    have e : sumR (searchInverse 13 d .limited m) (getYuvRange d .limited).biasY
        (getYuvRange d .limited).biasUv y (2 ^ (d - 1)) =
        ((y : Int) - (getYuvRange d .limited).biasY) * (searchInverse 13 d .limited m).y := by
      have : (getYuvRange d .limited).biasUv = 2 ^ (d - 1) := by
        rcases hd with h | h | h | h | h <;> subst h <;> decide
      unfold sumR
      rw [this]
      push_cast
      ring
    rw [e] at hc
    exact hc

/-- C26: decoding a grey image gives what the colour decoder gives for neutral chroma. -/
theorem c26_level_is_colour (ch : Channels) (rg : YuvRange) (m : Matrix) (a y : Nat)
    (hy : y < 256) :
    decodedPixel 13 8 ch rg m a y 128 128 =
      layout ch (grayLevel 8 rg m y) (grayLevel 8 rg m y) (grayLevel 8 rg m y) a := by
  have hb : ∀ rg, (getYuvRange 8 rg).biasUv = 128 := by intro rg; cases rg <;> decide
  have hc : ∀ m, (searchInverse 13 8 .full m).y = 8192 := by
    intro m; cases m <;> decide +kernel
  unfold decodedPixel decodeRGB
  simp only [hb]
  cases rg with
  | limited =>
    simp only [grayLevel]
    norm_num
  | full =>
    have h0 : (getYuvRange 8 .full).biasY = 0 := by decide
    simp only [grayLevel, hc, h0]
    norm_num
    have : (max (min (((y : Int) * 8192 + 4095) / 8192) 255) 0).toNat = y := by omega
    rw [this]

/-- C26, decode with alpha plane: alpha is copied. -/
theorem c26_gray_alpha_decode (ch : Channels) (ha : ch.hasAlpha = true) (i : GrayAlpha) (rgba : Buf)
    (stride : Nat) (rg : YuvRange) (m : Matrix) (hi : GoodGrayAlpha i 256)
    (hd : GoodDst rgba.length stride i.width i.height ch.count) (R : List Buf → Buf → Prop)
    (hnd : MapHandler) (hh : hnd.Ok 256 i.width ch.count (grayAlphaSrc i) R) :
    ∃ out, yAlphaToRgbx x64 ch hnd i rgba stride rg m = .ok out ∧
      FrameRel out rgba stride i.width i.height ch.count (fun x y p =>
        let l := grayLevel 8 rg m (at' i.y i.yStride x y)
        p = layout ch l l l (at' i.a i.aStride x y) ∨
          (rg = .limited ∧ R [[at' i.y i.yStride x y], [at' i.a i.aStride x y]] p)) := by
  have hcn := count_pos ch
  have hs : ∀ s ∈ grayAlphaSrc i, GoodSrc s i.width i.height 256 := by
    intro s hs
    simp only [List.mem_cons, List.not_mem_nil, or_false] at hs
    rcases hs with rfl | rfl
    · exact goodSrc_plane hi.y
    · exact goodSrc_plane hi.a
  have hpx : ∀ x y, x < i.width → y < i.height →
      pixelsAt (grayAlphaSrc i) x y = [[at' i.y i.yStride x y], [at' i.a i.aStride x y]] := by
    intro x y hx hy
    simp only [pixelsAt, List.map_cons, List.map_nil]
    rw [pixelAt_one hx hy hi.y, pixelAt_one hx hy hi.a]
  unfold yAlphaToRgbx
  rw [if_neg (by simp [ha]), hd.accepted hi.wpos hi.hpos hi.w32 hi.h32 hcn (count_le ch), hi.accepted]
  simp only [Outcome.bind_ok]
  cases rg with
  | limited =>
    obtain ⟨out, e, h⟩ := mapFrame_spec (cutDst := false) hi.wpos hcn hs
      (grayAlphaBody_ok (ch := ch) Nat.one_pos Nat.one_pos (fun y hy => grayVal8_ok .limited m hy)) hh
      hd.cols_le hd.full (Or.inr ⟨_, List.mem_cons_self, rfl⟩)
    refine ⟨out, e, h.1, fun x y hx hy => ?_, h.2.2⟩
    have := h.2.1 x y hx hy
    simp only [hpx x y hx hy] at this
    exact this.imp id fun r => ⟨rfl, r⟩
  | full =>
    obtain ⟨out, e, h⟩ := mapFrame_spec (cutDst := false) hi.wpos hcn hs
      (grayAlphaBody_ok (ch := ch) Nat.one_pos Nat.one_pos (fun y hy => grayVal8_ok .full m hy))
      (noMap_ok (R := fun _ _ => False)) hd.cols_le hd.full (Or.inr ⟨_, List.mem_cons_self, rfl⟩)
    refine ⟨out, e, h.1, fun x y hx hy => ?_, h.2.2⟩
    have := h.2.1 x y hx hy
    simp only [hpx x y hx hy] at this
    exact Or.inl (this.resolve_right id)

/-- C26, encode: every sample of the plane becomes the luma of its pixel, nothing else changes. -/
theorem c26_gray_encode (ch : Channels) (i : Gray) (rgba : Buf) (stride : Nat) (rg : YuvRange)
    (m : Matrix) (D : Nat) (hi : GoodGray i D)
    (hs : GoodDst rgba.length stride i.width i.height ch.count) (hb : Bytes rgba)
    (R : List Buf → Buf → Prop) (hnd : MapHandler)
    (hh : hnd.Ok 256 i.width 1 (packedSrc ch rgba stride) R) :
    ∃ out, rgbxToY x64 ch hnd i rgba stride rg m = .ok out ∧
      FrameRel out i.y i.yStride i.width i.height 1 (fun x y p =>
        p = [luma8 13 ch rg m (pixelAt rgba stride ch.count x y)] ∨
          R [pixelAt rgba stride ch.count x y] p) := by
  have hcn := count_pos ch
  have hg : ∀ s ∈ packedSrc ch rgba stride, GoodSrc s i.width i.height 256 := by
    intro s hs'; rw [List.mem_singleton] at hs'; subst hs'; exact goodSrc_packed hcn hs hb
  unfold rgbxToY
  rw [hs.accepted hi.wpos hi.hpos hi.w32 hi.h32 hcn (count_le ch), hi.accepted]
  simp only [Outcome.bind_ok]
  obtain ⟨out, e, h⟩ := mapFrame_spec (cutDst := true) hi.wpos (by decide) hg
    (toGrayBody_ok (rg := rg) (m := m) rfl) hh (by rw [Nat.mul_one]; exact hi.y.cols_le) hi.y.full
    (Or.inl rfl)
  exact ⟨out, e, h.1, fun x y hx hy => h.2.1 x y hx hy, h.2.2⟩

/-- C26, encode without vector code. -/
theorem c26_gray_encode_exact (ch : Channels) (i : Gray) (rgba : Buf) (stride : Nat) (rg : YuvRange)
    (m : Matrix) (D : Nat) (hi : GoodGray i D)
    (hs : GoodDst rgba.length stride i.width i.height ch.count) (hb : Bytes rgba) :
    ∃ out, rgbxToY x64 ch noMap i rgba stride rg m = .ok out ∧
      FrameSpec out i.y i.yStride i.width i.height 1 (fun x y =>
        [luma8 13 ch rg m (pixelAt rgba stride ch.count x y)]) := by
  obtain ⟨out, e, h⟩ := c26_gray_encode ch i rgba stride rg m D hi hs hb (fun _ _ => False) noMap
    noMap_ok
  exact ⟨out, e, frameRel_or_eq h fun x y p _ _ hp => hp.resolve_right id⟩

theorem luma8_gray (ch : Channels) (m : Matrix) (px : Buf) (v : Nat) (hv : v < 256)
    (h : red ch px = v ∧ green ch px = v ∧ blue ch px = v) : luma8 13 ch .full m px = v := by
  have hc : ∀ m, 8191 ≤ (searchForward 13 8 .full m).yr + (searchForward 13 8 .full m).yg
      + (searchForward 13 8 .full m).yb ∧ (searchForward 13 8 .full m).yr
      + (searchForward 13 8 .full m).yg + (searchForward 13 8 .full m).yb ≤ 8193 := by
    intro m; cases m <;> decide +kernel
  have h0 : (getYuvRange 8 .full).biasY = 0 := by decide
  unfold luma8 lumaVal encVal
  rw [h.1, h.2.1, h.2.2]
  simp only [h0]
  obtain ⟨e1, e2⟩ := hc m
  rw [← Int.mul_add, ← Int.mul_add]
  generalize (searchForward 13 8 .full m).yr + (searchForward 13 8 .full m).yg
    + (searchForward 13 8 .full m).yb = k at e1 e2
  have hk : ((v : Int) * k + 4095) / 8192 = v := by
    obtain rfl | rfl | rfl : k = 8191 ∨ k = 8192 ∨ k = 8193 := by omega
    all_goals omega
  have h1 : ((v : Int) * k + (((0 : Nat) : Int) * 2 ^ 13 + (2 ^ (13 - 1) - 1))) / 2 ^ 13 = v := by
    norm_num
    exact hk
  rw [h1]
  unfold low8
  omega

theorem layout_colours (ch : Channels) (r g b a : Nat) :
    red ch (layout ch r g b a) = r ∧ green ch (layout ch r g b a) = g ∧
      blue ch (layout ch r g b a) = b := by cases ch <;> exact ⟨rfl, rfl, rfl⟩

theorem layout_bound {B r g b a : Nat} (ch : Channels) (hr : r < B) (hg : g < B) (hb : b < B)
    (ha : a < B) : ∀ x ∈ layout ch r g b a, x < B := by
  cases ch <;> simp [layout] <;> omega

/-- C26, full-range round trip: decoding a grey plane to RGB and encoding the result returns the
plane, sample by sample; the padding of the target plane keeps its contents. -/
theorem c26_full_round_trip (ch : Channels) (i j : Gray) (rgba : Buf) (stride : Nat)
    (m m' : Matrix) (hi : GoodGray i 256) (hj : GoodGray j 256)
    (hw : j.width = i.width ∧ j.height = i.height)
    (hd : GoodDst rgba.length stride i.width i.height ch.count) (hb : Bytes rgba) :
    ∃ mid out, yToRgbx x64 ch noMap i rgba stride .full m = .ok mid ∧
      rgbxToY x64 ch noMap j mid stride .full m' = .ok out ∧
      FrameSpec out j.y j.yStride i.width i.height 1 (fun x y => [at' i.y i.yStride x y]) := by
  obtain ⟨mid, e1, h1⟩ := c26_gray_decode_exact ch i rgba stride .full m hi hd
  have hcn := count_pos ch
  have hlt : ∀ x y, x < i.width → y < i.height → at' i.y i.yStride x y < 256 := by
    intro x y hx hy
    have := fullRows_row hi.y.full hy
    have := hi.y.cols_le
    exact bnd_getD hi.y.bound (by omega)
  have hb' : Bytes mid := frameSpec_bound' h1 hb fun x y hx hy => by
    have := hlt x y hx hy
    exact layout_bound ch this this this (by decide)
  have hd' : GoodDst mid.length stride j.width j.height ch.count := by
    rw [h1.1, hw.1, hw.2]; exact hd
  obtain ⟨out, e2, h2⟩ := c26_gray_encode ch j mid stride .full m' 256 hj hd' hb'
    (fun _ _ => False) noMap noMap_ok
  obtain ⟨mid', e1', h1'⟩ := c26_gray_decode ch i rgba stride .full m hi hd (fun _ _ => False) noMap
    noMap_ok
  obtain rfl : mid' = mid := by rw [e1] at e1'; injection e1' with e; exact e.symm
  rw [hw.1, hw.2] at h2
  refine ⟨mid', out, e1, e2, frameRel_or_eq h2 fun x y p hx hy hp => ?_⟩
  have hm := (h1'.2.1 x y hx hy).resolve_right fun a => a.2
  rw [hp.resolve_right id, hm]
  simp only [grayLevel]
  rw [luma8_gray ch m' _ _ (hlt x y hx hy) (layout_colours ..)]

/-- C26, full-range round trip from RGB: a grey RGB(A) image survives encoding and decoding; only
alpha becomes opaque. -/
theorem c26_full_round_trip_rgb (ch ch' : Channels) (i : Gray) (rgba dst : Buf) (stride stride' : Nat)
    (m m' : Matrix) (hi : GoodGray i 256)
    (hs : GoodDst rgba.length stride i.width i.height ch.count) (hb : Bytes rgba)
    (hd : GoodDst dst.length stride' i.width i.height ch'.count)
    (hgrey : ∀ x y, x < i.width → y < i.height → ∀ px, px = pixelAt rgba stride ch.count x y →
      green ch px = red ch px ∧ blue ch px = red ch px) :
    ∃ mid out, rgbxToY x64 ch noMap i rgba stride .full m = .ok mid ∧
      yToRgbx x64 ch' noMap { i with y := mid } dst stride' .full m' = .ok out ∧
      FrameSpec out dst stride' i.width i.height ch'.count (fun x y =>
        let l := red ch (pixelAt rgba stride ch.count x y)
        layout ch' l l l 255) := by
  obtain ⟨mid, e1, h1⟩ := c26_gray_encode_exact ch i rgba stride .full m 256 hi hs hb
  have hi' : GoodGray { i with y := mid } 256 :=
    ⟨hi.wpos, hi.hpos, hi.w32, hi.h32, hi.y.stride32, hi.y.cols_le, by
      have := hi.y.full; rw [← h1.1] at this; exact this,
      frameSpec_bound h1 hi.y.bound fun _ _ => low8_lt _⟩
  obtain ⟨out, e2, h2⟩ := c26_gray_decode_exact ch' { i with y := mid } dst stride' .full m' hi' hd
  refine ⟨mid, out, e1, e2, h2.1, fun x y c hx hy hc => ?_, h2.2.2⟩
  rw [h2.2.1 x y c hx hy hc]
  have hv : red ch (pixelAt rgba stride ch.count x y) < 256 :=
    (comps_lt (by omega) ch (mem_pixelAt hb)).1
  obtain ⟨g1, g2⟩ := hgrey x y hx hy _ rfl
  have e3 := h1.2.1 x y 0 hx hy (by decide)
  simp only [luma8_gray ch m _ _ hv ⟨rfl, g1, g2⟩] at e3
  have e4 : at' mid i.yStride x y = red ch (pixelAt rgba stride ch.count x y) := by
    simp only [at', List.getD_eq_getElem?_getD]
    rw [Nat.mul_one, Nat.add_zero] at e3
    rw [e3]; rfl
  simp only [grayLevel]
  rw [e4]

/-- A 3×2 grey image with a padded plane. -/
def demoGray : Gray := { y := [16, 128, 235, 9, 0, 255, 77, 9], yStride := 4, width := 3, height := 2 }

example : GoodGray demoGray 256 where
  wpos := by decide
  hpos := by decide
  w32 := by unfold U32; decide
  h32 := by unfold U32; decide
  y := ⟨by unfold U32; decide, by decide, by unfold FullRows; decide, by decide⟩
example : GoodDst (List.replicate 20 7).length 10 3 2 3 :=
  ⟨by unfold U32; decide, by decide, by unfold FullRows; decide, by decide⟩
example : yToRgbx x64 .rgb noMap demoGray (List.replicate 20 7) 10 .limited .bt709 = .ok
    [0, 0, 0, 130, 130, 130, 255, 255, 255, 7, 0, 0, 0, 255, 255, 255, 71, 71, 71, 7] := by
  decide +kernel
example : rgbxToY x64 .rgb noMap demoGray
    [10, 20, 30, 0, 0, 0, 255, 255, 255, 7, 255, 0, 0, 0, 255, 0, 0, 0, 255, 7] 10 .full .bt601
    = .ok [18, 0, 255, 9, 76, 150, 29, 9] := by decide +kernel

/-! ## C05 for the grey converters -/

/-- A plane that the validator accepts. -/
def GrayFits (i : Gray) : Prop :=
  0 < i.width ∧ 0 < i.height ∧ PlaneCovers i.y.length i.yStride 1 1 i.width i.height

theorem NoErr.grayVal8 {rg : YuvRange} {m : Matrix} {y : Nat} : NoErr (Verif.grayVal8 rg m y) := by
  cases rg
  · unfold Verif.grayVal8 grayLimited8
    no_err [NoErr.qrshr]
  · exact .ok

/-- C05, grey decode. -/
theorem c05_gray_decode_rejects (ch : Channels) (hnd : MapHandler) (hh : ∀ a b, NoErr (hnd a b))
    (i : Gray) (rgba : Buf) (stride : Nat) (rg : YuvRange) (m : Matrix)
    (hi : U32 i.yStride ∧ U32 i.width ∧ U32 i.height) (hs : U32 stride) :
    (∃ e, yToRgbx x64 ch hnd i rgba stride rg m = .err e) ↔
      ¬ (RgbFits rgba.length stride i.width i.height ch.count ∧ GrayFits i) := by
  have hcn : 0 < ch.count ∧ ch.count ≤ 4 := by cases ch <;> decide
  refine rejects_iff ?_ (checkRgba_no_panic hs hi.2.1 hi.2.2 hcn.1 hcn.2)
    (checkY8_no_panic hi.1 hi.2.1 hi.2.2) (c02_rgba_check_iff _ _ _ _ _ hs hi.2.1 hi.2.2 hcn.1 hcn.2)
    (c01_gray_check_iff i hi)
  have hb : ∀ rg a px c, NoErr (grayBody (grayVal8 rg m) ch a px c) := fun rg a px c => by
    unfold grayBody; no_err [NoErr.grayVal8, NoErr.storePix]
  cases rg
  · exact .mapFrame hh (hb _ _)
  · exact .mapFrame (fun _ _ => .ok) (hb _ _)

/-- C05, grey encode. -/
theorem c05_gray_encode_rejects (ch : Channels) (hnd : MapHandler) (hh : ∀ a b, NoErr (hnd a b))
    (i : Gray) (rgba : Buf) (stride : Nat) (rg : YuvRange) (m : Matrix)
    (hi : U32 i.yStride ∧ U32 i.width ∧ U32 i.height) (hs : U32 stride) :
    (∃ e, rgbxToY x64 ch hnd i rgba stride rg m = .err e) ↔
      ¬ (RgbFits rgba.length stride i.width i.height ch.count ∧ GrayFits i) := by
  have hcn : 0 < ch.count ∧ ch.count ≤ 4 := by cases ch <;> decide
  refine rejects_iff ?_ (checkRgba_no_panic hs hi.2.1 hi.2.2 hcn.1 hcn.2)
    (checkY8_no_panic hi.1 hi.2.1 hi.2.2) (c02_rgba_check_iff _ _ _ _ _ hs hi.2.1 hi.2.2 hcn.1 hcn.2)
    (c01_gray_check_iff i hi)
  exact .mapFrame hh fun px c => by
    unfold toGrayBody; no_err [NoErr.readRgb, NoErr.lumaOf]

/-! ## C50: high bit depth -/

/-- C50, decode: every pixel becomes the grey pixel of its sample, alpha the largest code value. -/
theorem c50_gray_deep_decode (d : Nat) (hD : Deep d) (ch : Channels) (i : Gray) (rgba : Buf)
    (stride : Nat) (rg : YuvRange) (m : Matrix) (hi : GoodGray i (2 ^ d))
    (hd : GoodDst rgba.length stride i.width i.height ch.count)
    (R : List Buf → Buf → Prop) (hnd : MapHandler)
    (hh : hnd.Ok (2 ^ d) i.width ch.count (graySrc i) R) :
    ∃ out, yDeepToRgbx d ch hnd i rgba stride rg m = .ok out ∧
      FrameRel out rgba stride i.width i.height ch.count (fun x y p =>
        let l := grayLevel d rg m (at' i.y i.yStride x y)
        p = layout ch l l l (2 ^ d - 1) ∨ (rg = .limited ∧ R [[at' i.y i.yStride x y]] p)) := by
  have hcn := count_pos ch
  have hs : ∀ s ∈ graySrc i, GoodSrc s i.width i.height (2 ^ d) := by
    intro s hs; rw [List.mem_singleton] at hs; subst hs; exact goodSrc_plane hi.y
  have hpx : ∀ x y, x < i.width → y < i.height →
      pixelsAt (graySrc i) x y = [[at' i.y i.yStride x y]] := by
    intro x y hx hy
    simp only [pixelsAt, List.map_cons, List.map_nil]
    rw [pixelAt_one hx hy hi.y]
  unfold yDeepToRgbx
  cases rg with
  | limited =>
    obtain ⟨out, e, h⟩ := mapFrame_spec (cutDst := false) hi.wpos hcn hs
      (grayBody_ok (a := 2 ^ d - 1) (ch := ch) Nat.one_pos
        (fun y hy => grayValDeep_ok hD .limited m hy)) hh
      hd.cols_le hd.full (Or.inr ⟨_, List.mem_singleton.2 rfl, rfl⟩)
    refine ⟨out, e, h.1, fun x y hx hy => ?_, h.2.2⟩
    have := h.2.1 x y hx hy
    simp only [hpx x y hx hy] at this
    exact this.imp id fun r => ⟨rfl, r⟩
  | full =>
    obtain ⟨out, e, h⟩ := mapFrame_spec (cutDst := false) hi.wpos hcn hs
      (grayBody_ok (a := 2 ^ d - 1) (ch := ch) Nat.one_pos
        (fun y hy => grayValDeep_ok hD .full m hy))
      (noMap_ok (R := fun _ _ => False)) hd.cols_le hd.full (Or.inr ⟨_, List.mem_singleton.2 rfl, rfl⟩)
    refine ⟨out, e, h.1, fun x y hx hy => ?_, h.2.2⟩
    have := h.2.1 x y hx hy
    simp only [hpx x y hx hy] at this
    exact Or.inl (this.resolve_right id)

/-- C50, decode with alpha plane: alpha is copied.  There is no vector code. -/
theorem c50_gray_deep_alpha_decode (d : Nat) (hD : Deep d) (ch : Channels)
    (ha : ch.hasAlpha = true) (i : GrayAlpha) (rgba : Buf) (stride : Nat) (rg : YuvRange)
    (m : Matrix) (hi : GoodGrayAlpha i (2 ^ d))
    (hd : GoodDst rgba.length stride i.width i.height ch.count) :
    ∃ out, yDeepAlphaToRgbx x64 d ch i rgba stride rg m = .ok out ∧
      FrameSpec out rgba stride i.width i.height ch.count (fun x y =>
        let l := grayLevel d rg m (at' i.y i.yStride x y)
        layout ch l l l (at' i.a i.aStride x y)) := by
  have hcn := count_pos ch
  have hs : ∀ s ∈ grayAlphaSrc i, GoodSrc s i.width i.height (2 ^ d) := by
    intro s hs
    simp only [List.mem_cons, List.not_mem_nil, or_false] at hs
    rcases hs with rfl | rfl
    · exact goodSrc_plane hi.y
    · exact goodSrc_plane hi.a
  unfold yDeepAlphaToRgbx
  rw [hi.accepted]
  simp only [Outcome.bind_ok]
  rw [if_neg (by simp [ha])]
  obtain ⟨out, e, h⟩ := mapFrame_spec (cutDst := false) hi.wpos hcn hs
    (grayAlphaBody_ok (ch := ch) Nat.one_pos Nat.one_pos (fun y hy => grayValDeep_ok hD rg m hy))
    (noMap_ok (R := fun _ _ => False)) hd.cols_le hd.full (Or.inr ⟨_, List.mem_cons_self, rfl⟩)
  refine ⟨out, e, frameRel_or_eq h fun x y p hx hy hp => ?_⟩
  rw [hp.resolve_right id]
  simp only [pixelsAt, List.map_cons, List.map_nil]
  rw [pixelAt_one hx hy hi.y, pixelAt_one hx hy hi.a]
  rfl

/-- A 3×1 10-bit grey image with alpha. -/
def demoGrayAlpha : GrayAlpha :=
  { y := [64, 940, 500, 9], yStride := 4, a := [1, 2, 3], aStride := 3, width := 3, height := 1 }

example : GoodGrayAlpha demoGrayAlpha (2 ^ 10) where
  wpos := by decide
  hpos := by decide
  w32 := by unfold U32; decide
  h32 := by unfold U32; decide
  y := ⟨by unfold U32; decide, by decide, by unfold FullRows; decide, by decide⟩
  a := ⟨by unfold U32; decide, by decide, by unfold FullRows; decide, by decide⟩
example : yDeepAlphaToRgbx x64 10 .rgba demoGrayAlpha (List.replicate 13 7) 13 .limited .bt709
    = .ok [0, 0, 0, 1, 1023, 1023, 1023, 2, 509, 509, 509, 3, 7] := by decide +kernel

/-! ## C43: validation -/

/-- C43 fails: `y010_to_rgb10` reports success for a source plane and a destination that are too
small for the declared image, and writes nothing. -/
theorem c43_gray_deep_short_accepted :
    yDeepToRgbx 10 .rgb noMap { y := [1, 2, 3], yStride := 4, width := 4, height := 8 }
      [5, 6, 7] 12 .full .bt709 = .ok [5, 6, 7] := by decide +kernel
/-- C43 fails: a zero stride panics. -/
theorem c43_gray_deep_zero_stride_panics :
    yDeepToRgbx 10 .rgb noMap { y := [1, 2, 3], yStride := 0, width := 3, height := 1 }
      (List.replicate 9 0) 9 .full .bt709 = .panic := by decide +kernel
/-- C43 fails: a stride below the width panics. -/
theorem c43_gray_deep_narrow_stride_panics :
    yDeepToRgbx 10 .rgb noMap { y := [1, 2, 3], yStride := 3, width := 4, height := 1 }
      (List.replicate 12 0) 12 .full .bt709 = .panic := by decide +kernel
/-- C43 fails: `y010_alpha_to_rgba10` does not look at its destination. -/
theorem c43_gray_deep_alpha_short_accepted :
    yDeepAlphaToRgbx x64 10 .rgba ⟨[1, 2, 3, 4], 2, [1, 2, 3, 4], 2, 2, 2⟩ [5, 6, 7] 8 .full .bt709 = .ok [5, 6, 7] := by decide +kernel

/-- C43, what holds: with an alpha plane, the source planes are validated, for every depth and
range.  Missing: the destination, and the functions without alpha plane altogether. -/
theorem c43_gray_deep_alpha_source_partial (d : Nat) (ch : Channels) (i : GrayAlpha) (rgba : Buf)
    (stride : Nat) (rg : YuvRange) (m : Matrix)
    (hi : U32 i.yStride ∧ U32 i.aStride ∧ U32 i.width ∧ U32 i.height) :
    (∃ e, yDeepAlphaToRgbx x64 d ch i rgba stride rg m = .err e) ↔
      ¬ (0 < i.width ∧ 0 < i.height ∧ PlaneCovers i.y.length i.yStride 1 1 i.width i.height ∧
        PlaneCovers i.a.length i.aStride 1 1 i.width i.height) := by
  have hr : ∀ rg, NoErr (if ch.hasAlpha = false then Outcome.panic
      else mapFrame false i.width ch.count noMap (grayAlphaBody (grayValDeep d rg m) ch)
        [⟨i.y, i.yStride, 1, true⟩, ⟨i.a, i.aStride, 1, false⟩] rgba stride) := by
    intro rg
    refine .ite .panic (.mapFrame (fun _ _ => .ok) fun px c => ?_)
    have : ∀ y, NoErr (grayValDeep d rg m y) := by
      intro y; cases rg
      · unfold grayValDeep grayLimitedDeep narrowDiff; no_err
      · exact .ok
    unfold grayAlphaBody; no_err [this, NoErr.storePix]
  rw [← c01_gray_alpha_check_iff i hi]
  have hp : i.check x64 ≠ .panic := by
    unfold GrayAlpha.check
    intro hp
    cases e : checkY8 x64 i.y.length i.yStride i.width i.height with
    | panic => exact checkY8_no_panic hi.1 hi.2.2.1 hi.2.2.2 e
    | err x => rw [e] at hp; cases hp
    | ok x => rw [e] at hp; exact checkY8_no_panic hi.2.1 hi.2.2.1 hi.2.2.2 hp
  unfold yDeepAlphaToRgbx
  cases e : i.check x64 with
  | panic => exact absurd e hp
  | err x => exact ⟨fun _ h => absurd h (by simp), fun _ => ⟨x, rfl⟩⟩
  | ok x => exact ⟨fun ⟨y, h⟩ => absurd h ((hr rg).out y), fun h => absurd rfl h⟩

end Verif
