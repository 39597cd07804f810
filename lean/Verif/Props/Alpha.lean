import Verif.Lemmas.AlphaDecode
import Verif.Props.Packed444
import Verif.Props.DeepDecode
/-!
# C27: the alpha plane of 8-bit images; C51: of 10- to 16-bit images
-/
namespace Verif
open Spec

theorem alphaSample_lt {i : PlanarAlpha} {s : Sampling} {B : Nat} (h : GoodPlanarAlpha i s B)
    {x y : Nat} (hx : x < i.width) (hy : y < i.height) : alphaAt i x y < B := h.a.at_lt hx hy

/-- The loops, once the image and the destination are accepted. -/
theorem alphaFrame_spec {guard : Bool} {ch : Channels} {s : Sampling} {i : PlanarAlpha} {rgba : Buf}
    {stride B : Nat} {put : AlphaPut} {px : Nat → Nat → Nat → Nat → Buf}
    {hd : AlphaHandler} {R : Nat → Nat → Nat → Nat → Buf → Prop} (hi : GoodPlanarAlpha i s B)
    (hdst : GoodDst rgba.length stride i.width i.height ch.count)
    (hput : AlphaPutOk B ch.count put px) (hh : hd.Ok B ch.count i.width (hdiv s) R) :
    ∃ out, alphaFrame true guard ch.count put hd s i rgba stride = .ok out ∧
      FrameRel out rgba stride i.width i.height ch.count (fun x y p =>
        let j := opaqueImage i
        p = px (Planar.Y j x y) (Planar.U j s x y) (Planar.V j s x y) (alphaAt i x y) ∨
        R (Planar.Y j x y) (Planar.U j s x y) (Planar.V j s x y) (alphaAt i x y) p) := by
  have hcn := count_pos ch
  have hst : 0 < stride := Nat.lt_of_lt_of_le (Nat.mul_pos hi.wpos hcn) hdst.cols_le
  exact (alphaFrame_rel hi.rows hcn hput hh hdst.cols_le hdst.full).spec hcn hst hdst.cols_le
    hdst.full.1

/-! ## C27 -/

/-- The pixel the specification asks for: the decoding of the samples covering `(x, y)` with the
alpha sample at `(x, y)`, premultiplied when asked. -/
abbrev Spec.alphaPlanePixel (pm : Bool) (ch : Channels) (s : Sampling) (i : PlanarAlpha)
    (rg : YuvRange) (m : Matrix) (x y : Nat) : Buf :=
  let j := opaqueImage i
  alphaPixel pm 13 8 ch rg m (alphaAt i x y) (Planar.Y j x y) (Planar.U j s x y) (Planar.V j s x y)

theorem putAlpha_AlphaPutOk (pm : Bool) (ch : Channels) (rg : YuvRange) (m : Matrix) :
    AlphaPutOk 256 ch.count (putAlpha pm 13 (searchInverse 13 8 rg m) (getYuvRange 8 rg) ch)
      (fun y u v a => alphaPixel pm 13 8 ch rg m a y u v) :=
  ⟨fun _ _ _ _ _ hy hu hv ha hc =>
    putAlpha_ok (Or.inr (Or.inl ⟨rfl, Or.inl rfl⟩)) ch rg m hy hu hv ha hc,
    fun _ _ _ _ => alphaPixel_length ..⟩

/-- C27: decoding a good 8-bit planar image with an alpha plane into a good four-channel destination
succeeds, writes exactly the `width × height` pixels, and every pixel is the decoding of its samples
with its alpha, premultiplied when asked (or what the vector code guarantees). -/
theorem c27_alpha_decode (ch : Channels) (hch : ch = .rgba ∨ ch = .bgra) (s : Sampling)
    (i : PlanarAlpha) (rgba : Buf) (stride : Nat) (rg : YuvRange) (m : Matrix) (pm : Bool)
    (hi : GoodPlanarAlpha i s 256)
    (hdst : GoodDst rgba.length stride i.width i.height ch.count)
    (R : Nat → Nat → Nat → Nat → Buf → Prop) (hd : AlphaHandler)
    (hh : hd.Ok 256 ch.count i.width (hdiv s) R) :
    ∃ out, yuvAlphaToRgbx x64 ch s hd i rgba stride rg m pm = .ok out ∧
      FrameRel out rgba stride i.width i.height ch.count (fun x y p =>
        let j := opaqueImage i
        p = alphaPlanePixel pm ch s i rg m x y ∨
        R (Planar.Y j x y) (Planar.U j s x y) (Planar.V j s x y) (alphaAt i x y) p) := by
  have ha : ¬ ch.hasAlpha = false := by rcases hch with rfl | rfl <;> decide
  unfold yuvAlphaToRgbx
  rw [if_neg ha, hdst.accepted hi.wpos hi.hpos hi.w32 hi.h32 (count_pos ch) (count_le ch),
    hi.accepted]
  simp only [Outcome.bind_ok]
  exact alphaFrame_spec hi hdst (putAlpha_AlphaPutOk pm ch rg m) hh

/-- C27 without vector code: the destination is determined. -/
theorem c27_alpha_decode_exact (ch : Channels) (hch : ch = .rgba ∨ ch = .bgra) (s : Sampling)
    (i : PlanarAlpha) (rgba : Buf) (stride : Nat) (rg : YuvRange) (m : Matrix) (pm : Bool)
    (hi : GoodPlanarAlpha i s 256)
    (hdst : GoodDst rgba.length stride i.width i.height ch.count) :
    ∃ out, yuvAlphaToRgbx x64 ch s noAlphaSimd i rgba stride rg m pm = .ok out ∧
      FrameSpec out rgba stride i.width i.height ch.count (alphaPlanePixel pm ch s i rg m) := by
  obtain ⟨out, e, h⟩ := c27_alpha_decode ch hch s i rgba stride rg m pm hi hdst _ noAlphaSimd
    noAlphaSimd_ok
  exact ⟨out, e, frameRel_or_eq h fun x y p _ _ hp => hp.resolve_right id⟩

/-- C27: without premultiplication the colours are those the alpha-less decoder writes for the same
image without its alpha plane, and the fourth component is the alpha sample. -/
theorem c27_same_colours (ch : Channels) (hch : ch = .rgba ∨ ch = .bgra) (s : Sampling)
    (i : PlanarAlpha) (rgba : Buf) (stride : Nat) (rg : YuvRange) (m : Matrix)
    (hi : GoodPlanarAlpha i s 256)
    (hdst : GoodDst rgba.length stride i.width i.height ch.count) :
    ∃ out plain,
      yuvAlphaToRgbx x64 ch s noAlphaSimd i rgba stride rg m false = .ok out ∧
      yuvToRgbx x64 ch s noSimd noSimd420 (opaqueImage i) rgba stride rg m = .ok plain ∧
      ∀ x y, x < i.width → y < i.height →
        let p := pixelAt out stride ch.count x y
        let q := pixelAt plain stride ch.count x y
        red ch p = red ch q ∧ green ch p = green ch q ∧ blue ch p = blue ch q ∧
        alphaOr 0 ch p = alphaAt i x y := by
  obtain ⟨out, e1, h1⟩ := c27_alpha_decode_exact ch hch s i rgba stride rg m false hi hdst
  obtain ⟨plain, e2, h2⟩ := c15_planar_decode_exact ch s (opaqueImage i) rgba stride rg m hi.opaque
    hdst noSimd noSimd420 noSimd_ok noSimd420_ok
  refine ⟨out, plain, e1, e2, fun x y hx hy => ?_⟩
  have p1 := frameSpec_pixel h1 hx hy (alphaPixel_length ..)
  have p2 := frameSpec_pixel h2 hx hy (decodedPixel_length ..)
  simp only
  rw [p1, p2]
  unfold alphaPlanePixel alphaPixel planarPixel decodedPixel
  simp only [Bool.false_eq_true, if_false]
  rw [(layout_colours ..).1, (layout_colours ..).2.1, (layout_colours ..).2.2,
    (layout_colours ..).1, (layout_colours ..).2.1, (layout_colours ..).2.2]
  refine ⟨rfl, rfl, rfl, ?_⟩
  rcases hch with rfl | rfl <;> rfl

/-- C27: with premultiplication every colour is the integer nearest to the product of the colour the
alpha-less decoder writes and alpha over 255; alpha itself is stored unchanged. -/
theorem c27_premultiplied (ch : Channels) (hch : ch = .rgba ∨ ch = .bgra) (s : Sampling)
    (i : PlanarAlpha) (rgba : Buf) (stride : Nat) (rg : YuvRange) (m : Matrix)
    (hi : GoodPlanarAlpha i s 256)
    (hdst : GoodDst rgba.length stride i.width i.height ch.count) :
    ∃ out plain,
      yuvAlphaToRgbx x64 ch s noAlphaSimd i rgba stride rg m true = .ok out ∧
      yuvToRgbx x64 ch s noSimd noSimd420 (opaqueImage i) rgba stride rg m = .ok plain ∧
      ∀ x y, x < i.width → y < i.height →
        let p := pixelAt out stride ch.count x y
        let q := pixelAt plain stride ch.count x y
        let a := alphaAt i x y
        (∀ c ∈ [red ch, green ch, blue ch],
          2 * (255 * c p) ≤ 2 * (c q * a) + 255 ∧ 2 * (c q * a) ≤ 2 * (255 * c p) + 255) ∧
        alphaOr 0 ch p = a := by
  obtain ⟨out, e1, h1⟩ := c27_alpha_decode_exact ch hch s i rgba stride rg m true hi hdst
  obtain ⟨plain, e2, h2⟩ := c15_planar_decode_exact ch s (opaqueImage i) rgba stride rg m hi.opaque
    hdst noSimd noSimd420 noSimd_ok noSimd420_ok
  refine ⟨out, plain, e1, e2, fun x y hx hy => ?_⟩
  have p1 := frameSpec_pixel h1 hx hy (alphaPixel_length ..)
  have p2 := frameSpec_pixel h2 hx hy (decodedPixel_length ..)
  simp only
  rw [p1, p2]
  unfold alphaPlanePixel alphaPixel planarPixel decodedPixel
  simp only [if_true]
  refine ⟨?_, by rcases hch with rfl | rfl <;> rfl⟩
  intro c hc
  simp only [List.mem_cons, List.not_mem_nil, or_false] at hc
  rcases hc with rfl | rfl | rfl
  · rw [(layout_colours ..).1, (layout_colours ..).1]; exact premul_near ..
  · rw [(layout_colours ..).2.1, (layout_colours ..).2.1]; exact premul_near ..
  · rw [(layout_colours ..).2.2, (layout_colours ..).2.2]; exact premul_near ..

/-- A 3×3 4:2:0 image with an alpha plane and padded strides. -/
def demoAlpha : PlanarAlpha :=
  { y := demo420.y, yStride := 4, u := demo420.u, uStride := 3, v := demo420.v, vStride := 2
    a := [255, 128, 0, 9, 9, 1, 77, 200, 9, 9, 254, 3, 100, 9, 9]
    aStride := 5
    width := 3
    height := 3 }

theorem demoAlpha_good : GoodPlanarAlpha demoAlpha .yuv420 256 where
  wpos := by decide
  hpos := by decide
  w32 := by unfold U32; decide
  h32 := by unfold U32; decide
  y := ⟨by unfold U32; decide, by decide, by unfold FullRows; decide, by decide⟩
  u := ⟨by unfold U32; decide, by decide, by unfold FullRows; decide, by decide⟩
  v := ⟨by unfold U32; decide, by decide, by unfold FullRows; decide, by decide⟩
  a := ⟨by unfold U32; decide, by decide, by unfold FullRows; decide, by decide⟩

example : yuvAlphaToRgbx x64 .bgra .yuv420 noAlphaSimd demoAlpha (List.replicate 39 7) 13 .limited
    .bt709 false = .ok
    [0, 0, 0, 255, 76, 76, 76, 128, 70, 99, 255, 0, 7,
     29, 29, 29, 1, 226, 226, 226, 77, 25, 53, 255, 200, 7,
     23, 245, 11, 254, 99, 255, 86, 3, 255, 116, 98, 100, 7] := by decide +kernel
example : yuvAlphaToRgbx x64 .bgra .yuv420 noAlphaSimd demoAlpha (List.replicate 39 7) 13 .limited
    .bt709 true = .ok
    [0, 0, 0, 255, 38, 38, 38, 128, 0, 0, 0, 0, 7,
     0, 0, 0, 1, 68, 68, 68, 77, 20, 42, 200, 200, 7,
     23, 244, 11, 254, 1, 3, 1, 3, 100, 45, 38, 100, 7] := by decide +kernel

/-! ## C51: 10- to 16-bit targets -/

theorem putP16Alpha_ok {d : Nat} (hd : Depth d) (e : Endianness) (bp : BytesPacking) (ch : Channels)
    (rg : YuvRange) (m : Matrix) :
    AlphaPutOk 65536 ch.count (fun y u v a => putDeep (qrshr 13 d) asU16
        (fun v => toNe e bp v (16 - d)) (searchInverse 13 d rg m) (getYuvRange d rg) ch a y u v)
      (fun y u v a => deepAlphaPixel (2 ^ 12 - 1) 13 13 d d ch rg m a (toNe e bp y (16 - d))
        (toNe e bp u (16 - d)) (toNe e bp v (16 - d))) := by
  refine ⟨fun y u v a c hy hu hv _ hc => ?_, fun _ _ _ _ => layout_length ..⟩
  have h := putDeep_ok (cast := asU16) (ne := fun v => toNe e bp v (16 - d)) (B := 65536)
    (c := getYuvRange d rg)
    (QOk.mono (qrshr_QOk 13 d) (by decide)) (fits_u16 hd rg m)
    (fun y u v hy hu hv => near_u16 hd rg (toNe_lt e bp hy) (toNe_lt e bp hu) (toNe_lt e bp hv))
    ch a
  have hd16 : d ≤ 16 := by rcases hd with rfl | rfl | rfl | rfl | rfl <;> decide
  simp only [qr, asU16_sat hd16] at h
  exact h.ok y u v c hy hu hv hc

/-- What the 10- to 16-bit decoder with alpha does for every image: the colours are those of the
decoder without alpha (C28), the fourth component is the stored alpha *word*. -/
theorem c51_deep_alpha_words (e : Endianness) (bp : BytesPacking) (d : Nat) (hd : Depth d)
    (ch : Channels) (hch : ch = .rgba ∨ ch = .bgra) (s : Sampling) (i : PlanarAlpha) (rgba : Buf)
    (stride : Nat) (rg : YuvRange) (m : Matrix) (hi : GoodPlanarAlpha i s 65536)
    (hdst : GoodDst rgba.length stride i.width i.height ch.count)
    (R : Nat → Nat → Nat → Nat → Buf → Prop) (h : AlphaHandler)
    (hh : h.Ok 65536 ch.count i.width (hdiv s) R) :
    ∃ out, p16AlphaToRgb16 x64 e bp d ch s h i rgba stride rg m = .ok out ∧
      FrameRel out rgba stride i.width i.height ch.count (fun x y p =>
        let j := opaqueImage i
        p = deepAlphaPixel (2 ^ 12 - 1) 13 13 d d ch rg m (alphaAt i x y)
          (nativeSample e bp d (Planar.Y j x y)) (nativeSample e bp d (Planar.U j s x y))
          (nativeSample e bp d (Planar.V j s x y)) ∨
        R (Planar.Y j x y) (Planar.U j s x y) (Planar.V j s x y) (alphaAt i x y) p) := by
  have ha : ¬ ch.hasAlpha = false := by rcases hch with rfl | rfl <;> decide
  unfold p16AlphaToRgb16
  rw [if_neg ha, hdst.accepted hi.wpos hi.hpos hi.w32 hi.h32 (count_pos ch) (count_le ch),
    hi.accepted]
  simp only [Outcome.bind_ok]
  obtain ⟨out, e1, hr⟩ := alphaFrame_spec (guard := false) hi hdst (putP16Alpha_ok hd e bp ch rg m)
    hh
  refine ⟨out, e1, hr.1, fun x y hx hy => ?_, hr.2.2⟩
  obtain ⟨b1, b2, b3⟩ := hi.opaque.sample_lt hx hy
  have := hr.2.1 x y hx hy
  simp only [toNe_eq e bp b1, toNe_eq e bp b2, toNe_eq e bp b3] at this
  exact this

/-- C51, the part that holds: for little-endian samples in the low bits every pixel is the decoding
of its samples with its alpha sample.  Missing: other byte orders and packings, for which
`c51_big_endian_alpha` shows that the statement is false. -/
theorem c51_deep_alpha_partial (d : Nat) (hd : Depth d)
    (ch : Channels) (hch : ch = .rgba ∨ ch = .bgra) (s : Sampling) (i : PlanarAlpha) (rgba : Buf)
    (stride : Nat) (rg : YuvRange) (m : Matrix) (hi : GoodPlanarAlpha i s 65536)
    (hdst : GoodDst rgba.length stride i.width i.height ch.count) :
    ∃ out, p16AlphaToRgb16 x64 .little .lsb d ch s noAlphaSimd i rgba stride rg m = .ok out ∧
      FrameSpec out rgba stride i.width i.height ch.count (fun x y =>
        let j := opaqueImage i
        let n := nativeSample .little .lsb d
        deepAlphaPixel (2 ^ 12 - 1) 13 13 d d ch rg m (n (alphaAt i x y))
          (n (Planar.Y j x y)) (n (Planar.U j s x y)) (n (Planar.V j s x y))) := by
  obtain ⟨out, e, h⟩ := c51_deep_alpha_words .little .lsb d hd ch hch s i rgba stride rg m hi hdst _
    noAlphaSimd noAlphaSimd_ok
  exact ⟨out, e, frameRel_or_eq h fun x y p _ _ hp => hp.resolve_right id⟩

/-- A 1×1 10-bit 4:4:4 image, opaque mid-gray, stored big-endian. -/
def demoAlphaBe : PlanarAlpha :=
  { y := [swap16 512], yStride := 1, u := [swap16 512], uStride := 1, v := [swap16 512], vStride := 1
    a := [swap16 1023], aStride := 1, width := 1, height := 1 }

theorem demoAlphaBe_good : GoodPlanarAlpha demoAlphaBe .yuv444 65536 where
  wpos := by decide
  hpos := by decide
  w32 := by unfold U32; decide
  h32 := by unfold U32; decide
  y := ⟨by unfold U32; decide, by decide, by unfold FullRows; decide, by decide⟩
  u := ⟨by unfold U32; decide, by decide, by unfold FullRows; decide, by decide⟩
  v := ⟨by unfold U32; decide, by decide, by unfold FullRows; decide, by decide⟩
  a := ⟨by unfold U32; decide, by decide, by unfold FullRows; decide, by decide⟩

/-- C51 fails for big-endian images: the colours are decoded, the alpha of an opaque pixel is
stored with its bytes swapped, far beyond the depth. -/
theorem c51_big_endian_alpha :
    p16AlphaToRgb16 x64 .big .lsb 10 .rgba .yuv444 noAlphaSimd demoAlphaBe [0, 0, 0, 0] 4 .limited
      .bt709 = .ok [523, 523, 523, 65283] ∧
    nativeSample .big .lsb 10 (alphaAt demoAlphaBe 0 0) = 1023 := by decide +kernel

/-! ## C51: 8-bit targets -/

/-- The pixel the 8-bit converter with alpha writes: colours rounded to 8 bits, saturated at the
*source* depth, modulo 256 (as `p10Wrap`). -/
def Spec.p10AlphaPixel (d : Nat) (ch : Channels) (rg : YuvRange) (m : Matrix) (a y u v : Nat) : Buf :=
  let t := searchInverse 13 d rg m
  let c := getYuvRange d rg
  layout ch (p10Wrap d (linR t c.biasY c.biasUv y v)) (p10Wrap d (linG t c.biasY c.biasUv y u v))
    (p10Wrap d (linB t c.biasY c.biasUv y u)) a

theorem putP10Alpha_ok {d : Nat} (hd : d = 10 ∨ d = 12) (e : Endianness) (bp : BytesPacking)
    (ch : Channels) (rg : YuvRange) (m : Matrix) :
    AlphaPutOk 65536 ch.count (fun y u v a => putDeep (p10Qrshr d) asU8
        (fun v => toNe e bp v (16 - d)) (searchInverse 13 d rg m) (getYuvRange d rg) ch
        (min (a / 2 ^ (d - 8)) 255) y u v)
      (fun y u v a => p10AlphaPixel d ch rg m (alpha8 d a) (toNe e bp y (16 - d))
        (toNe e bp u (16 - d)) (toNe e bp v (16 - d))) := by
  have hdd : Depth d := by rcases hd with rfl | rfl <;> simp [Depth]
  refine ⟨fun y u v a c hy hu hv _ hc => ?_, fun _ _ _ _ => layout_length ..⟩
  have h := putDeep_ok (cast := asU8) (ne := fun v => toNe e bp v (16 - d)) (B := 65536)
    (c := getYuvRange d rg) (p10Qrshr_QOk hd) (fits_p10 hd rg m).2
    (fun y u v hy hu hv => near_u16 hdd rg (toNe_lt e bp hy) (toNe_lt e bp hu) (toNe_lt e bp hv))
    ch (min (a / 2 ^ (d - 8)) 255)
  simp only [p10Wrap_eq] at h
  exact h.ok y u v c hy hu hv hc

/-- No element lies between the rows of any plane and of the destination. -/
structure Spec.TightAlpha (i : PlanarAlpha) (stride cn : Nat) : Prop where
  dst : stride = i.width * cn
  y : i.yStride = i.width
  u : i.uStride = cover i.width 2
  v : i.vStride = cover i.width 2
  a : i.aStride = i.width

/-- What the 10- and 12- to 8-bit decoder with alpha does: the destination is filled with the
decoded colours, wrapped instead of saturated, and the upper 8 bits of the stored alpha word.  For
4:2:2 only without padding between rows. -/
theorem c51_deep8_alpha_words (e : Endianness) (bp : BytesPacking) (d : Nat) (hd : d = 10 ∨ d = 12)
    (ch : Channels) (hch : ch = .rgba ∨ ch = .bgra) (s : Sampling) (i : PlanarAlpha) (rgba : Buf)
    (stride : Nat) (rg : YuvRange) (m : Matrix) (hi : GoodPlanarAlpha i s 65536)
    (hdst : GoodDst rgba.length stride i.width i.height ch.count)
    (ht : s = .yuv422 → TightAlpha i stride ch.count)
    (R : Nat → Nat → Nat → Nat → Buf → Prop) (h : AlphaHandler)
    (hh : h.Ok 65536 ch.count i.width (hdiv s) R) :
    ∃ out, p16AlphaToRgb8 x64 e bp d ch s h i rgba stride rg m = .ok out ∧
      FrameRel out rgba stride i.width i.height ch.count (fun x y p =>
        let j := opaqueImage i
        p = p10AlphaPixel d ch rg m (alpha8 d (alphaAt i x y))
          (nativeSample e bp d (Planar.Y j x y)) (nativeSample e bp d (Planar.U j s x y))
          (nativeSample e bp d (Planar.V j s x y)) ∨
        R (Planar.Y j x y) (Planar.U j s x y) (Planar.V j s x y) (alphaAt i x y) p) := by
  have ha : ¬ ch.hasAlpha = false := by rcases hch with rfl | rfl <;> decide
  unfold p16AlphaToRgb8
  rw [if_neg ha, hdst.accepted hi.wpos hi.hpos hi.w32 hi.h32 (count_pos ch) (count_le ch),
    hi.accepted]
  simp only [Outcome.bind_ok]
  obtain ⟨out, e1, hr⟩ := alphaFrame_spec (guard := false) hi hdst (putP10Alpha_ok hd e bp ch rg m)
    hh
  refine ⟨out, ?_, hr.1, fun x y hx hy => ?_, hr.2.2⟩
  · rw [← e1]
    cases s
    · rfl
    · have t := ht rfl
      have c2 : cover i.width 2 = ceil2 i.width := cover_hdiv (s := .yuv422) hi.wpos
      exact alpha422_tight hi.rows hdst.full t.dst t.y (t.u.trans c2) (t.v.trans c2) t.a
    · rfl
  obtain ⟨b1, b2, b3⟩ := hi.opaque.sample_lt hx hy
  have := hr.2.1 x y hx hy
  simp only [toNe_eq e bp b1, toNe_eq e bp b2, toNe_eq e bp b3] at this
  exact this

/-- C51 for 8-bit targets, the part that holds: little-endian samples in the low bits, colours that
do not exceed 255 before saturation, and no padding for 4:2:2.  Every pixel is then the decoding of
its samples saturated to 8 bits with the upper 8 bits of its alpha sample. -/
theorem c51_deep8_alpha_partial (d : Nat) (hd : d = 10 ∨ d = 12)
    (ch : Channels) (hch : ch = .rgba ∨ ch = .bgra) (s : Sampling) (i : PlanarAlpha) (rgba : Buf)
    (stride : Nat) (rg : YuvRange) (m : Matrix) (hi : GoodPlanarAlpha i s 65536)
    (hdst : GoodDst rgba.length stride i.width i.height ch.count)
    (ht : s = .yuv422 → TightAlpha i stride ch.count)
    (hno : ∀ x y, x < i.width → y < i.height →
      let j := opaqueImage i
      NoOverflow8 d rg m (Planar.Y j x y) (Planar.U j s x y) (Planar.V j s x y)) :
    ∃ out, p16AlphaToRgb8 x64 .little .lsb d ch s noAlphaSimd i rgba stride rg m = .ok out ∧
      FrameSpec out rgba stride i.width i.height ch.count (fun x y =>
        let j := opaqueImage i
        deepAlphaPixel (2 ^ (13 + (d - 8) - 1)) 13 (13 + (d - 8)) d 8 ch rg m
          (alpha8 d (alphaAt i x y)) (Planar.Y j x y) (Planar.U j s x y) (Planar.V j s x y)) := by
  obtain ⟨out, e, h⟩ := c51_deep8_alpha_words .little .lsb d hd ch hch s i rgba stride rg m hi hdst
    ht _ noAlphaSimd noAlphaSimd_ok
  refine ⟨out, e, frameRel_or_eq h fun x y p hx hy hp => ?_⟩
  have hp := hp.resolve_right id
  obtain ⟨h1, h2, h3⟩ := hno x y hx hy
  rw [hp]
  unfold p10AlphaPixel deepAlphaPixel
  simp only [nativeSample]
  rw [p10Wrap_sat hd h1, p10Wrap_sat hd h2, p10Wrap_sat hd h3]

/-- A 2×1 10-bit 4:2:2 image whose rows are padded by one sample each. -/
def demoAlpha422 : PlanarAlpha :=
  { y := [512, 512, 0, 0], yStride := 4, u := [512, 0], uStride := 2, v := [512, 0], vStride := 2
    a := [1023, 0, 0, 0], aStride := 4, width := 2, height := 1 }

theorem demoAlpha422_good : GoodPlanarAlpha demoAlpha422 .yuv422 65536 where
  wpos := by decide
  hpos := by decide
  w32 := by unfold U32; decide
  h32 := by unfold U32; decide
  y := ⟨by unfold U32; decide, by decide, by unfold FullRows; decide, by decide⟩
  u := ⟨by unfold U32; decide, by decide, by unfold FullRows; decide, by decide⟩
  v := ⟨by unfold U32; decide, by decide, by unfold FullRows; decide, by decide⟩
  a := ⟨by unfold U32; decide, by decide, by unfold FullRows; decide, by decide⟩

/-- C51 fails for padded 4:2:2: the padding of the destination, outside the image, is overwritten
(here elements 8 to 15, which held 7). -/
theorem c51_deep8_422_padding :
    p16AlphaToRgb8 x64 .little .lsb 10 .rgba .yuv422 noAlphaSimd demoAlpha422 (List.replicate 16 7) 16
      .limited .bt709 = .ok [131, 131, 131, 255, 131, 131, 131, 0, 0, 77, 0, 0, 0, 77, 0, 0] := by
  decide +kernel

/-- C51 fails for white and beyond: white is 255.75 at 8 bits, rounds to 256 and is stored as
black; it should be saturated to 255. -/
theorem c51_deep8_wraps :
    let i : PlanarAlpha := ⟨[940], 1, [512], 1, [512], 1, [1023], 1, 1, 1⟩
    p16AlphaToRgb8 x64 .little .lsb 10 .rgba .yuv444 noAlphaSimd i [9, 9, 9, 9] 4 .limited .bt709
      = .ok [0, 0, 0, 255] ∧
    deepAlphaPixel (2 ^ 14) 13 15 10 8 .rgba .limited .bt709 255 940 512 512 = [255, 255, 255, 255] := by
  decide +kernel

/-- A tightly stored 3×1 image and its destination meet the hypotheses of the partial theorem. -/
example : TightAlpha ⟨[512, 300, 900], 3, [512, 400], 2, [512, 600], 2, [1023, 512, 0], 3, 3, 1⟩ 12 4 :=
  ⟨by decide, by decide, by decide, by decide, by decide⟩
example : p16AlphaToRgb8 x64 .little .lsb 10 .rgba .yuv422 noAlphaSimd
    ⟨[512, 300, 900], 3, [512, 400], 2, [512, 600], 2, [1023, 512, 0], 3, 3, 1⟩
    (List.replicate 12 7) 12 .limited .bt709
    = .ok [131, 131, 131, 255, 69, 69, 69, 128, 28, 238, 185, 0] := by decide +kernel

/-! ## Errors -/

section
variable {guard cut : Bool} {w cn : Nat} {put : AlphaPut} (hput : ∀ y u v a c, NoErr (put y u v a c))
  {hd : AlphaHandler} (hh : ∀ y u v a r, NoErr (hd y u v a r))
include hput hh

theorem NoErr.alphaHalvedRow {y u v a row : Buf} :
    NoErr (Verif.alphaHalvedRow guard w cn put hd y u v a row) := by
  unfold Verif.alphaHalvedRow; no_err [hput, hh]
theorem NoErr.alphaHalvedSlice {y u v a row : Buf} :
    NoErr (Verif.alphaHalvedSlice guard w cn put hd y u v a row) := by
  unfold Verif.alphaHalvedSlice; no_err [NoErr.alphaHalvedRow hput hh]
theorem NoErr.alphaFrame {s : Sampling} {i : PlanarAlpha} {rgba : Buf} {stride : Nat} :
    NoErr (Verif.alphaFrame cut guard cn put hd s i rgba stride) := by
  cases s
  · unfold Verif.alphaFrame Verif.alpha420
    no_err [NoErr.alphaHalvedSlice hput hh]
  · unfold Verif.alphaFrame Verif.alpha422
    refine .eachChunk fun _ _ => ?_
    cases cut
    · exact .alphaHalvedRow hput hh
    · exact .alphaHalvedSlice hput hh
  · unfold Verif.alphaFrame Verif.alpha444
    no_err [hput, hh]
end

/-- The image validator accepts exactly images whose four planes cover it. -/
def Spec.PlanarAlphaFits (i : PlanarAlpha) (s : Sampling) : Prop :=
  0 < i.width ∧ 0 < i.height ∧
  PlaneCovers i.y.length i.yStride 1 1 i.width i.height ∧
  PlaneCovers i.a.length i.aStride 1 1 i.width i.height ∧
  PlaneCovers i.u.length i.uStride (hdiv s) (vdiv s) i.width i.height ∧
  PlaneCovers i.v.length i.vStride (hdiv s) (vdiv s) i.width i.height

/-- All strides and sizes are `u32` values. -/
def Spec.PlanarAlphaU32 (i : PlanarAlpha) : Prop :=
  U32 i.yStride ∧ U32 i.uStride ∧ U32 i.vStride ∧ U32 i.aStride ∧ U32 i.width ∧ U32 i.height

theorem planarAlpha_no_panic {i : PlanarAlpha} {s : Sampling} (h : PlanarAlphaU32 i) :
    i.check x64 s ≠ .panic := by
  obtain ⟨h1, h2, h3, ha, h4, h5⟩ := h
  have a := checkY8_no_panic (len := i.y.length) h1 h4 h5
  have d := checkY8_no_panic (len := i.a.length) ha h4 h5
  have b := checkChroma_no_panic (len := i.u.length) (s := s) h2 h4 h5
  have c := checkChroma_no_panic (len := i.v.length) (s := s) h3 h4 h5
  unfold PlanarAlpha.check
  revert a b c d
  cases checkY8 x64 i.y.length i.yStride i.width i.height <;>
    cases checkY8 x64 i.a.length i.aStride i.width i.height <;>
    cases checkChroma x64 i.u.length i.uStride i.width i.height s <;> simp

theorem NoErr.putDeep {q : Int → Outcome Int} (hq : ∀ v, NoErr (q v)) {cast : Int → Nat}
    {ne : Nat → Nat} {t : InvCoef} {c : ChromaRange} {ch : Channels} {a y u v : Nat} {px : Buf} :
    NoErr (putDeep q cast ne t c ch a y u v px) := by
  unfold Verif.putDeep
  no_err [NoErr.decodeRow hq, NoErr.storePix]

/-- C05, planar decode with alpha: an error is returned exactly when the image or the destination
does not fit. -/
theorem c05_alpha_decode_rejects (ch : Channels) (hch : ch = .rgba ∨ ch = .bgra) (s : Sampling)
    (hd : AlphaHandler) (hh : ∀ y u v a r, NoErr (hd y u v a r)) (i : PlanarAlpha) (rgba : Buf)
    (stride : Nat) (rg : YuvRange) (m : Matrix) (pm : Bool) (hi : PlanarAlphaU32 i)
    (hs : U32 stride) :
    (∃ e, yuvAlphaToRgbx x64 ch s hd i rgba stride rg m pm = .err e) ↔
      ¬ (RgbFits rgba.length stride i.width i.height ch.count ∧ PlanarAlphaFits i s) := by
  have hcn : 0 < ch.count ∧ ch.count ≤ 4 := by cases ch <;> decide
  have ha : ¬ ch.hasAlpha = false := by rcases hch with rfl | rfl <;> decide
  obtain ⟨_, _, _, _, h5, h6⟩ := id hi
  unfold yuvAlphaToRgbx
  rw [if_neg ha]
  exact rejects_iff (.alphaFrame (fun _ _ _ _ _ => .putAlpha) hh)
    (checkRgba_no_panic hs h5 h6 hcn.1 hcn.2) (planarAlpha_no_panic hi)
    (c02_rgba_check_iff _ _ _ _ _ hs h5 h6 hcn.1 hcn.2) (c01_planar_alpha_check_iff i s hi)


/-- C05, 10- to 16-bit planar decode with alpha. -/
theorem c05_deep_alpha_decode_rejects (e : Endianness) (bp : BytesPacking) (d : Nat) (ch : Channels)
    (hch : ch = .rgba ∨ ch = .bgra) (s : Sampling)
    (hd : AlphaHandler) (hh : ∀ y u v a r, NoErr (hd y u v a r)) (i : PlanarAlpha) (rgba : Buf)
    (stride : Nat) (rg : YuvRange) (m : Matrix) (hi : PlanarAlphaU32 i) (hs : U32 stride) :
    ((∃ er, p16AlphaToRgb16 x64 e bp d ch s hd i rgba stride rg m = .err er) ↔
      ¬ (PlanarAlphaFits i s ∧ RgbFits rgba.length stride i.width i.height ch.count)) ∧
    ((∃ er, p16AlphaToRgb8 x64 e bp d ch s hd i rgba stride rg m = .err er) ↔
      ¬ (PlanarAlphaFits i s ∧ RgbFits rgba.length stride i.width i.height ch.count)) := by
  have hcn : 0 < ch.count ∧ ch.count ≤ 4 := by cases ch <;> decide
  have ha : ¬ ch.hasAlpha = false := by rcases hch with rfl | rfl <;> decide
  obtain ⟨_, _, _, _, h5, h6⟩ := id hi
  have hq : ∀ v, NoErr (p10Qrshr d v) := fun v => by unfold p10Qrshr; no_err
  unfold p16AlphaToRgb16 p16AlphaToRgb8
  rw [if_neg ha, if_neg ha]
  constructor
  · exact rejects_iff (.alphaFrame (fun _ _ _ _ _ => .putDeep fun _ => .qrshr) hh)
      (planarAlpha_no_panic hi) (checkRgba_no_panic hs h5 h6 hcn.1 hcn.2)
      (c01_planar_alpha_check_iff i s hi) (c02_rgba_check_iff _ _ _ _ _ hs h5 h6 hcn.1 hcn.2)
  · exact rejects_iff (.alphaFrame (fun _ _ _ _ _ => .putDeep hq) hh)
      (planarAlpha_no_panic hi) (checkRgba_no_panic hs h5 h6 hcn.1 hcn.2)
      (c01_planar_alpha_check_iff i s hi) (c02_rgba_check_iff _ _ _ _ _ hs h5 h6 hcn.1 hcn.2)

end Verif
