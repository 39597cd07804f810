import Verif.Lemmas.X86NvHandlers
import Verif.Props.NvDecode
import Verif.Props.X86Decode
/-!
# C56, C57, C58: 8-bit semi-planar YCbCr to RGB on x86 processors
-/
namespace Verif
open Spec X86

/-- The pixel the vector arithmetic gives at `(x, y)`. -/
abbrev nvVecPixel (o : NVOrder) (ch : Channels) (s : Sampling) (i : BiPlanar) (rg : YuvRange)
    (m : Matrix) (x y : Nat) : Buf :=
  vecPixel ch rg m (BiPlanar.Y i x y) (BiPlanar.U i s o x y) (BiPlanar.V i s o x y)

/-- The pixel at `(x, y)` on each class of processor. -/
def cpuNvPixel (cpu : Cpu) (o : NVOrder) (ch : Channels) (s : Sampling) (i : BiPlanar)
    (rg : YuvRange) (m : Matrix) (x y : Nat) : Buf :=
  match cpu with
  | .plain => nvPixel 13 o ch s i rg m x y
  | .avx2 => nvVecPixel o ch s i rg m x y
  | .sse41 => sseNvPixel (s = .yuv420 ∧ y ≠ 2 * (i.height / 2)) ch rg m i.width x
      (BiPlanar.Y i x y) (BiPlanar.U i s o x y) (BiPlanar.V i s o x y)

/-! ## C56 -/

theorem x86_nv_decode_rel (cpu : Cpu) (o : NVOrder) (ch : Channels) (s : Sampling) (i : BiPlanar)
    (rgba : Buf) (stride : Nat) (rg : YuvRange) (m : Matrix) (hi : GoodBiPlanar i s 256)
    (hdst : GoodDst rgba.length stride i.width i.height ch.count) :
    ∃ out, nvToRgbxOn cpu o ch s i rgba stride rg m = .ok out ∧
      FrameRel out rgba stride i.width i.height ch.count (fun x y p =>
        p = cpuNvPixel cpu o ch s i rg m x y) := by
  have hb : (getYuvRange 8 rg).biasUv = 128 := by cases rg <;> rfl
  have hby : (getYuvRange 8 rg).biasY < 256 := by cases rg <;> decide
  have hr := hi.rows
  have hcn := count_pos ch
  have hst : 0 < stride := Nat.lt_of_lt_of_le (Nat.mul_pos hr.wpos hcn) hdst.cols_le
  have p1 := putRow_ok (nvCfg .balanced) ch rg m
  have p2 := putTwoRow_ok (nvCfg .balanced) ch rg m
  have h1 := rowHandlerNV_fills (w := i.width) cpu o s ch hb hby (coef16_search rg m)
    (decodedPixel 13 8 ch rg m 255)
  have h2 := rowHandlerNV420_fills (w := i.width) cpu o ch hb hby (coef16_search rg m)
    (decodedPixel 13 8 ch rg m 255)
  have hU : ∀ x y, BiPlanar.U i s o x y
      = at' i.uv i.uvStride (2 * (x / hdiv s) + o.uPos) (y / vdiv s) := by
    intro x y; cases o <;> rfl
  have hV : ∀ x y, BiPlanar.V i s o x y
      = at' i.uv i.uvStride (2 * (x / hdiv s) + o.vPos) (y / vdiv s) := by
    intro x y; cases o <;> rfl
  have eq1 : ∀ x y, ¬ (s = .yuv420 ∧ y ≠ 2 * (i.height / 2)) →
      cpuNvRow cpu false ch (getYuvRange 8 rg) (searchInverse 13 8 rg m)
        (decodedPixel 13 8 ch rg m 255) i.width x (at' i.y i.yStride x y)
        (at' i.uv i.uvStride (2 * (x / hdiv s) + o.uPos) (y / vdiv s))
        (at' i.uv i.uvStride (2 * (x / hdiv s) + o.vPos) (y / vdiv s))
        = cpuNvPixel cpu o ch s i rg m x y := by
    intro x y hn
    rw [← hU, ← hV]
    cases cpu <;> simp only [cpuNvRow, cpuNvPixel, sseNvPixel, hn, decide_false, Bool.false_eq_true,
      if_false] <;> rfl
  have eq2 : ∀ x y, (s = .yuv420 ∧ y ≠ 2 * (i.height / 2)) →
      cpuNvRow cpu true ch (getYuvRange 8 rg) (searchInverse 13 8 rg m)
        (decodedPixel 13 8 ch rg m 255) i.width x (at' i.y i.yStride x y)
        (at' i.uv i.uvStride (2 * (x / hdiv s) + o.uPos) (y / vdiv s))
        (at' i.uv i.uvStride (2 * (x / hdiv s) + o.vPos) (y / vdiv s))
        = cpuNvPixel cpu o ch s i rg m x y := by
    intro x y hn
    rw [← hU, ← hV]
    cases cpu <;> simp only [cpuNvRow, cpuNvPixel, sseNvPixel, decide_eq_true hn, if_true] <;> rfl
  have fin : ∀ {oc : Outcome Buf} {P : Nat → Nat → Buf → Prop}, (∃ out, oc = .ok out ∧
      FrameRel out rgba stride i.width i.height ch.count P) →
      (∀ x y p, x < i.width → y < i.height → P x y p → p = cpuNvPixel cpu o ch s i rg m x y) →
      ∃ out, oc = .ok out ∧ FrameRel out rgba stride i.width i.height ch.count (fun x y p =>
          p = cpuNvPixel cpu o ch s i rg m x y) := by
    rintro oc P ⟨out, e, h⟩ hp
    exact ⟨out, e, h.1, fun x y hx hy => hp x y _ hx hy (h.2.1 x y hx hy), h.2.2⟩
  unfold nvToRgbxOn nvToRgbx nvToRgbxImpl
  rw [hdst.accepted hi.wpos hi.hpos hi.w32 hi.h32 hcn (count_le ch), hi.accepted]
  simp only [Outcome.bind_ok]
  cases s with
  | yuv444 =>
    exact fin ((nvDecode444_q hr hcn p1 h1 hdst.cols_le hdst.full).spec hcn hst hdst.cols_le
      hdst.full.1) fun x y p _ _ h => Eq.trans h (eq1 x y (by simp))
  | yuv422 =>
    exact fin ((nvDecode422_q hr hcn p1 h1 hdst.cols_le hdst.full).spec hcn hst hdst.cols_le
      hdst.full.1) fun x y p _ _ h => Eq.trans h (eq1 x y (by simp))
  | yuv420 =>
    refine fin ((nvDecode420_q hr hcn p1 p2 h1 h2 hdst.cols_le hdst.full).spec hcn hst hdst.cols_le
      hdst.full.1) fun x y p _ _ h => ?_
    by_cases hy : y = 2 * (i.height / 2)
    · rw [if_pos hy] at h
      exact Eq.trans h (eq1 x y (by simp [hy]))
    · rw [if_neg hy] at h
      exact Eq.trans h (eq2 x y ⟨rfl, hy⟩)

/-- C56: on every class of x86 processor the semi-planar decoders succeed on every good image and
destination — no load or store of the vector code leaves its slice or its stack buffer, whatever
the width, the strides, the order of the pair and the padding — and write exactly the pixels of the
image, each with a value determined by its samples, its column and (SSE4.1 4:2:0) whether its row is
one of a pair. -/
theorem c56_x86_nv_decode (cpu : Cpu) (o : NVOrder) (ch : Channels) (s : Sampling) (i : BiPlanar)
    (rgba : Buf) (stride : Nat) (rg : YuvRange) (m : Matrix) (hi : GoodBiPlanar i s 256)
    (hdst : GoodDst rgba.length stride i.width i.height ch.count) :
    ∃ out, nvToRgbxOn cpu o ch s i rgba stride rg m = .ok out ∧
      FrameSpec out rgba stride i.width i.height ch.count (cpuNvPixel cpu o ch s i rg m) := by
  obtain ⟨out, e, h⟩ := x86_nv_decode_rel cpu o ch s i rgba stride rg m hi hdst
  exact ⟨out, e, frameRel_eq h⟩

/-- C56: on AVX2 the scalar code is never reached: every pixel is the vector decoding of the samples
covering it. -/
theorem c56_avx2_nv_decode (o : NVOrder) (ch : Channels) (s : Sampling) (i : BiPlanar)
    (rgba : Buf) (stride : Nat) (rg : YuvRange) (m : Matrix) (hi : GoodBiPlanar i s 256)
    (hdst : GoodDst rgba.length stride i.width i.height ch.count) :
    ∃ out, nvToRgbxOn .avx2 o ch s i rgba stride rg m = .ok out ∧
      FrameSpec out rgba stride i.width i.height ch.count (nvVecPixel o ch s i rg m) :=
  c56_x86_nv_decode .avx2 o ch s i rgba stride rg m hi hdst

/-- C56: on AVX2 and without vector extensions a decoded pixel depends on the samples shown at it
only: not on its position, the size, the sampling, the order of the pairs, the strides, the padding
or the previous destination contents. -/
theorem c56_samples_only (cpu : Cpu) (hcpu : cpu ≠ .sse41) (ch : Channels) (s s' : Sampling)
    (o o' : NVOrder) (i j : BiPlanar) (dst dst' : Buf) (stride stride' : Nat) (rg : YuvRange)
    (m : Matrix) (hi : GoodBiPlanar i s 256) (hj : GoodBiPlanar j s' 256)
    (hdst : GoodDst dst.length stride i.width i.height ch.count)
    (hdst' : GoodDst dst'.length stride' j.width j.height ch.count) :
    ∃ out out', nvToRgbxOn cpu o ch s i dst stride rg m = .ok out ∧
      nvToRgbxOn cpu o' ch s' j dst' stride' rg m = .ok out' ∧
      ∀ x y x' y', x < i.width → y < i.height → x' < j.width → y' < j.height →
        BiPlanar.Y i x y = BiPlanar.Y j x' y' →
        BiPlanar.U i s o x y = BiPlanar.U j s' o' x' y' →
        BiPlanar.V i s o x y = BiPlanar.V j s' o' x' y' →
        pixelAt out stride ch.count x y = pixelAt out' stride' ch.count x' y' := by
  obtain ⟨out, e, h⟩ := x86_nv_decode_rel cpu o ch s i dst stride rg m hi hdst
  obtain ⟨out', e', h'⟩ := x86_nv_decode_rel cpu o' ch s' j dst' stride' rg m hj hdst'
  refine ⟨out, out', e, e', fun x y x' y' hx hy hx' hy' a b c => ?_⟩
  rw [h.2.1 x y hx hy, h'.2.1 x' y' hx' hy']
  cases cpu with
  | plain => simp only [cpuNvPixel, nvPixel, a, b, c]
  | avx2 => simp only [cpuNvPixel, nvVecPixel, a, b, c]
  | sse41 => exact absurd rfl hcpu

/-- Without vector extensions the decoder is that of C17. -/
theorem c56_plain_is_scalar (o : NVOrder) (ch : Channels) (s : Sampling) (i : BiPlanar) (rgba : Buf)
    (stride : Nat) (rg : YuvRange) (m : Matrix) :
    nvToRgbxOn .plain o ch s i rgba stride rg m =
      nvToRgbx x64 .balanced o ch s noSimdNV noSimdNV420 i rgba stride rg m := by
  have e : ∀ c t w, rowHandlerNV .plain o s ch c t w = noSimdNV := by
    intro c t w; cases s <;> rfl
  have e2 : ∀ c t w, rowHandlerNV420 .plain o s ch c t w = noSimdNV420 := by
    intro c t w; cases s <;> rfl
  unfold nvToRgbxOn
  simp only [e, e2]

/-! ## C57: layouts agree -/

/-- The samples shown at a pixel are the same in both layouts. -/
theorem SamePicture.samples {i : BiPlanar} {o : NVOrder} {j : Planar} {s : Sampling}
    (h : SamePicture i o j s) (hwp : 0 < i.width) (hhp : 0 < i.height) {x y : Nat}
    (hx : x < i.width) (hy : y < i.height) :
    BiPlanar.Y i x y = Planar.Y j x y ∧ BiPlanar.U i s o x y = Planar.U j s x y ∧
      BiPlanar.V i s o x y = Planar.V j s x y := by
  obtain ⟨_, _, hY, hC⟩ := h
  have cx : x / hdiv s < cover i.width (hdiv s) := by
    rw [cover_hdiv hwp]; exact div_hdiv_lt hx
  have cy : y / vdiv s < cover i.height (vdiv s) := by
    rw [cover_vdiv hhp]; exact div_vdiv_lt hy
  have h2 := hC _ _ cx cy
  refine ⟨hY x y hx hy, ?_⟩
  unfold Planar.U Planar.V
  cases o
  · simp only [BiPlanar.U, BiPlanar.V, BiPlanar.C, Nat.add_zero] at h2 ⊢
    exact ⟨h2.1, h2.2⟩
  · simp only [BiPlanar.U, BiPlanar.V, BiPlanar.C, Nat.add_zero] at h2 ⊢
    exact ⟨h2.2, h2.1⟩

/-- C57, what holds: on a processor with AVX2 and on one without vector extensions, a semi-planar
image (either order) and the planar image with the same samples decode to identical bytes, at every
sampling.  Missing: SSE4.1, where the claim is false. -/
theorem c57_nv_planar_agree_partial (cpu : Cpu) (hcpu : cpu ≠ .sse41) (o : NVOrder) (ch : Channels)
    (s : Sampling) (i : BiPlanar) (j : Planar) (rgba : Buf) (stride : Nat) (rg : YuvRange)
    (m : Matrix) (hi : GoodBiPlanar i s 256) (hj : GoodPlanar j s 256) (hsame : SamePicture i o j s)
    (hdst : GoodDst rgba.length stride i.width i.height ch.count) :
    ∃ out, nvToRgbxOn cpu o ch s i rgba stride rg m = .ok out ∧
      yuvToRgbxOn cpu ch s j rgba stride rg m = .ok out := by
  obtain ⟨out, e, h⟩ := x86_nv_decode_rel cpu o ch s i rgba stride rg m hi hdst
  have hdst' := hdst
  rw [hsame.1, hsame.2.1] at hdst'
  obtain ⟨out', e', h'⟩ := x86_decode_rel cpu ch s j rgba stride rg m hj hdst'
  refine ⟨out, e, ?_⟩
  rw [e']
  congr 1
  refine frameSpec_unique (frameRel_eq h') ?_
  rw [← hsame.1, ← hsame.2.1]
  refine frameRel_eq ⟨h.1, fun x y hx hy => ?_, h.2.2⟩
  rw [h.2.1 x y hx hy]
  obtain ⟨a, b, c⟩ := hsame.samples hi.wpos hi.hpos hx hy
  cases cpu with
  | plain => simp only [cpuNvPixel, cpuPixel, nvPixel, planarPixel, a, b, c]
  | avx2 => simp only [cpuNvPixel, cpuPixel, nvVecPixel, planarVecPixel, a, b, c]
  | sse41 => exact absurd rfl hcpu

/-- C57 on SSE4.1, what holds: the layouts agree in the columns of the 16-pixel steps. -/
theorem c57_sse_wide_columns_agree (o : NVOrder) (ch : Channels)
    (s : Sampling) (i : BiPlanar) (j : Planar) (rgba : Buf) (stride : Nat) (rg : YuvRange)
    (m : Matrix) (hi : GoodBiPlanar i s 256) (hj : GoodPlanar j s 256) (hsame : SamePicture i o j s)
    (hdst : GoodDst rgba.length stride i.width i.height ch.count) :
    ∃ out out', nvToRgbxOn .sse41 o ch s i rgba stride rg m = .ok out ∧
      yuvToRgbxOn .sse41 ch s j rgba stride rg m = .ok out' ∧
      ∀ x y, x < 16 * ((i.width - 1) / 16) → y < i.height →
        pixelAt out stride ch.count x y = pixelAt out' stride ch.count x y := by
  obtain ⟨out, e, h⟩ := x86_nv_decode_rel .sse41 o ch s i rgba stride rg m hi hdst
  rw [hsame.1, hsame.2.1] at hdst
  obtain ⟨out', e', h'⟩ := x86_decode_rel .sse41 ch s j rgba stride rg m hj hdst
  refine ⟨out, out', e, e', fun x y hx hy => ?_⟩
  have hx' : x < i.width := by omega
  obtain ⟨a, b, c⟩ := hsame.samples hi.wpos hi.hpos hx' hy
  rw [h.2.1 x y hx' hy, h'.2.1 x y (hsame.1 ▸ hx') (hsame.2.1 ▸ hy)]
  simp only [cpuNvPixel, cpuPixel, sseNvPixel, ssePixel, a, b, c]
  rw [if_pos hx, if_pos (by rw [← hsame.1]; exact hx)]

/-- C57: on every class of processor, swapping the two elements of every chroma pair and reading the
image in the other order (NV12 as NV21, …) gives identical bytes. -/
theorem c57_nv21_is_swapped_nv12 (cpu : Cpu) (ch : Channels) (s : Sampling) (i j : BiPlanar)
    (rgba : Buf) (stride : Nat) (rg : YuvRange) (m : Matrix) (hi : GoodBiPlanar i s 256)
    (hj : GoodBiPlanar j s 256) (hw : i.width = j.width) (hh : i.height = j.height)
    (hY : ∀ x y, x < i.width → y < i.height → at' i.y i.yStride x y = at' j.y j.yStride x y)
    (hC : ∀ cx cy, cx < cover i.width (hdiv s) → cy < cover i.height (vdiv s) →
      at' i.uv i.uvStride (2 * cx) cy = at' j.uv j.uvStride (2 * cx + 1) cy ∧
      at' i.uv i.uvStride (2 * cx + 1) cy = at' j.uv j.uvStride (2 * cx) cy)
    (hdst : GoodDst rgba.length stride i.width i.height ch.count) :
    ∃ out, nvToRgbxOn cpu .uv ch s i rgba stride rg m = .ok out ∧
      nvToRgbxOn cpu .vu ch s j rgba stride rg m = .ok out := by
  obtain ⟨out, e, h⟩ := x86_nv_decode_rel cpu .uv ch s i rgba stride rg m hi hdst
  rw [hw, hh] at hdst
  obtain ⟨out', e', h'⟩ := x86_nv_decode_rel cpu .vu ch s j rgba stride rg m hj hdst
  refine ⟨out, e, ?_⟩
  rw [e']
  congr 1
  refine frameSpec_unique (frameRel_eq h') ?_
  rw [← hw, ← hh]
  refine frameRel_eq ⟨h.1, fun x y hx hy => ?_, h.2.2⟩
  rw [h.2.1 x y hx hy]
  have cx : x / hdiv s < cover i.width (hdiv s) := by
    rw [cover_hdiv hi.wpos]; exact div_hdiv_lt hx
  have cy : y / vdiv s < cover i.height (vdiv s) := by
    rw [cover_vdiv hi.hpos]; exact div_vdiv_lt hy
  have a : BiPlanar.Y i x y = BiPlanar.Y j x y := hY x y hx hy
  have bc : BiPlanar.U i s .uv x y = BiPlanar.U j s .vu x y ∧
      BiPlanar.V i s .uv x y = BiPlanar.V j s .vu x y := by
    have h2 := hC _ _ cx cy
    simp only [BiPlanar.U, BiPlanar.V, BiPlanar.C, Nat.add_zero] at h2 ⊢
    exact h2
  cases cpu <;> simp only [cpuNvPixel, nvPixel, nvVecPixel, a, bc.1, bc.2, hw, hh]

/-- A 2×2 image of one color, luma 100 and Cb 200, in both layouts. -/
def blueNV : BiPlanar := ⟨[100, 100, 100, 100], 2, [200, 128], 2, 2, 2⟩
/-- See `blueNV`. -/
def bluePlanar : Planar := ⟨[100, 100, 100, 100], 2, [200], 1, [128], 1, 2, 2⟩

theorem blueNV_good : GoodBiPlanar blueNV .yuv420 256 where
  wpos := by decide
  hpos := by decide
  w32 := by unfold U32; decide
  h32 := by unfold U32; decide
  y := ⟨by unfold U32; decide, by decide, by unfold FullRows; decide, by decide⟩
  uvStride32 := by unfold U32; decide
  uvStride := by decide
  uvLen := by decide
  uvBound := by decide

/-- C57 fails on SSE4.1: the color decodes with blue 243 from the planar layout and 213 from NV12
(exact: 243.1), because the last columns of NV12 row pairs scale Cb with the coefficient of Cr. -/
theorem c57_sse_nv12_wrong_blue :
    SamePicture blueNV .uv bluePlanar .yuv420 ∧
    yuvToRgbxOn .sse41 .rgb .yuv420 bluePlanar (List.replicate 12 0) 6 .limited .bt601 =
      .ok [98, 70, 243, 98, 70, 243, 98, 70, 243, 98, 70, 243] ∧
    nvToRgbxOn .avx2 .uv .rgb .yuv420 blueNV (List.replicate 12 0) 6 .limited .bt601 =
      .ok [98, 70, 244, 98, 70, 244, 98, 70, 244, 98, 70, 244] ∧
    nvToRgbxOn .sse41 .uv .rgb .yuv420 blueNV (List.replicate 12 0) 6 .limited .bt601 =
      .ok [98, 70, 213, 98, 70, 213, 98, 70, 213, 98, 70, 213] := by
  refine ⟨⟨rfl, rfl, fun x y _ _ => rfl, ?_⟩, ?_, ?_, ?_⟩
  · intro cx cy hcx hcy
    have h1 : cover blueNV.width (hdiv .yuv420) = 1 := by decide
    have h2 : cover blueNV.height (vdiv .yuv420) = 1 := by decide
    obtain rfl : cx = 0 := by omega
    obtain rfl : cy = 0 := by omega
    decide
  · decide +kernel
  · decide +kernel
  · decide +kernel

/-! ## C58: processors agree -/

/-- The pixel on each class of processor, when the 8-pixel steps of the SSE4.1 kernel for 4:2:0 row
pairs are not reached. -/
theorem cpuNvPixel_cases {cpu : Cpu} {o : NVOrder} {ch : Channels} {s : Sampling} {i : BiPlanar}
    {rg : YuvRange} {m : Matrix} {x y : Nat}
    (hx : cpu = .sse41 → s = .yuv420 → x < 16 * ((i.width - 1) / 16)) :
    cpuNvPixel cpu o ch s i rg m x y = nvPixel 13 o ch s i rg m x y ∨
    cpuNvPixel cpu o ch s i rg m x y = nvVecPixel o ch s i rg m x y ∨
    (cpu = .sse41 ∧ cpuNvPixel cpu o ch s i rg m x y = vecPixelSigned ch rg m (BiPlanar.Y i x y)
      (BiPlanar.U i s o x y) (BiPlanar.V i s o x y)) := by
  cases cpu
  · exact .inr (.inl rfl)
  · unfold cpuNvPixel sseNvPixel
    simp only
    split
    · exact .inr (.inl rfl)
    · rename_i hge
      rw [if_neg (by
        simp only [decide_eq_true_eq]
        rintro ⟨hs, _⟩
        exact hge (hx rfl hs))]
      exact .inr (.inr ⟨trivial, rfl⟩)
  · exact .inl rfl

/-- C58, what holds: two processors of whatever class decode a semi-planar image whose luma is not
below black — and, for SSE4.1 in limited range, does not lie in 128…143 — to pixels whose red and
blue differ by at most two code values and whose green differs by at most three, in every column for
4:2:2 and 4:4:4 and, when one of them is SSE4.1 and the image is 4:2:0, in the columns of the
16-pixel steps; they write the same area.  Missing: luma below black, those luma values and the last
columns of 4:2:0 images on SSE4.1, where the claim is false. -/
theorem c58_nv_cpu_agreement_partial (cpu cpu' : Cpu) (o : NVOrder) (ch : Channels) (s : Sampling)
    (i : BiPlanar) (dst : Buf) (stride : Nat) (rg : YuvRange) (m : Matrix)
    (hi : GoodBiPlanar i s 256) (hdst : GoodDst dst.length stride i.width i.height ch.count)
    (hblack : ∀ x y, x < i.width → y < i.height → (getYuvRange 8 rg).biasY ≤ BiPlanar.Y i x y)
    (hsse : (cpu = .sse41 ∨ cpu' = .sse41) → rg = .limited →
      ∀ x y, x < i.width → y < i.height → BiPlanar.Y i x y < 128 ∨ 144 ≤ BiPlanar.Y i x y) :
    ∃ out out', nvToRgbxOn cpu o ch s i dst stride rg m = .ok out ∧
      nvToRgbxOn cpu' o ch s i dst stride rg m = .ok out' ∧
      (∀ x y, x < i.width → y < i.height →
        ((cpu = .sse41 ∨ cpu' = .sse41) → s = .yuv420 → x < 16 * ((i.width - 1) / 16)) →
        PixelsClose ch (pixelAt out stride ch.count x y) (pixelAt out' stride ch.count x y)) ∧
      (∀ k, ¬ InFrame stride i.width i.height ch.count k → out[k]? = dst[k]? ∧ out'[k]? = dst[k]?) := by
  obtain ⟨out, e, h⟩ := x86_nv_decode_rel cpu o ch s i dst stride rg m hi hdst
  obtain ⟨out', e', h'⟩ := x86_nv_decode_rel cpu' o ch s i dst stride rg m hi hdst
  refine ⟨out, out', e, e', fun x y hx hy hcol => ?_, fun k hk => ⟨h.2.2 k hk, h'.2.2 k hk⟩⟩
  obtain ⟨b1, b2, b3⟩ := hi.sample_lt (o := o) hx hy
  have hbk := hblack x y hx hy
  have hs : (cpu = .sse41 ∨ cpu' = .sse41) →
      vecPixelSigned ch rg m (BiPlanar.Y i x y) (BiPlanar.U i s o x y) (BiPlanar.V i s o x y) =
        nvVecPixel o ch s i rg m x y := by
    intro hc
    unfold nvVecPixel vecPixel vecPixelSigned
    rw [signedLuma_eq b1]
    rintro rfl
    exact ⟨hbk, hsse hc rfl x y hx hy⟩
  have key : PixelsClose ch (nvVecPixel o ch s i rg m x y) (nvPixel 13 o ch s i rg m x y) :=
    scalar_vec_close ch rg m b1 b2 b3 hbk
  have r1 : PixelsClose ch (nvPixel 13 o ch s i rg m x y) (nvPixel 13 o ch s i rg m x y) := by
    obtain ⟨_, _, _, _, _, _, _, eq, _⟩ := key
    rw [eq]; exact PixelsClose.refl ..
  have r2 : PixelsClose ch (nvVecPixel o ch s i rg m x y) (nvVecPixel o ch s i rg m x y) :=
    PixelsClose.refl ..
  have norm : ∀ c, (c = cpu ∨ c = cpu') →
      cpuNvPixel c o ch s i rg m x y = nvPixel 13 o ch s i rg m x y ∨
      cpuNvPixel c o ch s i rg m x y = nvVecPixel o ch s i rg m x y := by
    intro c hc
    have hc2 : c = .sse41 → (cpu = .sse41 ∨ cpu' = .sse41) := by
      intro hh
      rcases hc with hc | hc
      · exact .inl (hc ▸ hh)
      · exact .inr (hc ▸ hh)
    rcases cpuNvPixel_cases (o := o) (ch := ch) (rg := rg) (m := m) (y := y)
      (fun h1 h2 => hcol (hc2 h1) h2) with hp | hp | ⟨hc', hp⟩
    · exact .inl hp
    · exact .inr hp
    · exact .inr (hp.trans (hs (hc2 hc')))
  rw [h.2.1 x y hx hy, h'.2.1 x y hx hy]
  rcases norm cpu (.inl rfl) with a | a <;> rcases norm cpu' (.inr rfl) with b | b <;> rw [a, b]
  · exact r1
  · exact key.symm
  · exact key
  · exact r2

/-- C58 against the standard, what holds: every pixel whose luma is not below black is within 2.45
code values (green: 3.05) of the saturated exact ITU-R result — on SSE4.1 provided limited-range luma
does not lie in 128…143 and, for 4:2:0, in the columns of the 16-pixel steps.  Missing: those pixels,
where the claim is false. -/
theorem c58_nv_accuracy_partial (cpu : Cpu) (o : NVOrder) (ch : Channels)
    (s : Sampling) (i : BiPlanar) (dst : Buf) (stride : Nat) (rg : YuvRange) (m : Matrix)
    (hi : GoodBiPlanar i s 256) (hdst : GoodDst dst.length stride i.width i.height ch.count) :
    ∃ out, nvToRgbxOn cpu o ch s i dst stride rg m = .ok out ∧
      ∀ x y, x < i.width → y < i.height → (getYuvRange 8 rg).biasY ≤ BiPlanar.Y i x y →
        (cpu = .sse41 → rg = .limited → BiPlanar.Y i x y < 128 ∨ 144 ≤ BiPlanar.Y i x y) →
        (cpu = .sse41 → s = .yuv420 → x < 16 * ((i.width - 1) / 16)) →
        ∃ r g b : Nat, pixelAt out stride ch.count x y = layout ch r g b 255 ∧
        let Y : Rat := BiPlanar.Y i x y
        let U : Rat := BiPlanar.U i s o x y
        let V : Rat := BiPlanar.V i s o x y
        |(r : Rat) - satQ 8 (exactR 8 rg m Y U V)| ≤ 49 / 20 ∧
        |(g : Rat) - satQ 8 (exactG 8 rg m Y U V)| ≤ 61 / 20 ∧
        |(b : Rat) - satQ 8 (exactB 8 rg m Y U V)| ≤ 49 / 20 := by
  obtain ⟨out, e, h⟩ := x86_nv_decode_rel cpu o ch s i dst stride rg m hi hdst
  refine ⟨out, e, fun x y hx hy hbk hsse hcol => ?_⟩
  obtain ⟨b1, b2, b3⟩ := hi.sample_lt (o := o) hx hy
  obtain ⟨k1, k2, k3⟩ := vecRGB_close rg m b1 b2 b3
  have hm : max (BiPlanar.Y i x y : Rat) ((getYuvRange 8 rg).biasY : Rat) = BiPlanar.Y i x y :=
    max_eq_left (by exact_mod_cast hbk)
  rw [hm] at k1 k2 k3
  rw [h.2.1 x y hx hy]
  rcases cpuNvPixel_cases (o := o) (ch := ch) (s := s) (i := i) (rg := rg) (m := m) (x := x) (y := y)
    hcol with a | a | ⟨hc, a⟩
  · obtain ⟨r, g, b, e1, a1, a2, a3⟩ := decodeRGB_close rg m b1 b2 b3
    refine ⟨r, g, b, ?_, le_trans a1 (by norm_num), le_trans a2 (by norm_num),
      le_trans a3 (by norm_num)⟩
    rw [a]; unfold nvPixel decodedPixel; simp only [e1]
  · exact ⟨_, _, _, a, k1, k2, k3⟩
  · have hs : vecPixelSigned ch rg m (BiPlanar.Y i x y) (BiPlanar.U i s o x y) (BiPlanar.V i s o x y) =
        nvVecPixel o ch s i rg m x y := by
      unfold nvVecPixel vecPixel vecPixelSigned
      rw [signedLuma_eq b1]
      rintro rfl
      exact ⟨hbk, hsse hc rfl⟩
    exact ⟨_, _, _, a.trans hs, k1, k2, k3⟩

/-- C58 fails on SSE4.1 for NV12: the color of `c57_sse_nv12_wrong_blue` has blue 213 there and 243
on a processor without vector extensions. -/
theorem c58_sse_nv12_differs :
    nvToRgbxOn .plain .uv .rgb .yuv420 blueNV (List.replicate 12 0) 6 .limited .bt601 =
      .ok [98, 70, 243, 98, 70, 243, 98, 70, 243, 98, 70, 243] ∧
    nvToRgbxOn .sse41 .uv .rgb .yuv420 blueNV (List.replicate 12 0) 6 .limited .bt601 =
      .ok [98, 70, 213, 98, 70, 213, 98, 70, 213, 98, 70, 213] := by
  constructor <;> decide +kernel

/-- The hypotheses of C56–C58 are met by `demoNV12` (odd size, padded luma plane, luma not below
black) and by `blueNV`, whose luma avoids the values excluded for SSE4.1. -/
example : GoodBiPlanar demoNV12 .yuv420 256 ∧
    (∀ x, x < 3 → ∀ y, y < 3 → 16 ≤ BiPlanar.Y demoNV12 x y) ∧
    GoodDst (List.replicate 33 7).length 11 3 3 3 :=
  ⟨demoNV12_good, by decide, by unfold U32; decide, by decide, by unfold FullRows; decide, by decide⟩
example : GoodBiPlanar blueNV .yuv420 256 ∧ GoodDst (List.replicate 12 0).length 6 2 2 3 ∧
    ∀ x, x < 2 → ∀ y, y < 2 → 16 ≤ BiPlanar.Y blueNV x y ∧ BiPlanar.Y blueNV x y < 128 :=
  ⟨blueNV_good, ⟨by unfold U32; decide, by decide, by unfold FullRows; decide, by decide⟩,
    by decide⟩

end Verif
