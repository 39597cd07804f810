import Verif.Lemmas.X86NvFast
import Verif.Props.NvDecode
import Verif.Props.X86NvDecode
/-!
# C100–C103: 8-bit semi-planar YCbCr to RGB in the professional and fast modes on x86 processors
-/
namespace Verif
open Spec X86

/-- The professional pixel at `(x, y)` on each class of processor. -/
def profNvPixel (cpu : Cpu) (o : NVOrder) (ch : Channels) (s : Sampling) (i : BiPlanar)
    (rg : YuvRange) (m : Matrix) (x y : Nat) : Buf :=
  match cpu with
  | .plain => nvPixel 14 o ch s i rg m x y
  | _ => profDecodedPixel ch rg m (BiPlanar.Y i x y) (BiPlanar.U i s o x y) (BiPlanar.V i s o x y)

/-- The fast pixel at `(x, y)` on each class of processor. -/
def fastNvPixel (cpu : Cpu) (o : NVOrder) (ch : Channels) (s : Sampling) (i : BiPlanar)
    (rg : YuvRange) (m : Matrix) (x y : Nat) : Buf :=
  match cpu with
  | .plain => nvPixel 6 o ch s i rg m x y
  | _ => fastDecodedPixel ch rg m (BiPlanar.Y i x y) (BiPlanar.U i s o x y) (BiPlanar.V i s o x y)

/-- A decoder whose kernels, of single rows and of pairs of rows, are right. -/
theorem nv_kernels_rel {K K2 : NvKernel} (md : Mode) {val : Nat → Nat → Nat → Nat × Nat × Nat} (o : NVOrder)
    (ch : Channels) (s : Sampling) (i : BiPlanar) (rgba : Buf) (stride : Nat) (rg : YuvRange) (m : Matrix)
    (hK : K.Ok (getYuvRange 8 rg) (searchInverse (nvDecodePrecision md) 8 rg m) val)
    (hK2 : K2.Ok (getYuvRange 8 rg) (searchInverse (nvDecodePrecision md) 8 rg m) val)
    (hi : GoodBiPlanar i s 256) (hdst : GoodDst rgba.length stride i.width i.height ch.count) :
    ∃ out, nvToRgbx x64 md o ch s
        (K.handler o s ch (getYuvRange 8 rg) (searchInverse (nvDecodePrecision md) 8 rg m) i.width)
        (K2.handler420 o s ch (getYuvRange 8 rg) (searchInverse (nvDecodePrecision md) 8 rg m) i.width)
        i rgba stride rg m = .ok out ∧
      FrameRel out rgba stride i.width i.height ch.count (fun x y p =>
        p = pxOf ch val (BiPlanar.Y i x y) (BiPlanar.U i s o x y) (BiPlanar.V i s o x y)) := by
  have hr := hi.rows
  have hcn := count_pos ch
  have hst : 0 < stride := Nat.lt_of_lt_of_le (Nat.mul_pos hr.wpos hcn) hdst.cols_le
  have p1 := putRow_ok (nvCfg md) ch rg m
  have p2 := putTwoRow_ok (nvCfg md) ch rg m
  have h1 := NvKernel.handler_fills hK o s ch (w := i.width)
    (decodedPixel (nvDecodePrecision md) 8 ch rg m 255)
  have h2 := NvKernel.handler420_fills hK2 o ch (w := i.width)
    (decodedPixel (nvDecodePrecision md) 8 ch rg m 255)
  have hU : ∀ x y, BiPlanar.U i s o x y
      = at' i.uv i.uvStride (2 * (x / hdiv s) + o.uPos) (y / vdiv s) := by
    intro x y; cases o <;> rfl
  have hV : ∀ x y, BiPlanar.V i s o x y
      = at' i.uv i.uvStride (2 * (x / hdiv s) + o.vPos) (y / vdiv s) := by
    intro x y; cases o <;> rfl
  have fin : ∀ {oc : Outcome Buf} {P : Nat → Nat → Buf → Prop}, (∃ out, oc = .ok out ∧
      FrameRel out rgba stride i.width i.height ch.count P) →
      (∀ x y p, x < i.width → y < i.height → P x y p →
        p = pxOf ch val (at' i.y i.yStride x y)
          (at' i.uv i.uvStride (2 * (x / hdiv s) + o.uPos) (y / vdiv s))
          (at' i.uv i.uvStride (2 * (x / hdiv s) + o.vPos) (y / vdiv s))) →
      ∃ out, oc = .ok out ∧ FrameRel out rgba stride i.width i.height ch.count (fun x y p =>
          p = pxOf ch val (BiPlanar.Y i x y) (BiPlanar.U i s o x y) (BiPlanar.V i s o x y)) := by
    rintro oc P ⟨out, e, h⟩ hp
    refine ⟨out, e, h.1, fun x y hx hy => ?_, h.2.2⟩
    show _ = _
    rw [hU, hV]
    exact hp x y _ hx hy (h.2.1 x y hx hy)
  unfold nvToRgbx nvToRgbxImpl
  rw [hdst.accepted hi.wpos hi.hpos hi.w32 hi.h32 hcn (count_le ch), hi.accepted]
  simp only [Outcome.bind_ok]
  cases s with
  | yuv444 =>
    exact fin ((nvDecode444_q hr hcn p1 h1 hdst.cols_le hdst.full).spec hcn hst hdst.cols_le
      hdst.full.1) fun x y p _ _ h => h
  | yuv422 =>
    exact fin ((nvDecode422_q hr hcn p1 h1 hdst.cols_le hdst.full).spec hcn hst hdst.cols_le
      hdst.full.1) fun x y p _ _ h => h
  | yuv420 =>
    refine fin ((nvDecode420_q hr hcn p1 p2 h1 h2 hdst.cols_le hdst.full).spec hcn hst hdst.cols_le
      hdst.full.1) fun x y p _ _ h => ?_
    by_cases hy : y = 2 * (i.height / 2)
    · rw [if_pos hy] at h
      exact h
    · rw [if_neg hy] at h
      exact h

/-- A decoder whose kernel is right. -/
theorem nv_kernel_rel {K : NvKernel} (md : Mode) {val : Nat → Nat → Nat → Nat × Nat × Nat} (o : NVOrder)
    (ch : Channels) (s : Sampling) (i : BiPlanar) (rgba : Buf) (stride : Nat) (rg : YuvRange) (m : Matrix)
    (hK : K.Ok (getYuvRange 8 rg) (searchInverse (nvDecodePrecision md) 8 rg m) val)
    (hi : GoodBiPlanar i s 256) (hdst : GoodDst rgba.length stride i.width i.height ch.count) :
    ∃ out, nvToRgbxWith (some K) md o ch s i rgba stride rg m = .ok out ∧
      FrameRel out rgba stride i.width i.height ch.count (fun x y p =>
        p = pxOf ch val (BiPlanar.Y i x y) (BiPlanar.U i s o x y) (BiPlanar.V i s o x y)) :=
  nv_kernels_rel md o ch s i rgba stride rg m hK hK hi hdst

theorem range_bias (rg : YuvRange) : (getYuvRange 8 rg).biasUv = 128 ∧ (getYuvRange 8 rg).biasY < 256 := by
  cases rg <;> exact ⟨by decide, by decide⟩

/-! ## C100: professional mode -/

/-- Without vector code. -/
theorem nv_plain_rel (md : Mode) (o : NVOrder) (ch : Channels) (s : Sampling) (i : BiPlanar)
    (rgba : Buf) (stride : Nat) (rg : YuvRange) (m : Matrix) (hi : GoodBiPlanar i s 256)
    (hdst : GoodDst rgba.length stride i.width i.height ch.count) :
    ∃ out, nvToRgbxWith none md o ch s i rgba stride rg m = .ok out ∧
      FrameRel out rgba stride i.width i.height ch.count (fun x y p =>
        p = nvPixel (nvDecodePrecision md) o ch s i rg m x y) := by
  obtain ⟨out, e, h⟩ := c17_nv_decode md o ch s i rgba stride rg m hi hdst
    (ExactVecP (nvDecodePrecision md) ch rg m) noSimdNV noSimdNV420 noSimdNV_ok noSimdNV420_ok
  refine ⟨out, e, h.1, fun x y hx hy => ?_, h.2.2⟩
  rcases h.2.1 x y hx hy with h | h <;> exact h

theorem prof_nv_rel (cpu : Cpu) (o : NVOrder) (ch : Channels) (s : Sampling) (i : BiPlanar)
    (rgba : Buf) (stride : Nat) (rg : YuvRange) (m : Matrix) (hi : GoodBiPlanar i s 256)
    (hdst : GoodDst rgba.length stride i.width i.height ch.count) :
    ∃ out, nvToRgbxProfOn cpu o ch s i rgba stride rg m = .ok out ∧
      FrameRel out rgba stride i.width i.height ch.count (fun x y p =>
        p = profNvPixel cpu o ch s i rg m x y) := by
  obtain ⟨hb, hby⟩ := range_bias rg
  cases cpu with
  | plain => exact nv_plain_rel .professional o ch s i rgba stride rg m hi hdst
  | avx2 =>
    exact nv_kernel_rel .professional o ch s i rgba stride rg m
      (avx2NvProf_ok (profFits_search rg m) hb hby) hi hdst
  | sse41 =>
    exact nv_kernel_rel .professional o ch s i rgba stride rg m
      (sseNvProf_ok (profFits_search rg m) hb hby) hi hdst

theorem fast_nv_rel (cpu : Cpu) (o : NVOrder) (ch : Channels) (s : Sampling) (i : BiPlanar)
    (rgba : Buf) (stride : Nat) (rg : YuvRange) (m : Matrix) (hi : GoodBiPlanar i s 256)
    (hdst : GoodDst rgba.length stride i.width i.height ch.count) :
    ∃ out, nvToRgbxFastOn cpu o ch s i rgba stride rg m = .ok out ∧
      FrameRel out rgba stride i.width i.height ch.count (fun x y p =>
        p = fastNvPixel cpu o ch s i rg m x y) := by
  obtain ⟨hb, hby⟩ := range_bias rg
  cases cpu with
  | plain => exact nv_plain_rel .fast o ch s i rgba stride rg m hi hdst
  | avx2 =>
    exact nv_kernel_rel .fast o ch s i rgba stride rg m
      (avx2NvFast_ok (nvFastFits_search rg m) hb hby) hi hdst
  | sse41 =>
    exact nv_kernel_rel .fast o ch s i rgba stride rg m
      (sseNvFast_ok (nvFastFits_search rg m) hb hby) hi hdst

/-- C100: on every class of x86 processor the semi-planar decoders of the professional mode succeed on
every good image and destination — no load or store of the vector code leaves its slice or its stack
buffer — and write exactly the pixels of the image, each the decoding of precision 14 of the samples
shown there; with vector extensions luma below black counts as black and the coefficient of red is
reduced to 16 bits. -/
theorem c100_x86_prof_nv_decode (cpu : Cpu) (o : NVOrder) (ch : Channels) (s : Sampling) (i : BiPlanar)
    (rgba : Buf) (stride : Nat) (rg : YuvRange) (m : Matrix) (hi : GoodBiPlanar i s 256)
    (hdst : GoodDst rgba.length stride i.width i.height ch.count) :
    ∃ out, nvToRgbxProfOn cpu o ch s i rgba stride rg m = .ok out ∧
      FrameSpec out rgba stride i.width i.height ch.count (profNvPixel cpu o ch s i rg m) := by
  obtain ⟨out, e, h⟩ := prof_nv_rel cpu o ch s i rgba stride rg m hi hdst
  exact ⟨out, e, frameRel_eq h⟩

/-- The samples of an image and of the image with the pairs swapped, read in the other order. -/
theorem swapped_samples {s : Sampling} {i j : BiPlanar} (hi : GoodBiPlanar i s 256)
    (hC : ∀ cx cy, cx < cover i.width (hdiv s) → cy < cover i.height (vdiv s) →
      at' i.uv i.uvStride (2 * cx) cy = at' j.uv j.uvStride (2 * cx + 1) cy ∧
      at' i.uv i.uvStride (2 * cx + 1) cy = at' j.uv j.uvStride (2 * cx) cy)
    {x y : Nat} (hx : x < i.width) (hy : y < i.height) :
    BiPlanar.U i s .uv x y = BiPlanar.U j s .vu x y ∧ BiPlanar.V i s .uv x y = BiPlanar.V j s .vu x y := by
  have cx : x / hdiv s < cover i.width (hdiv s) := by
    rw [cover_hdiv hi.wpos]; exact div_hdiv_lt hx
  have cy : y / vdiv s < cover i.height (vdiv s) := by
    rw [cover_vdiv hi.hpos]; exact div_vdiv_lt hy
  have h2 := hC _ _ cx cy
  simp only [BiPlanar.U, BiPlanar.V, BiPlanar.C, Nat.add_zero] at h2 ⊢
  exact h2

/-- C100: swapping the two elements of every chroma pair and reading the image in the other order
(NV12 as NV21, …) gives identical bytes. -/
theorem c100_nv21_is_swapped_nv12 (cpu : Cpu) (ch : Channels) (s : Sampling) (i j : BiPlanar)
    (rgba : Buf) (stride : Nat) (rg : YuvRange) (m : Matrix) (hi : GoodBiPlanar i s 256)
    (hj : GoodBiPlanar j s 256) (hw : i.width = j.width) (hh : i.height = j.height)
    (hY : ∀ x y, x < i.width → y < i.height → at' i.y i.yStride x y = at' j.y j.yStride x y)
    (hC : ∀ cx cy, cx < cover i.width (hdiv s) → cy < cover i.height (vdiv s) →
      at' i.uv i.uvStride (2 * cx) cy = at' j.uv j.uvStride (2 * cx + 1) cy ∧
      at' i.uv i.uvStride (2 * cx + 1) cy = at' j.uv j.uvStride (2 * cx) cy)
    (hdst : GoodDst rgba.length stride i.width i.height ch.count) :
    ∃ out, nvToRgbxProfOn cpu .uv ch s i rgba stride rg m = .ok out ∧
      nvToRgbxProfOn cpu .vu ch s j rgba stride rg m = .ok out := by
  obtain ⟨out, e, h⟩ := prof_nv_rel cpu .uv ch s i rgba stride rg m hi hdst
  rw [hw, hh] at hdst
  obtain ⟨out', e', h'⟩ := prof_nv_rel cpu .vu ch s j rgba stride rg m hj hdst
  refine ⟨out, e, ?_⟩
  rw [e']
  congr 1
  refine frameSpec_unique (frameRel_eq h') ?_
  rw [← hw, ← hh]
  refine frameRel_eq ⟨h.1, fun x y hx hy => ?_, h.2.2⟩
  rw [h.2.1 x y hx hy]
  have a : BiPlanar.Y i x y = BiPlanar.Y j x y := hY x y hx hy
  obtain ⟨b, c⟩ := swapped_samples hi hC hx hy
  cases cpu <;> simp only [profNvPixel, nvPixel, a, b, c]

example : GoodBiPlanar demoNV12 .yuv420 256 ∧ GoodDst 33 11 demoNV12.width demoNV12.height 3 :=
  ⟨demoNV12_good, by unfold U32; decide, by decide, by unfold FullRows; decide, by decide⟩

/-! ## C101: professional mode, processors agree -/

theorem prof_red_fits (rg : YuvRange) (m : Matrix) (h : ¬ (rg = .limited ∧ m = .smpte240)) :
    int16 (searchInverse 14 8 rg m).cr = (searchInverse 14 8 rg m).cr := by
  revert h; cases rg <;> cases m <;> decide +kernel

/-- The vector pixel is the scalar pixel with luma raised to black. -/
theorem profDecodedPixel_eq (ch : Channels) {rg : YuvRange} {m : Matrix}
    (h : ¬ (rg = .limited ∧ m = .smpte240)) (y u v : Nat) :
    profDecodedPixel ch rg m y u v
      = decodedPixel 14 8 ch rg m 255 (max y (getYuvRange 8 rg).biasY) u v := by
  unfold profDecodedPixel profDecoded decodedPixel
  simp only [prof_red_fits rg m h, (range_bias rg).1]

theorem profNvPixel_eq (cpu : Cpu) (o : NVOrder) (ch : Channels) (s : Sampling) (i : BiPlanar)
    {rg : YuvRange} {m : Matrix} (h : ¬ (rg = .limited ∧ m = .smpte240)) {x y : Nat}
    (hy : (getYuvRange 8 rg).biasY ≤ BiPlanar.Y i x y) :
    profNvPixel cpu o ch s i rg m x y = nvPixel 14 o ch s i rg m x y := by
  cases cpu
  case plain => rfl
  all_goals
    unfold profNvPixel
    rw [profDecodedPixel_eq ch h, Nat.max_eq_left hy]

/-- C101: an AVX2 and an SSE4.1 processor write identical bytes, whatever the image. -/
theorem c101_vector_cpus_agree (o : NVOrder) (ch : Channels) (s : Sampling)
    (i : BiPlanar) (dst : Buf) (stride : Nat) (rg : YuvRange) (m : Matrix)
    (hi : GoodBiPlanar i s 256) (hdst : GoodDst dst.length stride i.width i.height ch.count) :
    ∃ out, nvToRgbxProfOn .avx2 o ch s i dst stride rg m = .ok out ∧
      nvToRgbxProfOn .sse41 o ch s i dst stride rg m = .ok out := by
  obtain ⟨out, e, h⟩ := prof_nv_rel .avx2 o ch s i dst stride rg m hi hdst
  obtain ⟨out', e', h'⟩ := prof_nv_rel .sse41 o ch s i dst stride rg m hi hdst
  exact ⟨out, e, by rw [e', frameSpec_unique (frameRel_eq h') (frameRel_eq h)]⟩

/-- C101, what holds: two processors of whatever class write identical bytes for every image without
luma below black, unless the matrix is SMPTE 240 in limited range.  Missing: luma below black and that
matrix, where the claim is false. -/
theorem c101_prof_cpu_agreement_partial (cpu cpu' : Cpu) (o : NVOrder) (ch : Channels) (s : Sampling)
    (i : BiPlanar) (dst : Buf) (stride : Nat) (rg : YuvRange) (m : Matrix)
    (hi : GoodBiPlanar i s 256) (hdst : GoodDst dst.length stride i.width i.height ch.count)
    (hm : ¬ (rg = .limited ∧ m = .smpte240))
    (hblack : ∀ x y, x < i.width → y < i.height → (getYuvRange 8 rg).biasY ≤ BiPlanar.Y i x y) :
    ∃ out, nvToRgbxProfOn cpu o ch s i dst stride rg m = .ok out ∧
      nvToRgbxProfOn cpu' o ch s i dst stride rg m = .ok out := by
  have norm : ∀ c, ∃ out, nvToRgbxProfOn c o ch s i dst stride rg m = .ok out ∧
      FrameRel out dst stride i.width i.height ch.count (fun x y p =>
        p = nvPixel 14 o ch s i rg m x y) := by
    intro c
    obtain ⟨out, e, h⟩ := prof_nv_rel c o ch s i dst stride rg m hi hdst
    exact ⟨out, e, h.1, fun x y hx hy => (h.2.1 x y hx hy).trans
      (profNvPixel_eq c o ch s i hm (hblack x y hx hy)), h.2.2⟩
  obtain ⟨out, e, h⟩ := norm cpu
  obtain ⟨out', e', h'⟩ := norm cpu'
  exact ⟨out, e, by rw [e', frameSpec_unique (frameRel_eq h') (frameRel_eq h)]⟩

theorem decodeRGB14_close (rg : YuvRange) (m : Matrix) {y u v : Nat} (hy : y < 256) (hu : u < 256)
    (hv : v < 256) :
    ∃ r g b : Nat, decodeRGB 14 8 (searchInverse 14 8 rg m) (getYuvRange 8 rg).biasY
        (getYuvRange 8 rg).biasUv y u v = (r, g, b) ∧
      |(r : Rat) - satQ 8 (exactR 8 rg m y u v)| ≤ 52 / 100 ∧
      |(g : Rat) - satQ 8 (exactG 8 rg m y u v)| ≤ 52 / 100 ∧
      |(b : Rat) - satQ 8 (exactB 8 rg m y u v)| ≤ 52 / 100 := by
  have hcfg : DecodeCfg 14 8 := nvCfg .professional
  obtain ⟨r, g, b, e1, _, _, _, e2⟩ := kernel_decodeRGB hcfg rg m (Or.inl rfl) (k := decodeRow)
    hy hu hv
  obtain ⟨r', g', b', e3, a1, a2, a3⟩ := c10_decode_close 14 8 hcfg (by decide) rg m decodeRow
    (Or.inl rfl) (qrshr 14 8) (Or.inl rfl) y u v hy hu hv
  rw [e2] at e3
  injection e3 with e3
  simp only [Prod.mk.injEq] at e3
  obtain ⟨rfl, rfl, rfl⟩ := e3
  have hb : (1 : Rat) / 2 + 2 ^ 8 / 2 ^ 14 ≤ 52 / 100 := by norm_num
  push_cast at a1 a2 a3
  exact ⟨r, g, b, e1, le_trans a1 hb, le_trans a2 hb, le_trans a3 hb⟩

/-- C101 against the standard, what holds: every pixel is within 0.52 code values of the saturated exact
ITU-R result, with luma below black taken as black where there are vector extensions — unless the matrix
is SMPTE 240 in limited range.  Missing: that matrix, where the claim is false. -/
theorem c101_prof_accuracy_partial (cpu : Cpu) (o : NVOrder) (ch : Channels)
    (s : Sampling) (i : BiPlanar) (dst : Buf) (stride : Nat) (rg : YuvRange) (m : Matrix)
    (hi : GoodBiPlanar i s 256) (hdst : GoodDst dst.length stride i.width i.height ch.count)
    (hm : ¬ (rg = .limited ∧ m = .smpte240)) :
    ∃ out, nvToRgbxProfOn cpu o ch s i dst stride rg m = .ok out ∧
      ∀ x y, x < i.width → y < i.height →
        ∃ r g b : Nat, pixelAt out stride ch.count x y = layout ch r g b 255 ∧
        let Y : Rat := if cpu = .plain then BiPlanar.Y i x y
          else (max (BiPlanar.Y i x y) (getYuvRange 8 rg).biasY : Nat)
        let U : Rat := BiPlanar.U i s o x y
        let V : Rat := BiPlanar.V i s o x y
        |(r : Rat) - satQ 8 (exactR 8 rg m Y U V)| ≤ 52 / 100 ∧
        |(g : Rat) - satQ 8 (exactG 8 rg m Y U V)| ≤ 52 / 100 ∧
        |(b : Rat) - satQ 8 (exactB 8 rg m Y U V)| ≤ 52 / 100 := by
  obtain ⟨out, e, h⟩ := prof_nv_rel cpu o ch s i dst stride rg m hi hdst
  refine ⟨out, e, fun x y hx hy => ?_⟩
  obtain ⟨b1, b2, b3⟩ := hi.sample_lt (o := o) hx hy
  have hby := (range_bias rg).2
  rw [h.2.1 x y hx hy]
  by_cases hc : cpu = .plain
  · subst hc
    obtain ⟨r, g, b, e1, a⟩ := decodeRGB14_close rg m b1 b2 b3
    refine ⟨r, g, b, ?_, ?_⟩
    · simp only [profNvPixel, nvPixel, decodedPixel, e1]
    · simpa only [if_true] using a
  · obtain ⟨r, g, b, e1, a⟩ := decodeRGB14_close rg m
      (y := max (BiPlanar.Y i x y) (getYuvRange 8 rg).biasY) (by omega) b2 b3
    refine ⟨r, g, b, ?_, ?_⟩
    · cases cpu
      case plain => exact absurd rfl hc
      all_goals simp only [profNvPixel, profDecodedPixel_eq ch hm, decodedPixel, e1]
    · simpa only [if_neg hc] using a

/-- A 2×2 image of one color in limited range, luma 100 and Cr 200. -/
def redNV : BiPlanar := ⟨[100, 100, 100, 100], 2, [128, 200], 2, 2, 2⟩

/-- C101 fails for SMPTE 240 in limited range: red of this color is 247 without vector extensions, as it
should be, and 0 with them. -/
theorem c101_smpte240_wrong_red :
    nvToRgbxProfOn .plain .uv .rgb .yuv420 redNV (List.replicate 12 0) 6 .limited .smpte240 =
      .ok [247, 79, 98, 247, 79, 98, 247, 79, 98, 247, 79, 98] ∧
    nvToRgbxProfOn .sse41 .uv .rgb .yuv420 redNV (List.replicate 12 0) 6 .limited .smpte240 =
      .ok [0, 79, 98, 0, 79, 98, 0, 79, 98, 0, 79, 98] ∧
    247 < exactR 8 .limited .smpte240 100 128 200 := by
  refine ⟨?_, ?_, ?_⟩
  · decide +kernel
  · decide +kernel
  · decide +kernel

/-- A 2×2 image of one color in limited range, luma 0 and Cr 200. -/
def darkNV : BiPlanar := ⟨[0, 0, 0, 0], 2, [128, 200], 2, 2, 2⟩

/-- C101 fails for luma below black: red of this color is 96 without vector extensions and 115 with
them. -/
theorem c101_dark_luma_differs :
    nvToRgbxProfOn .plain .uv .rgb .yuv420 darkNV (List.replicate 12 0) 6 .limited .bt601 =
      .ok [96, 0, 0, 96, 0, 0, 96, 0, 0, 96, 0, 0] ∧
    nvToRgbxProfOn .sse41 .uv .rgb .yuv420 darkNV (List.replicate 12 0) 6 .limited .bt601 =
      .ok [115, 0, 0, 115, 0, 0, 115, 0, 0, 115, 0, 0] := by
  constructor
  · decide +kernel
  · decide +kernel

/-- The hypotheses of C101 are met by a 2×2 image. -/
example : GoodBiPlanar blueNV .yuv420 256 ∧ GoodDst 12 6 blueNV.width blueNV.height 3 ∧
    ¬ (YuvRange.limited = .limited ∧ Matrix.bt601 = .smpte240) ∧
    ∀ x y, x < blueNV.width → y < blueNV.height → (getYuvRange 8 .limited).biasY ≤ BiPlanar.Y blueNV x y := by
  refine ⟨blueNV_good, ⟨by unfold U32; decide, by decide, by unfold FullRows; decide, by decide⟩,
    by decide, ?_⟩
  intro x y hx hy
  have hx : x < 2 := hx
  have hy : y < 2 := hy
  interval_cases x <;> interval_cases y <;> decide

/-! ## C102: fast mode -/

/-- C102: on every class of x86 processor the semi-planar decoders of the fast mode succeed on every
good image and destination — no load or store of the vector code leaves its slice or its stack buffer —
and write exactly the pixels of the image: without vector extensions the decoding of precision 6, with
them `fastDecodedPixel` of the samples shown there. -/
theorem c102_x86_fast_nv_decode (cpu : Cpu) (o : NVOrder) (ch : Channels) (s : Sampling) (i : BiPlanar)
    (rgba : Buf) (stride : Nat) (rg : YuvRange) (m : Matrix) (hi : GoodBiPlanar i s 256)
    (hdst : GoodDst rgba.length stride i.width i.height ch.count) :
    ∃ out, nvToRgbxFastOn cpu o ch s i rgba stride rg m = .ok out ∧
      FrameSpec out rgba stride i.width i.height ch.count (fastNvPixel cpu o ch s i rg m) := by
  obtain ⟨out, e, h⟩ := fast_nv_rel cpu o ch s i rgba stride rg m hi hdst
  exact ⟨out, e, frameRel_eq h⟩

/-- C102: swapping the two elements of every chroma pair and reading the image in the other order
gives identical bytes. -/
theorem c102_nv21_is_swapped_nv12 (cpu : Cpu) (ch : Channels) (s : Sampling) (i j : BiPlanar)
    (rgba : Buf) (stride : Nat) (rg : YuvRange) (m : Matrix) (hi : GoodBiPlanar i s 256)
    (hj : GoodBiPlanar j s 256) (hw : i.width = j.width) (hh : i.height = j.height)
    (hY : ∀ x y, x < i.width → y < i.height → at' i.y i.yStride x y = at' j.y j.yStride x y)
    (hC : ∀ cx cy, cx < cover i.width (hdiv s) → cy < cover i.height (vdiv s) →
      at' i.uv i.uvStride (2 * cx) cy = at' j.uv j.uvStride (2 * cx + 1) cy ∧
      at' i.uv i.uvStride (2 * cx + 1) cy = at' j.uv j.uvStride (2 * cx) cy)
    (hdst : GoodDst rgba.length stride i.width i.height ch.count) :
    ∃ out, nvToRgbxFastOn cpu .uv ch s i rgba stride rg m = .ok out ∧
      nvToRgbxFastOn cpu .vu ch s j rgba stride rg m = .ok out := by
  obtain ⟨out, e, h⟩ := fast_nv_rel cpu .uv ch s i rgba stride rg m hi hdst
  rw [hw, hh] at hdst
  obtain ⟨out', e', h'⟩ := fast_nv_rel cpu .vu ch s j rgba stride rg m hj hdst
  refine ⟨out, e, ?_⟩
  rw [e']
  congr 1
  refine frameSpec_unique (frameRel_eq h') ?_
  rw [← hw, ← hh]
  refine frameRel_eq ⟨h.1, fun x y hx hy => ?_, h.2.2⟩
  rw [h.2.1 x y hx hy]
  have a : BiPlanar.Y i x y = BiPlanar.Y j x y := hY x y hx hy
  obtain ⟨b, c⟩ := swapped_samples hi hC hx hy
  cases cpu <;> simp only [fastNvPixel, nvPixel, a, b, c]

/-! ## C103: fast mode, processors agree -/

/-- C103: an AVX2 and an SSE4.1 processor write identical bytes, whatever the image. -/
theorem c103_vector_cpus_agree (o : NVOrder) (ch : Channels) (s : Sampling)
    (i : BiPlanar) (dst : Buf) (stride : Nat) (rg : YuvRange) (m : Matrix)
    (hi : GoodBiPlanar i s 256) (hdst : GoodDst dst.length stride i.width i.height ch.count) :
    ∃ out, nvToRgbxFastOn .avx2 o ch s i dst stride rg m = .ok out ∧
      nvToRgbxFastOn .sse41 o ch s i dst stride rg m = .ok out := by
  obtain ⟨out, e, h⟩ := fast_nv_rel .avx2 o ch s i dst stride rg m hi hdst
  obtain ⟨out', e', h'⟩ := fast_nv_rel .sse41 o ch s i dst stride rg m hi hdst
  exact ⟨out, e, by rw [e', frameSpec_unique (frameRel_eq h') (frameRel_eq h)]⟩

/-- The fast coefficients. -/
theorem fast_coef_bounds (rg : YuvRange) (m : Matrix) :
    let t := searchInverse 6 8 rg m
    (rg = .full → t.y = 64) ∧ (rg = .limited → t.y = 75) ∧ 0 ≤ t.cr ∧ t.cr ≤ 127 ∧ 0 ≤ t.cb ∧ t.cb ≤ 127 ∧
    0 ≤ t.g1 ∧ t.g1 ≤ 63 ∧ 0 ≤ t.g2 ∧ t.g2 ≤ 63 ∧ t.g1 + t.g2 ≤ 77 ∧
    (rg = .full → t.cr ≤ 120 ∧ t.cb ≤ 120) := by
  cases rg <;> cases m <;> decide +kernel

/-- The scalar component is the fast one or one more. -/
theorem fast_component {S : Int} (h1 : -32768 ≤ S) (h2 : S ≤ 32767) :
    let a := (max (min (int16 S / 2 ^ 6) 255) 0).toNat
    let b := (max (min ((S + (2 ^ (6 - 1) - 1)) / 2 ^ 6) (2 ^ 8 - 1)) 0).toNat
    a ≤ b ∧ b ≤ a + 1 := by
  have e : int16 S = S := by unfold int16; omega
  simp only [e]
  norm_num
  omega

/-- The fast decoding of a sample triple against the scalar one. -/
theorem fast_near (rg : YuvRange) (m : Matrix) {y u v : Nat} (hy : y < 256) (hu : u < 256) (hv : v < 256)
    (hb : (getYuvRange 8 rg).biasY ≤ y) (hw : rg = .limited → y ≤ 237) :
    let a := fastDecoded (searchInverse 6 8 rg m) (getYuvRange 8 rg).biasY y u v
    let b := decodeRGB 6 8 (searchInverse 6 8 rg m) (getYuvRange 8 rg).biasY (getYuvRange 8 rg).biasUv y u v
    (a.1 ≤ b.1 ∧ b.1 ≤ a.1 + 1) ∧ (a.2.1 ≤ b.2.1 ∧ b.2.1 ≤ a.2.1 + 1) ∧
      (a.2.2 ≤ b.2.2 ∧ b.2.2 ≤ a.2.2 + 1) := by
  obtain ⟨f, l, r0, r1, b0, b1, g0, g1, g2, g3, g4, fc⟩ := fast_coef_bounds rg m
  rw [(range_bias rg).1]
  set t := searchInverse 6 8 rg m with ht
  have dy : ((y - (getYuvRange 8 rg).biasY : Nat) : Int) = (y : Int) - (getYuvRange 8 rg).biasY := by omega
  unfold fastDecoded decodeRGB
  simp only [dy]
  have hu' : -128 ≤ (u : Int) - 128 ∧ (u : Int) - 128 ≤ 127 := by omega
  have hv' : -128 ≤ (v : Int) - 128 ∧ (v : Int) - 128 ≤ 127 := by omega
  generalize (u : Int) - 128 = cb at *
  generalize (v : Int) - 128 = cr at *
  have hdy : 0 ≤ ((y : Int) - (getYuvRange 8 rg).biasY) * t.y ∧
      ((y : Int) - (getYuvRange 8 rg).biasY) * t.y ≤ 16575 := by
    cases rg with
    | full =>
      rw [f rfl]
      have e : (getYuvRange 8 .full).biasY = 0 := rfl
      rw [e]; omega
    | limited =>
      have h237 := hw rfl
      rw [l rfl]
      have e : (getYuvRange 8 .limited).biasY = 16 := rfl
      rw [e] at hb ⊢; omega
  generalize ((y : Int) - (getYuvRange 8 rg).biasY) * t.y = Y at *
  have m1 : -16256 ≤ t.cr * cr ∧ t.cr * cr ≤ 16129 := by
    obtain ⟨v1, v2⟩ := hv'
    constructor <;> nlinarith
  have m2 : -16256 ≤ t.cb * cb ∧ t.cb * cb ≤ 16129 := by
    obtain ⟨v1, v2⟩ := hu'
    constructor <;> nlinarith
  have m3 : -8064 ≤ t.g1 * cr ∧ t.g1 * cr ≤ 8064 := by
    obtain ⟨v1, v2⟩ := hv'
    constructor <;> nlinarith
  have m4 : -8064 ≤ t.g2 * cb ∧ t.g2 * cb ≤ 8064 := by
    obtain ⟨v1, v2⟩ := hu'
    constructor <;> nlinarith
  rw [sub_sub]
  exact ⟨fast_component (by omega) (by omega), fast_component (by omega) (by omega),
    fast_component (by omega) (by omega)⟩

/-- Two pixels of one layout, opaque, whose components differ by at most one. -/
def PixelsNear (ch : Channels) (p q : Buf) : Prop :=
  ∃ r g b r' g' b' : Nat, p = layout ch r g b 255 ∧ q = layout ch r' g' b' 255 ∧
    (r ≤ r' + 1 ∧ r' ≤ r + 1) ∧ (g ≤ g' + 1 ∧ g' ≤ g + 1) ∧ (b ≤ b' + 1 ∧ b' ≤ b + 1)

/-- C103, what holds: two processors of whatever class decode an image whose luma is not below black and,
in limited range, not above 237 to pixels whose components differ by at most one code value, and write
the same area.  Missing: those luma values, where the claim is false. -/
theorem c103_fast_cpu_agreement_partial (cpu cpu' : Cpu) (o : NVOrder) (ch : Channels) (s : Sampling)
    (i : BiPlanar) (dst : Buf) (stride : Nat) (rg : YuvRange) (m : Matrix)
    (hi : GoodBiPlanar i s 256) (hdst : GoodDst dst.length stride i.width i.height ch.count)
    (hblack : ∀ x y, x < i.width → y < i.height → (getYuvRange 8 rg).biasY ≤ BiPlanar.Y i x y)
    (hwhite : rg = .limited → ∀ x y, x < i.width → y < i.height → BiPlanar.Y i x y ≤ 237) :
    ∃ out out', nvToRgbxFastOn cpu o ch s i dst stride rg m = .ok out ∧
      nvToRgbxFastOn cpu' o ch s i dst stride rg m = .ok out' ∧
      (∀ x y, x < i.width → y < i.height →
        PixelsNear ch (pixelAt out stride ch.count x y) (pixelAt out' stride ch.count x y)) ∧
      (∀ k, ¬ InFrame stride i.width i.height ch.count k → out[k]? = dst[k]? ∧ out'[k]? = dst[k]?) := by
  obtain ⟨out, e, h⟩ := fast_nv_rel cpu o ch s i dst stride rg m hi hdst
  obtain ⟨out', e', h'⟩ := fast_nv_rel cpu' o ch s i dst stride rg m hi hdst
  refine ⟨out, out', e, e', fun x y hx hy => ?_, fun k hk => ⟨h.2.2 k hk, h'.2.2 k hk⟩⟩
  obtain ⟨b1, b2, b3⟩ := hi.sample_lt (o := o) hx hy
  obtain ⟨n1, n2, n3⟩ := fast_near rg m b1 b2 b3 (hblack x y hx hy) (fun hr => hwhite hr x y hx hy)
  rw [h.2.1 x y hx hy, h'.2.1 x y hx hy]
  have key : ∀ c, fastNvPixel c o ch s i rg m x y = nvPixel 6 o ch s i rg m x y ∨
      fastNvPixel c o ch s i rg m x y
        = fastDecodedPixel ch rg m (BiPlanar.Y i x y) (BiPlanar.U i s o x y) (BiPlanar.V i s o x y) := by
    intro c
    cases c
    · exact .inr rfl
    · exact .inr rfl
    · exact .inl rfl
  rcases key cpu with a | a <;> rcases key cpu' with b | b <;> rw [a, b]
  · exact ⟨_, _, _, _, _, _, rfl, rfl, by omega, by omega, by omega⟩
  · exact ⟨_, _, _, _, _, _, rfl, rfl, ⟨n1.2, Nat.le_succ_of_le n1.1⟩,
      ⟨n2.2, Nat.le_succ_of_le n2.1⟩, ⟨n3.2, Nat.le_succ_of_le n3.1⟩⟩
  · exact ⟨_, _, _, _, _, _, rfl, rfl, ⟨Nat.le_succ_of_le n1.1, n1.2⟩,
      ⟨Nat.le_succ_of_le n2.1, n2.2⟩, ⟨Nat.le_succ_of_le n3.1, n3.2⟩⟩
  · exact ⟨_, _, _, _, _, _, rfl, rfl, by omega, by omega, by omega⟩

/-- The hypotheses of C103 are met by a 2×2 image. -/
example : ∀ x y, x < blueNV.width → y < blueNV.height →
    (getYuvRange 8 .limited).biasY ≤ BiPlanar.Y blueNV x y ∧ BiPlanar.Y blueNV x y ≤ 237 := by
  intro x y hx hy
  have hx : x < 2 := hx
  have hy : y < 2 := hy
  interval_cases x <;> interval_cases y <;> decide

/-- A 2×2 image of one color in limited range, luma 238 and Cb 255. -/
def brightNV : BiPlanar := ⟨[238, 238, 238, 238], 2, [255, 128], 2, 2, 2⟩

/-- C103 fails for luma 238 and above in limited range: blue of this color is 255 without vector
extensions and 0 with them, because the 16-bit sum wraps. -/
theorem c103_bright_blue_wraps :
    nvToRgbxFastOn .plain .uv .rgb .yuv420 brightNV (List.replicate 12 0) 6 .limited .bt709 =
      .ok [255, 232, 255, 255, 232, 255, 255, 232, 255, 255, 232, 255] ∧
    nvToRgbxFastOn .sse41 .uv .rgb .yuv420 brightNV (List.replicate 12 0) 6 .limited .bt709 =
      .ok [255, 232, 0, 255, 232, 0, 255, 232, 0, 255, 232, 0] := by
  constructor
  · decide +kernel
  · decide +kernel

end Verif
