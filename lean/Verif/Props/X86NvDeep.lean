import Verif.Lemmas.X86NvDeep
import Verif.Props.X86Deep
/-!
# C91, C92: semi-planar 10- and 12-bit YCbCr to RGB of the same depth on x86 processors
-/
namespace Verif
open Spec X86

/-! ## C91 -/

/-- The pixel at `(x, y)` on a processor: vector code does every group of eight columns with a column
after it. -/
def nvDeepCpuPixel (cpu : Cpu) (o : NVOrder) (e : Endianness) (bp : BytesPacking) (d : Nat)
    (ch : Channels) (s : Sampling) (i : BiPlanar) (rg : YuvRange) (m : Matrix) (x y : Nat) : Buf :=
  if cpu ≠ .plain ∧ x < groupCols i.width then
    nvMixedPixel d ch (hdiv s) (getYuvRange d rg) (searchInverse 13 d rg m) x
      (nativeSample e bp d (BiPlanar.Y i x y)) (fun k => nativeSample e bp d (BiPlanar.U i s o k y))
      (fun k => nativeSample e bp d (BiPlanar.V i s o k y))
  else deepNvPixel o e bp d ch s i rg m x y

theorem nvDeepCpuPixel_length (cpu : Cpu) (o : NVOrder) (e : Endianness) (bp : BytesPacking) (d : Nat)
    (ch : Channels) (s : Sampling) (i : BiPlanar) (rg : YuvRange) (m : Matrix) (x y : Nat) :
    (nvDeepCpuPixel cpu o e bp d ch s i rg m x y).length = ch.count := by
  unfold nvDeepCpuPixel; split
  · exact nvMixedPixel_length ..
  · exact layout_length' ..

/-- C91: on every class of x86 processor the decoders of 10- and 12-bit semi-planar images succeed on
every good image and destination, whatever the words stored in the image — no load or store of the
vector code leaves its slice — and write exactly the pixels of the image, each the stated function
of its column, its luma and the chroma of its row. -/
theorem c91_nv_deep_decode (cpu : Cpu) (o : NVOrder) (e : Endianness) (bp : BytesPacking) (d : Nat)
    (hd : d = 10 ∨ d = 12) (ch : Channels) (s : Sampling) (i : BiPlanar) (rgba : Buf) (stride : Nat)
    (rg : YuvRange) (m : Matrix) (hi : GoodBiPlanar i s 65536)
    (hdst : GoodDst rgba.length stride i.width i.height ch.count) :
    ∃ out, nvP16ToRgb16On cpu o e bp d ch s i rgba stride rg m = .ok out ∧
      FrameSpec out rgba stride i.width i.height ch.count
        (nvDeepCpuPixel cpu o e bp d ch s i rg m) := by
  have hD : Deep d := hd.elim .inl fun h => .inr (.inl h)
  have hcn := count_pos ch
  have hst : 0 < stride := Nat.lt_of_lt_of_le (Nat.mul_pos hi.wpos hcn) hdst.cols_le
  have hf := nvDeepHandler_fills (w := i.width) cpu o s e bp hd ch (deepCoef_search hD rg m)
    (deep_bias hD rg).1 hi.wpos
    (fun y u v => deepPixel (2 ^ 12) 13 13 d d ch rg m (toNe e bp y (16 - d))
        (toNe e bp u (16 - d)) (toNe e bp v (16 - d)))
  unfold nvP16ToRgb16On nvP16ToRgb16
  rw [hdst.accepted hi.wpos hi.hpos hi.w32 hi.h32 hcn (count_le ch), hi.accepted]
  simp only [Outcome.bind_ok]
  obtain ⟨out, e1, h⟩ := (nvDeepFrame_row hi.rows hcn (putNvP16_ok hD.depth e bp ch rg m) hf
    hdst.cols_le hdst.full).spec hcn hst hdst.cols_le hdst.full.1
  refine ⟨out, e1, frameRel_eq ⟨h.1, fun x y hx hy => ?_, h.2.2⟩⟩
  have hq : _ = cpuNvDeep _ _ _ _ _ _ _ _ _ _ _ _ _ _ := h.2.1 x y hx hy
  refine hq.trans ?_
  obtain ⟨b1, b2, b3⟩ := bi_sample_lt (by decide) hi o x y
  have eu : ∀ k, at' i.uv i.uvStride (2 * (k / hdiv s) + o.uPos) (y / vdiv s) = BiPlanar.U i s o k y := by
    intro k; cases o <;> rfl
  have ev : ∀ k, at' i.uv i.uvStride (2 * (k / hdiv s) + o.vPos) (y / vdiv s) = BiPlanar.V i s o k y := by
    intro k; cases o <;> rfl
  simp only [cpuNvDeep, nvDeepCpuPixel, eu, ev]
  split
  · rfl
  · show deepPixel (2 ^ 12) 13 13 d d ch rg m (toNe e bp (BiPlanar.Y i x y) (16 - d)) _ _ = _
    rw [toNe_eq e bp b1, toNe_eq e bp b2, toNe_eq e bp b3]

/-- A processor without vector code runs the portable decoder. -/
theorem c91_plain_is_portable (o : NVOrder) (e : Endianness) (bp : BytesPacking) (d : Nat)
    (ch : Channels) (s : Sampling) (i : BiPlanar) (rgba : Buf) (stride : Nat) (rg : YuvRange)
    (m : Matrix) : nvP16ToRgb16On .plain o e bp d ch s i rgba stride rg m
      = nvP16ToRgb16 x64 o e bp d ch s noSimdNV i rgba stride rg m := rfl

/-- C91: processors with AVX2 write what processors with only SSE4.1 write. -/
theorem c91_same_buffers (o : NVOrder) (e : Endianness) (bp : BytesPacking) (d : Nat)
    (ch : Channels) (s : Sampling) (i : BiPlanar) (rgba : Buf) (stride : Nat) (rg : YuvRange)
    (m : Matrix) : nvP16ToRgb16On .avx2 o e bp d ch s i rgba stride rg m
      = nvP16ToRgb16On .sse41 o e bp d ch s i rgba stride rg m := rfl

/-- C91: on every processor byte order and packing only represent the samples. -/
theorem c91_representation (cpu : Cpu) (o : NVOrder) (e : Endianness) (bp : BytesPacking) (d : Nat)
    (hd : d = 10 ∨ d = 12) (ch : Channels) (s : Sampling) (i : BiPlanar) (rgba : Buf) (stride : Nat)
    (rg : YuvRange) (m : Matrix) (hi : GoodBiPlanar i s 65536)
    (hdst : GoodDst rgba.length stride i.width i.height ch.count) :
    ∃ out, nvP16ToRgb16On cpu o e bp d ch s i rgba stride rg m = .ok out ∧
      nvP16ToRgb16On cpu o .little .lsb d ch s (BiPlanar.mapSamples (nativeSample e bp d) i) rgba
        stride rg m = .ok out := by
  obtain ⟨out, e1, hr⟩ := c91_nv_deep_decode cpu o e bp d hd ch s i rgba stride rg m hi hdst
  obtain ⟨out', e2, hr'⟩ := c91_nv_deep_decode cpu o .little .lsb d hd ch s
    (BiPlanar.mapSamples (nativeSample e bp d) i) rgba stride rg m (native_map_goodBi e bp d hi) hdst
  refine ⟨out, e1, ?_⟩
  rw [e2]; congr 1
  refine frameSpec_unique hr' ⟨hr.1, fun x y c hx hy hc => ?_, hr.2.2⟩
  rw [hr.2.1 x y c hx hy hc]
  have hz := nativeSample_zero e bp d
  cases o <;>
    simp only [nvDeepCpuPixel, deepNvPixel, BiPlanar.Y, BiPlanar.U, BiPlanar.V, BiPlanar.C,
      BiPlanar.mapSamples, at'_map hz] <;> rfl

/-! ## C92 -/

/-- Samples of the depth, luma not below black. -/
def LegalNv (o : NVOrder) (e : Endianness) (bp : BytesPacking) (d : Nat) (s : Sampling) (i : BiPlanar)
    (rg : YuvRange) : Prop :=
  ∀ x y, x < i.width → y < i.height → LegalSamples d rg (nativeSample e bp d (BiPlanar.Y i x y))
    (nativeSample e bp d (BiPlanar.U i s o x y)) (nativeSample e bp d (BiPlanar.V i s o x y))

/-- The exact fixed-point sums of samples, rounded with ties down against ties up. -/
theorem nvSum_close {d : Nat} (hd : d = 10 ∨ d = 12) (rg : YuvRange) (m : Matrix) {y u v : Nat}
    (h : LegalSamples d rg y u v) (ch : Channels) {cb cr : Int}
    (hb : cb = (u : Int) - (getYuvRange d rg).biasUv) (hr : cr = (v : Int) - (getYuvRange d rg).biasUv) :
    DeepClose d 1 ch
      (deepOpaque d ch (nvSumRGB d (getYuvRange d rg) (searchInverse 13 d rg m) y cb cr))
      (deepPixel (2 ^ 12) 13 13 d d ch rg m y u v) := by
  have hD : Deep d := hd.elim .inl fun h => .inr (.inl h)
  obtain ⟨h0, hy, hu, hv⟩ := h
  obtain ⟨-, hbu⟩ := deep_bias hD rg
  obtain ⟨t1, t2, t3, t4, t5⟩ := deepCoef_search hD rg m
  have hp : (2 ^ (d - 1) : Nat) * 2 = 2 ^ d ∧ 2 ^ d ≤ 4096 := by rcases hd with rfl | rfl <;> decide
  have bb : -2048 ≤ cb ∧ cb ≤ 2048 := by rw [hb, hbu]; omega
  have br : -2048 ≤ cr ∧ cr ≤ 2048 := by rw [hr, hbu]; omega
  have el : int16 ((y - (getYuvRange d rg).biasY : Nat) : Int) = (y : Int) - (getYuvRange d rg).biasY := by
    rw [int16_small] <;> omega
  have ml := mul_bounds (A := 4096) (T := 10000) (a := (y : Int) - (getYuvRange d rg).biasY)
    (t := (searchInverse 13 d rg m).y) (by omega) t1
  have mr := mul_bounds (A := 2048) (T := 20000) br t2
  have mb := mul_bounds (A := 2048) (T := 20000) bb t3
  have mg1 := mul_bounds (A := 2048) (T := 20000) br t4
  have mg2 := mul_bounds (A := 2048) (T := 20000) bb t5
  refine ⟨_, _, _, _, _, _, rfl, rfl, ?_, ?_, ?_⟩
  · simp only [nvSumRGB, el, linR, ← hr]
    rw [Int.mul_comm _ cr]
    generalize ((y : Int) - (getYuvRange d rg).biasY) * (searchInverse 13 d rg m).y = a at *
    generalize cr * (searchInverse 13 d rg m).cr = b at *
    apply saturate_near <;> (unfold int32 roundShift; norm_num; omega)
  · simp only [nvSumRGB, el, linG, ← hr, ← hb]
    rw [Int.mul_comm (searchInverse 13 d rg m).g1 cr, Int.mul_comm (searchInverse 13 d rg m).g2 cb]
    generalize ((y : Int) - (getYuvRange d rg).biasY) * (searchInverse 13 d rg m).y = a at *
    generalize cr * (searchInverse 13 d rg m).g1 = b at *
    generalize cb * (searchInverse 13 d rg m).g2 = c at *
    apply saturate_near <;> (unfold int32 roundShift; norm_num; omega)
  · simp only [nvSumRGB, el, linB, ← hb]
    rw [Int.mul_comm _ cb]
    generalize ((y : Int) - (getYuvRange d rg).biasY) * (searchInverse 13 d rg m).y = a at *
    generalize cb * (searchInverse 13 d rg m).cb = b at *
    apply saturate_near <;> (unfold int32 roundShift; norm_num; omega)

theorem native_centred {d : Nat} (hd : d = 10 ∨ d = 12) (rg : YuvRange) {u : Nat} (hu : u < 2 ^ d) :
    int16 ((u : Int) - (getYuvRange d rg).biasUv) = (u : Int) - (getYuvRange d rg).biasUv := by
  have hD : Deep d := hd.elim .inl fun h => .inr (.inl h)
  rw [(deep_bias hD rg).2]
  rcases hd with rfl | rfl <;> (rw [int16_small] <;> omega)

/-- C92, what holds: in an image of samples of the depth with luma not below black, a column that the
vector code does not decode, or the second half of a group of eight of a 4:4:4 image, is on every
processor within one code value per component of the portable decoder. -/
theorem c92_own_chroma_partial (cpu : Cpu) (o : NVOrder) (e : Endianness) (bp : BytesPacking) (d : Nat)
    (hd : d = 10 ∨ d = 12) (ch : Channels) (s : Sampling) (i : BiPlanar) (rgba : Buf) (stride : Nat)
    (rg : YuvRange) (m : Matrix) (hi : GoodBiPlanar i s 65536)
    (hdst : GoodDst rgba.length stride i.width i.height ch.count) (hl : LegalNv o e bp d s i rg) :
    ∃ out out', nvP16ToRgb16On cpu o e bp d ch s i rgba stride rg m = .ok out ∧
      nvP16ToRgb16 x64 o e bp d ch s noSimdNV i rgba stride rg m = .ok out' ∧
      (∀ x y, x < i.width → y < i.height →
        groupCols i.width ≤ x ∨ (s = .yuv444 ∧ 4 ≤ x % 8) →
        DeepClose d 1 ch (pixelAt out stride ch.count x y) (pixelAt out' stride ch.count x y)) ∧
      ∀ k, ¬ InFrame stride i.width i.height ch.count k → out[k]? = rgba[k]? ∧ out'[k]? = rgba[k]? := by
  have hD : Deep d := hd.elim .inl fun h => .inr (.inl h)
  obtain ⟨out, e1, h1⟩ := c91_nv_deep_decode cpu o e bp d hd ch s i rgba stride rg m hi hdst
  obtain ⟨out', e2, h2⟩ := c28_nv_decode_exact o e bp d hD.depth ch s i rgba stride rg m hi hdst
  refine ⟨out, out', e1, e2, fun x y hx hy hc => ?_, fun k hk => ⟨h1.2.2 k hk, h2.2.2 k hk⟩⟩
  rw [frameSpec_pixel h1 (x := x) (y := y) hx hy (nvDeepCpuPixel_length ..),
    frameSpec_pixel h2 (x := x) (y := y) hx hy (layout_length' ..)]
  have hL := hl x y hx hy
  unfold nvDeepCpuPixel
  split
  · rename_i hv
    obtain ⟨rfl, h4⟩ : s = .yuv444 ∧ 4 ≤ x % 8 := hc.resolve_left (by omega)
    refine nvSum_close hd rg m hL ch ?_ ?_
    · simp only [mixedChroma, hdiv]
      rw [if_neg (show ¬ (1 = 2) by decide), if_neg (by omega), native_centred hd rg hL.2.2.1]
    · simp only [mixedChroma, hdiv]
      rw [if_neg (show ¬ (1 = 2) by decide), if_neg (by omega), native_centred hd rg hL.2.2.2]
  · exact DeepClose.same ..

/-- C92, what holds: an image without colour — every chroma sample neutral — is decoded on every
processor within one code value per component of the portable decoder. -/
theorem c92_grey_image_partial (cpu : Cpu) (o : NVOrder) (e : Endianness) (bp : BytesPacking) (d : Nat)
    (hd : d = 10 ∨ d = 12) (ch : Channels) (s : Sampling) (i : BiPlanar) (rgba : Buf) (stride : Nat)
    (rg : YuvRange) (m : Matrix) (hi : GoodBiPlanar i s 65536)
    (hdst : GoodDst rgba.length stride i.width i.height ch.count) (hl : LegalNv o e bp d s i rg)
    (hn : ∀ x y, x < i.width → y < i.height → nativeSample e bp d (BiPlanar.U i s o x y) = 2 ^ (d - 1) ∧
      nativeSample e bp d (BiPlanar.V i s o x y) = 2 ^ (d - 1)) :
    ∃ out out', nvP16ToRgb16On cpu o e bp d ch s i rgba stride rg m = .ok out ∧
      nvP16ToRgb16 x64 o e bp d ch s noSimdNV i rgba stride rg m = .ok out' ∧
      (∀ x y, x < i.width → y < i.height →
        DeepClose d 1 ch (pixelAt out stride ch.count x y) (pixelAt out' stride ch.count x y)) ∧
      ∀ k, ¬ InFrame stride i.width i.height ch.count k → out[k]? = rgba[k]? ∧ out'[k]? = rgba[k]? := by
  have hD : Deep d := hd.elim .inl fun h => .inr (.inl h)
  obtain ⟨out, e1, h1⟩ := c91_nv_deep_decode cpu o e bp d hd ch s i rgba stride rg m hi hdst
  obtain ⟨out', e2, h2⟩ := c28_nv_decode_exact o e bp d hD.depth ch s i rgba stride rg m hi hdst
  refine ⟨out, out', e1, e2, fun x y hx hy => ?_, fun k hk => ⟨h1.2.2 k hk, h2.2.2 k hk⟩⟩
  rw [frameSpec_pixel h1 (x := x) (y := y) hx hy (nvDeepCpuPixel_length ..),
    frameSpec_pixel h2 (x := x) (y := y) hx hy (layout_length' ..)]
  have hbu := (deep_bias hD rg).2
  unfold nvDeepCpuPixel
  split
  · rename_i hv
    have hg : groupCols i.width + 1 ≤ i.width := by
      have := hi.wpos; unfold groupCols; omega
    have hg8 : groupCols i.width % 8 = 0 := by unfold groupCols; omega
    have key : ∀ f : Nat → Nat, (∀ k, k < i.width → f k = 2 ^ (d - 1)) →
        mixedChroma (hdiv s) (fun k => int16 ((f k : Int) - (getYuvRange d rg).biasUv)) x = 0 := by
      intro f hf
      have z : ∀ k, k < i.width → int16 ((f k : Int) - (getYuvRange d rg).biasUv) = 0 := by
        intro k hk
        rw [hf k hk, hbu, Int.sub_self]; rfl
      unfold mixedChroma
      split
      · split
        · exact (congrArg₂ (· + ·) (z (x / 4 * 4) (by omega)) (z (x / 4 * 4 + 2) (by omega)))
        · rfl
      · split
        · split
          · exact (congrArg₂ (· + ·) (z x hx) (z (x + 1) (by omega)))
          · rfl
        · exact z _ hx
    have hL := hl x y hx hy
    refine nvSum_close hd rg m hL ch ?_ ?_
    · rw [key _ fun k hk => (hn k y hk hy).1, (hn x y hx hy).1, hbu, Int.sub_self]
    · rw [key _ fun k hk => (hn k y hk hy).2, (hn x y hx hy).2, hbu, Int.sub_self]
  · exact DeepClose.same ..

/-- C92 fails with halved chroma: with vector code the last two columns of every four are grey,
whatever the chroma of the image. -/
theorem c92_grey_columns (cpu : Cpu) (hcpu : cpu ≠ .plain) (o : NVOrder) (e : Endianness)
    (bp : BytesPacking) (d : Nat) (hd : d = 10 ∨ d = 12) (s : Sampling)
    (hs : s ≠ .yuv444) (i : BiPlanar) (rgba : Buf) (stride : Nat)
    (rg : YuvRange) (m : Matrix) (hi : GoodBiPlanar i s 65536)
    (hdst : GoodDst rgba.length stride i.width i.height 3) :
    ∃ out, nvP16ToRgb16On cpu o e bp d .rgb s i rgba stride rg m = .ok out ∧
      ∀ x y, x < groupCols i.width → 2 ≤ x % 4 → y < i.height →
        ∃ g, pixelAt out stride 3 x y = [g, g, g] := by
  obtain ⟨out, e1, h1⟩ := c91_nv_deep_decode cpu o e bp d hd .rgb s i rgba stride rg m hi hdst
  refine ⟨out, e1, fun x y hx h2 hy => ?_⟩
  have hw : x < i.width := by have := hi.wpos; unfold groupCols at hx; omega
  have hs2 : hdiv s = 2 := by cases s <;> first | rfl | exact absurd rfl hs
  have := frameSpec_pixel h1 (x := x) (y := y) hw hy (nvDeepCpuPixel_length ..)
  unfold nvDeepCpuPixel at this
  rw [if_pos ⟨hcpu, hx⟩] at this
  simp only [nvMixedPixel, mixedChroma, hs2, if_neg (show ¬ x % 4 < 2 by omega), if_true] at this
  simp only [nvSumRGB, deepOpaque, layout, Int.zero_mul, Int.add_zero, Int.sub_zero] at this
  exact ⟨_, this⟩

/-- C92 fails in 4:4:4 images: with vector code the odd columns of the first half of every group of
eight are grey, whatever the chroma of the image. -/
theorem c92_grey_columns_444 (cpu : Cpu) (hcpu : cpu ≠ .plain) (o : NVOrder) (e : Endianness)
    (bp : BytesPacking) (d : Nat) (hd : d = 10 ∨ d = 12) (i : BiPlanar) (rgba : Buf) (stride : Nat)
    (rg : YuvRange) (m : Matrix) (hi : GoodBiPlanar i .yuv444 65536)
    (hdst : GoodDst rgba.length stride i.width i.height 3) :
    ∃ out, nvP16ToRgb16On cpu o e bp d .rgb .yuv444 i rgba stride rg m = .ok out ∧
      ∀ x y, x < groupCols i.width → x % 8 = 1 ∨ x % 8 = 3 → y < i.height →
        ∃ g, pixelAt out stride 3 x y = [g, g, g] := by
  obtain ⟨out, e1, h1⟩ := c91_nv_deep_decode cpu o e bp d hd .rgb .yuv444 i rgba stride rg m hi hdst
  refine ⟨out, e1, fun x y hx h2 hy => ?_⟩
  have hw : x < i.width := by have := hi.wpos; unfold groupCols at hx; omega
  have := frameSpec_pixel h1 (x := x) (y := y) hw hy (nvDeepCpuPixel_length ..)
  unfold nvDeepCpuPixel at this
  rw [if_pos ⟨hcpu, hx⟩] at this
  simp only [nvMixedPixel, mixedChroma, hdiv, if_neg (show ¬ (1 = 2) by decide),
    if_pos (show x % 8 < 4 by omega), if_neg (show ¬ x % 2 = 0 by omega)] at this
  simp only [nvSumRGB, deepOpaque, layout, Int.zero_mul, Int.add_zero, Int.sub_zero] at this
  exact ⟨_, this⟩

/-- Nine columns of one colour: mid grey luma and red chroma, 4:2:2. -/
def redRow : BiPlanar :=
  { y := List.replicate 9 500, yStride := 9, uv := [512, 700, 512, 700, 512, 700, 512, 700, 512, 700]
    uvStride := 10, width := 9, height := 1 }

theorem redRow_good : GoodBiPlanar redRow .yuv422 65536 where
  wpos := by decide
  hpos := by decide
  w32 := by unfold U32; decide
  h32 := by unfold U32; decide
  y := ⟨by unfold U32; decide, by decide, by unfold FullRows; decide, by decide⟩
  uvStride32 := by unfold U32; decide
  uvStride := by decide
  uvLen := by decide
  uvBound := by decide

/-- C92 fails: a row of one colour decodes to one colour without vector code, and to doubled chroma,
no chroma and the right chroma with it. -/
theorem c92_violated (cpu : Cpu) :
    ∃ out, nvP16ToRgb16On cpu .uv .little .lsb 10 .rgb .yuv422 redRow (List.replicate 27 0) 27 .limited
        .bt709 = .ok out ∧
      pixelAt out 27 3 0 0 = (if cpu = .plain then [847, 409, 509] else [1023, 308, 509]) ∧
      pixelAt out 27 3 2 0 = (if cpu = .plain then [847, 409, 509] else [509, 509, 509]) ∧
      pixelAt out 27 3 8 0 = [847, 409, 509] := by
  obtain ⟨out, e, h⟩ := c91_nv_deep_decode cpu .uv .little .lsb 10 (.inl rfl) .rgb .yuv422 redRow
    (List.replicate 27 0) 27 .limited .bt709 redRow_good
    ⟨by unfold U32; decide, by decide, by unfold FullRows; decide, by decide⟩
  refine ⟨out, e, ?_, ?_, ?_⟩
  · refine (frameSpec_pixel h (x := 0) (y := 0) (by decide) (by decide) (nvDeepCpuPixel_length ..)).trans ?_
    cases cpu <;> decide +kernel
  · refine (frameSpec_pixel h (x := 2) (y := 0) (by decide) (by decide) (nvDeepCpuPixel_length ..)).trans ?_
    cases cpu <;> decide +kernel
  · refine (frameSpec_pixel h (x := 8) (y := 0) (by decide) (by decide) (nvDeepCpuPixel_length ..)).trans ?_
    cases cpu <;> decide +kernel

/-- The image is legal, so nothing in it explains the difference. -/
example : LegalNv .uv .little .lsb 10 .yuv422 redRow .limited := by
  have h : ∀ x, x < 9 → LegalSamples 10 .limited (nativeSample .little .lsb 10 (BiPlanar.Y redRow x 0))
      (nativeSample .little .lsb 10 (BiPlanar.U redRow .yuv422 .uv x 0))
      (nativeSample .little .lsb 10 (BiPlanar.V redRow .yuv422 .uv x 0)) := by
    unfold LegalSamples; decide
  intro x y hx hy
  obtain rfl : y = 0 := Nat.lt_one_iff.mp hy
  exact h x hx

example : ∃ x, x < groupCols redRow.width ∧ 2 ≤ x % 4 := ⟨2, by decide, by decide⟩

end Verif
