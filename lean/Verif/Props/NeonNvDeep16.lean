import Verif.Lemmas.NeonNvDeep16
import Verif.Props.NeonDeep16
import Verif.Props.X86NvDeep
/-!
# C136, C137: semi-planar 10- and 12-bit YCbCr to RGB of the same depth on 64-bit ARM
-/
namespace Verif
open Spec X86 Neon

/-! ## C136 -/

/-- The opaque pixel of native samples in the vector code: 16-bit arithmetic if the processor has rounding
multiply-accumulate (`rdm`), 32-bit arithmetic otherwise. -/
def neonNvDeep (rdm : Bool) (d : Nat) (ch : Channels) (rg : YuvRange) (m : Matrix) (y u v : Nat) : Buf :=
  deepOpaque d ch (if rdm = true then neonRdmRGB d (getYuvRange d rg) (searchInverse 13 d rg m) y u v
    else neonNvRGB d (getYuvRange d rg) (searchInverse 13 d rg m) y u v)

/-- The pixel at `(x, y)`: vector code does every group of eight columns with a column after it. -/
def neonNvDeepPixel (rdm : Bool) (o : NVOrder) (e : Endianness) (bp : BytesPacking) (d : Nat)
    (ch : Channels) (s : Sampling) (i : BiPlanar) (rg : YuvRange) (m : Matrix) (x y : Nat) : Buf :=
  if x < groupCols i.width then
    neonNvDeep rdm d ch rg m (nativeSample e bp d (BiPlanar.Y i x y)) (nativeSample e bp d (BiPlanar.U i s o x y))
      (nativeSample e bp d (BiPlanar.V i s o x y))
  else deepNvPixel o e bp d ch s i rg m x y

theorem neonNvDeepPixel_length (rdm : Bool) (o : NVOrder) (e : Endianness) (bp : BytesPacking) (d : Nat)
    (ch : Channels) (s : Sampling) (i : BiPlanar) (rg : YuvRange) (m : Matrix) (x y : Nat) :
    (neonNvDeepPixel rdm o e bp d ch s i rg m x y).length = ch.count := by
  unfold neonNvDeepPixel; split <;> exact layout_length' ..

/-- C136: on 64-bit ARM the decoders of 10- and 12-bit semi-planar images succeed on every good image and
destination, whatever the words stored in the image — no load or store of the vector code leaves its slice —
and write exactly the pixels of the image, each from its own luma and the chroma shown at it. -/
theorem c136_neon_nv_deep_decode (rdm : Bool) (o : NVOrder) (e : Endianness) (bp : BytesPacking) (d : Nat)
    (hd : d = 10 ∨ d = 12) (ch : Channels) (s : Sampling) (i : BiPlanar) (rgba : Buf) (stride : Nat)
    (rg : YuvRange) (m : Matrix) (hi : GoodBiPlanar i s 65536)
    (hdst : GoodDst rgba.length stride i.width i.height ch.count) :
    ∃ out, Neon.nvP16ToRgb16 rdm o e bp d ch s i rgba stride rg m = .ok out ∧
      FrameSpec out rgba stride i.width i.height ch.count
        (neonNvDeepPixel rdm o e bp d ch s i rg m) := by
  have hD : Deep d := hd.elim .inl fun h => .inr (.inl h)
  have hcn := X86.count_pos ch
  have hst : 0 < stride := Nat.lt_of_lt_of_le (Nat.mul_pos hi.wpos hcn) hdst.cols_le
  obtain ⟨hby, hbu⟩ := deep_bias hD rg
  have hbu' : (getYuvRange d rg).biasUv < 65536 := by
    rw [hbu]; rcases hd with rfl | rfl <;> decide
  have hf := nvDeep16Handler_fills (w := i.width) rdm o s e bp hd ch (deepCoef_search hD rg m)
    hby hbu' hi.wpos
    (fun y u v => deepPixel (2 ^ 12) 13 13 d d ch rg m (toNe e bp y (16 - d))
        (toNe e bp u (16 - d)) (toNe e bp v (16 - d)))
  unfold Neon.nvP16ToRgb16 Verif.nvP16ToRgb16
  rw [hdst.accepted hi.wpos hi.hpos hi.w32 hi.h32 hcn (X86.count_le ch), hi.accepted]
  simp only [Outcome.bind_ok]
  obtain ⟨out, e1, h⟩ := (nvDeepFrame_row hi.rows hcn (putNvP16_ok hD.depth e bp ch rg m) hf
    hdst.cols_le hdst.full).spec hcn hst hdst.cols_le hdst.full.1
  refine ⟨out, e1, frameRel_eq ⟨h.1, fun x y hx hy => ?_, h.2.2⟩⟩
  have hq : _ = armNvDeep _ _ _ _ _ _ _ _ _ _ _ _ _ := h.2.1 x y hx hy
  refine hq.trans ?_
  obtain ⟨b1, b2, b3⟩ := bi_sample_lt (by decide) hi o x y
  have eu : ∀ k, at' i.uv i.uvStride (2 * (k / hdiv s) + o.uPos) (y / vdiv s) = BiPlanar.U i s o k y := by
    intro k; cases o <;> rfl
  have ev : ∀ k, at' i.uv i.uvStride (2 * (k / hdiv s) + o.vPos) (y / vdiv s) = BiPlanar.V i s o k y := by
    intro k; cases o <;> rfl
  simp only [armNvDeep, neonNvDeepPixel, eu, ev]
  split
  · unfold wordsPix armNvRGB neonNvDeep
    cases rdm <;> rfl
  · show deepPixel (2 ^ 12) 13 13 d d ch rg m (toNe e bp (BiPlanar.Y i x y) (16 - d)) _ _ = _
    rw [toNe_eq e bp b1, toNe_eq e bp b2, toNe_eq e bp b3]

/-- C136: byte order and packing only represent the samples. -/
theorem c136_representation (rdm : Bool) (o : NVOrder) (e : Endianness) (bp : BytesPacking) (d : Nat)
    (hd : d = 10 ∨ d = 12) (ch : Channels) (s : Sampling) (i : BiPlanar) (rgba : Buf) (stride : Nat)
    (rg : YuvRange) (m : Matrix) (hi : GoodBiPlanar i s 65536)
    (hdst : GoodDst rgba.length stride i.width i.height ch.count) :
    ∃ out, Neon.nvP16ToRgb16 rdm o e bp d ch s i rgba stride rg m = .ok out ∧
      Neon.nvP16ToRgb16 rdm o .little .lsb d ch s (BiPlanar.mapSamples (nativeSample e bp d) i) rgba
        stride rg m = .ok out := by
  obtain ⟨out, e1, hr⟩ := c136_neon_nv_deep_decode rdm o e bp d hd ch s i rgba stride rg m hi hdst
  obtain ⟨out', e2, hr'⟩ := c136_neon_nv_deep_decode rdm o .little .lsb d hd ch s
    (BiPlanar.mapSamples (nativeSample e bp d) i) rgba stride rg m (native_map_goodBi e bp d hi) hdst
  refine ⟨out, e1, ?_⟩
  rw [e2]; congr 1
  refine frameSpec_unique hr' ⟨hr.1, fun x y c hx hy hc => ?_, hr.2.2⟩
  rw [hr.2.1 x y c hx hy hc]
  have hz := nativeSample_zero e bp d
  cases o <;>
    simp only [neonNvDeepPixel, deepNvPixel, BiPlanar.Y, BiPlanar.U, BiPlanar.V, BiPlanar.C,
      BiPlanar.mapSamples, at'_map hz] <;> rfl

/-! ## C137 -/

/-- Samples whose distances from black and from neutral chroma fit an `i16`; luma below black and samples beyond
the depth are included. -/
def NvSamples (d : Nat) (rg : YuvRange) (y u v : Nat) : Prop :=
  y < 32768 + (getYuvRange d rg).biasY ∧ u < 32768 + 2 ^ (d - 1) ∧ v < 32768 + 2 ^ (d - 1)

theorem nvSamples_depth {d : Nat} (hd : d = 10 ∨ d = 12) {rg : YuvRange} {y u v : Nat} (hy : y < 2 ^ d)
    (hu : u < 2 ^ d) (hv : v < 2 ^ d) : NvSamples d rg y u v := by
  have : 2 ^ d ≤ 4096 := by rcases hd with rfl | rfl <;> decide
  have h0 := Nat.zero_le (2 ^ (d - 1))
  generalize 2 ^ d = a at *
  unfold NvSamples
  generalize 2 ^ (d - 1) = b at *
  omega

theorem neonNv_eq {d : Nat} (hd : d = 10 ∨ d = 12) (rg : YuvRange) (m : Matrix) {y u v : Nat}
    (h : NvSamples d rg y u v) (ch : Channels) :
    neonNvDeep false d ch rg m y u v = deepPixel (2 ^ 12) 13 13 d d ch rg m y u v := by
  have hD : Deep d := hd.elim .inl fun h => .inr (.inl h)
  obtain ⟨h0, hu, hv⟩ := h
  obtain ⟨-, hbu⟩ := deep_bias hD rg
  have hby : (getYuvRange d rg).biasY ≤ 32768 := by rcases hd with rfl | rfl <;> cases rg <;> decide
  have hp : 2 ^ (d - 1) ≤ 32768 := by rcases hd with rfl | rfl <;> decide
  have key : ∀ n : Nat, n < 32768 + 2 ^ (d - 1) → int16 ((n : Int) - (getYuvRange d rg).biasUv)
      = (n : Int) - (getYuvRange d rg).biasUv := by
    intro n hn; rw [hbu]; apply int16_small <;> omega
  have hl : int16 ((y : Int) - (getYuvRange d rg).biasY) = (y : Int) - (getYuvRange d rg).biasY := by
    apply int16_small <;> omega
  unfold neonNvDeep
  rw [if_neg (by decide)]
  unfold deepOpaque deepPixel neonNvRGB linR linG linB
  simp only [hl, key u hu, key v hv]
  generalize ((y : Int) - (getYuvRange d rg).biasY) * (searchInverse 13 d rg m).y = l
  rw [Int.mul_comm ((v : Int) - _) _, Int.mul_comm ((v : Int) - _) (searchInverse 13 d rg m).g1,
    Int.mul_comm ((u : Int) - _) (searchInverse 13 d rg m).g2,
    Int.mul_comm ((u : Int) - _) (searchInverse 13 d rg m).cb]

/-- C137, the 32-bit arithmetic: for samples whose distances from black and neutral fit an `i16` — luma below
black included — the buffer is that of the portable decoder.  Missing: larger words, where the claim is false
(`c137_violated_beyond_depth`). -/
theorem c137_portable_partial (o : NVOrder) (e : Endianness) (bp : BytesPacking) (d : Nat)
    (hd : d = 10 ∨ d = 12) (ch : Channels) (s : Sampling) (i : BiPlanar) (rgba : Buf) (stride : Nat)
    (rg : YuvRange) (m : Matrix) (hi : GoodBiPlanar i s 65536)
    (hdst : GoodDst rgba.length stride i.width i.height ch.count)
    (hl : ∀ x y, x < i.width → y < i.height → NvSamples d rg (nativeSample e bp d (BiPlanar.Y i x y))
      (nativeSample e bp d (BiPlanar.U i s o x y)) (nativeSample e bp d (BiPlanar.V i s o x y))) :
    Neon.nvP16ToRgb16 false o e bp d ch s i rgba stride rg m
      = nvP16ToRgb16 x64 o e bp d ch s noSimdNV i rgba stride rg m := by
  have hD : Deep d := hd.elim .inl fun h => .inr (.inl h)
  obtain ⟨out, e1, h1⟩ := c136_neon_nv_deep_decode false o e bp d hd ch s i rgba stride rg m hi hdst
  obtain ⟨out', e2, h2⟩ := c28_nv_decode_exact o e bp d hD.depth ch s i rgba stride rg m hi hdst
  rw [e1, e2]
  congr 1
  refine frameSpec_unique h1 ⟨h2.1, fun x y c hx hy hc => ?_, h2.2.2⟩
  rw [h2.2.1 x y c hx hy hc, neonNvDeepPixel]
  split
  · rw [neonNv_eq hd rg m (hl x y hx hy) ch]
  · rfl

/-- C137: with the samples in the most significant bits the 32-bit arithmetic writes what the portable decoder
writes, whatever the image. -/
theorem c137_msb (o : NVOrder) (e : Endianness) (d : Nat)
    (hd : d = 10 ∨ d = 12) (ch : Channels) (s : Sampling) (i : BiPlanar) (rgba : Buf) (stride : Nat)
    (rg : YuvRange) (m : Matrix) (hi : GoodBiPlanar i s 65536)
    (hdst : GoodDst rgba.length stride i.width i.height ch.count) :
    Neon.nvP16ToRgb16 false o e .msb d ch s i rgba stride rg m
      = nvP16ToRgb16 x64 o e .msb d ch s noSimdNV i rgba stride rg m := by
  have hD : Deep d := hd.elim .inl fun h => .inr (.inl h)
  refine c137_portable_partial o e .msb d hd ch s i rgba stride rg m hi hdst fun x y hx hy => ?_
  obtain ⟨b1, b2, b3⟩ := bi_sample_lt (by decide) hi o x y
  exact nvSamples_depth hd (native_msb_lt hD e (.inl rfl) b1) (native_msb_lt hD e (.inl rfl) b2)
    (native_msb_lt hD e (.inl rfl) b3)

theorem neonNv_close (rdm : Bool) {d : Nat} (hd : d = 10 ∨ d = 12) (rg : YuvRange) (m : Matrix) {y u v : Nat}
    (h : LegalSamples d rg y u v) (ch : Channels) :
    DeepClose d 2 ch (neonNvDeep rdm d ch rg m y u v) (deepPixel (2 ^ 12) 13 13 d d ch rg m y u v) := by
  cases rdm
  · rw [neonNv_eq hd rg m (nvSamples_depth hd h.2.1 h.2.2.1 h.2.2.2) ch]
    exact DeepClose.same ..
  · unfold neonNvDeep
    rw [if_pos rfl, neonRdm_eq hd rg m h]
    exact deepVec_close_at (.inr rfl) hd rg m h ch

/-- C137: for samples of the depth with luma not below black, every component on 64-bit ARM is within two code
values of the portable decoder, and the same area is written. -/
theorem c137_agreement_partial (rdm : Bool) (o : NVOrder) (e : Endianness) (bp : BytesPacking) (d : Nat)
    (hd : d = 10 ∨ d = 12) (ch : Channels) (s : Sampling) (i : BiPlanar) (rgba : Buf) (stride : Nat)
    (rg : YuvRange) (m : Matrix) (hi : GoodBiPlanar i s 65536)
    (hdst : GoodDst rgba.length stride i.width i.height ch.count) (hl : LegalNv o e bp d s i rg) :
    ∃ out out', Neon.nvP16ToRgb16 rdm o e bp d ch s i rgba stride rg m = .ok out ∧
      nvP16ToRgb16 x64 o e bp d ch s noSimdNV i rgba stride rg m = .ok out' ∧
      (∀ x y, x < i.width → y < i.height →
        DeepClose d 2 ch (pixelAt out stride ch.count x y) (pixelAt out' stride ch.count x y)) ∧
      ∀ k, ¬ InFrame stride i.width i.height ch.count k → out[k]? = rgba[k]? ∧ out'[k]? = rgba[k]? := by
  have hD : Deep d := hd.elim .inl fun h => .inr (.inl h)
  obtain ⟨out, e1, h1⟩ := c136_neon_nv_deep_decode rdm o e bp d hd ch s i rgba stride rg m hi hdst
  obtain ⟨out', e2, h2⟩ := c28_nv_decode_exact o e bp d hD.depth ch s i rgba stride rg m hi hdst
  refine ⟨out, out', e1, e2, fun x y hx hy => ?_, fun k hk => ⟨h1.2.2 k hk, h2.2.2 k hk⟩⟩
  rw [frameSpec_pixel h1 (x := x) (y := y) hx hy (neonNvDeepPixel_length ..),
    frameSpec_pixel h2 (x := x) (y := y) hx hy (layout_length' ..), neonNvDeepPixel]
  split
  · exact neonNv_close rdm hd rg m (hl x y hx hy) ch
  · exact DeepClose.same ..

/-- C137: for samples of the depth with luma not below black, every component of the vector code is within
`5/2 + 2^d / 2^13` code values of the exact ITU-R result saturated to the depth. -/
theorem c137_itu_partial (rdm : Bool) (d : Nat) (hd : d = 10 ∨ d = 12) (ch : Channels) (rg : YuvRange)
    (m : Matrix) (y u v : Nat) (h : LegalSamples d rg y u v) :
    ∃ r g b : Nat, neonNvDeep rdm d ch rg m y u v = layout ch r g b (2 ^ d - 1) ∧
      |(r : Rat) - satQ d (exactR d rg m y u v)| ≤ 5 / 2 + 2 ^ d / 2 ^ 13 ∧
      |(g : Rat) - satQ d (exactG d rg m y u v)| ≤ 5 / 2 + 2 ^ d / 2 ^ 13 ∧
      |(b : Rat) - satQ d (exactB d rg m y u v)| ≤ 5 / 2 + 2 ^ d / 2 ^ 13 := by
  have hD : Deep d := hd.elim .inl fun h => .inr (.inl h)
  obtain ⟨r, g, b, e1, hr, hg, hb⟩ := c28_close (2 ^ 12) (.inr rfl) d hD.depth ch rg m y u v
    h.2.1 h.2.2.1 h.2.2.2
  have near : ∀ {a b : Nat} {E D : Rat}, (a ≤ b + 2 ∧ b ≤ a + 2) → |(b : Rat) - E| ≤ 1 / 2 + D →
      |(a : Rat) - E| ≤ 5 / 2 + D := by
    intro a b E D hab h
    have h1 : (a : Rat) ≤ b + 2 := by exact_mod_cast hab.1
    have h2 : (b : Rat) ≤ a + 2 := by exact_mod_cast hab.2
    rw [abs_le] at h ⊢
    constructor <;> linarith [h.1, h.2]
  obtain ⟨r', g', b', r2, g2, b2, q1, q2, n1, n2, n3⟩ := neonNv_close rdm hd rg m h ch
  have inj : r2 = r ∧ g2 = g ∧ b2 = b := by
    have := q2.symm.trans e1
    cases ch <;> simp_all [layout]
  obtain ⟨rfl, rfl, rfl⟩ := inj
  exact ⟨r', g', b', q1, near n1 hr, near n2 hg, near n3 hb⟩

/-- C137, without rounding multiply-accumulate: for samples of the depth, luma below black included, within
`1/2 + 2^d / 2^13` code values. -/
theorem c137_itu_wide (d : Nat) (hd : d = 10 ∨ d = 12) (ch : Channels) (rg : YuvRange)
    (m : Matrix) (y u v : Nat) (hy : y < 2 ^ d) (hu : u < 2 ^ d) (hv : v < 2 ^ d) :
    ∃ r g b : Nat, neonNvDeep false d ch rg m y u v = layout ch r g b (2 ^ d - 1) ∧
      |(r : Rat) - satQ d (exactR d rg m y u v)| ≤ 1 / 2 + 2 ^ d / 2 ^ 13 ∧
      |(g : Rat) - satQ d (exactG d rg m y u v)| ≤ 1 / 2 + 2 ^ d / 2 ^ 13 ∧
      |(b : Rat) - satQ d (exactB d rg m y u v)| ≤ 1 / 2 + 2 ^ d / 2 ^ 13 := by
  have hD : Deep d := hd.elim .inl fun h => .inr (.inl h)
  rw [neonNv_eq hd rg m (nvSamples_depth hd hy hu hv) ch]
  exact c28_close (2 ^ 12) (.inr rfl) d hD.depth ch rg m y u v hy hu hv

/-- C137 fails with rounding multiply-accumulate: luma below black decodes as black, whatever the chroma. -/
theorem c137_below_black (d : Nat) (ch : Channels) (rg : YuvRange) (m : Matrix) (y u v : Nat)
    (h : y ≤ (getYuvRange d rg).biasY) :
    neonNvDeep true d ch rg m y u v = neonNvDeep true d ch rg m (getYuvRange d rg).biasY u v := by
  have e : y - (getYuvRange d rg).biasY = (getYuvRange d rg).biasY - (getYuvRange d rg).biasY := by omega
  unfold neonNvDeep neonRdmRGB
  simp only [e, if_true]

/-- Nine columns of one colour, 4:2:2. -/
def flatRow (y u v : Nat) : BiPlanar :=
  { y := List.replicate 9 y, yStride := 9, uv := [u, v, u, v, u, v, u, v, u, v]
    uvStride := 10, width := 9, height := 1 }

theorem flatRow_good {y u v : Nat} (hy : y < 65536) (hu : u < 65536) (hv : v < 65536) :
    GoodBiPlanar (flatRow y u v) .yuv422 65536 where
  wpos := by show 0 < 9; decide
  hpos := Nat.one_pos
  w32 := by show U32 9; unfold U32; decide
  h32 := by show U32 1; unfold U32; decide
  y := ⟨by show U32 9; unfold U32; decide, Nat.le_refl 9, by show FullRows 9 9 1; unfold FullRows; decide,
    fun x hx => by rw [List.eq_of_mem_replicate hx]; exact hy⟩
  uvStride32 := by show U32 10; unfold U32; decide
  uvStride := by show 10 = 2 * cover 9 2; decide
  uvLen := by show 10 = 10 * cover 1 1; decide
  uvBound := by
    intro x hx
    simp only [flatRow, List.mem_cons, List.not_mem_nil, or_false] at hx
    omega

/-- The first and the last column of a row of one colour. -/
theorem flatRow_decode (rdm : Bool) {y u v : Nat} (hy : y < 65536) (hu : u < 65536) (hv : v < 65536) :
    ∃ out, Neon.nvP16ToRgb16 rdm .uv .little .lsb 10 .rgb .yuv422 (flatRow y u v) (List.replicate 27 0) 27
        .limited .bt709 = .ok out ∧
      pixelAt out 27 3 0 0 = neonNvDeep rdm 10 .rgb .limited .bt709 y u v ∧
      pixelAt out 27 3 8 0 = deepPixel (2 ^ 12) 13 13 10 10 .rgb .limited .bt709 y u v := by
  obtain ⟨out, e, h⟩ := c136_neon_nv_deep_decode rdm .uv .little .lsb 10 (.inl rfl) .rgb .yuv422
    (flatRow y u v) (List.replicate 27 0) 27 .limited .bt709 (flatRow_good hy hu hv)
    ⟨by unfold U32; decide, Nat.le_refl 27, by show FullRows 27 27 1; unfold FullRows; decide, by decide⟩
  refine ⟨out, e, ?_, ?_⟩
  · refine (frameSpec_pixel h (x := 0) (y := 0) (by show 0 < 9; decide) Nat.one_pos
      (neonNvDeepPixel_length ..)).trans ?_
    rw [neonNvDeepPixel, if_pos (show 0 < groupCols (flatRow y u v).width by show 0 < groupCols 9; decide)]
    rfl
  · refine (frameSpec_pixel h (x := 8) (y := 0) (by show 8 < 9; decide) Nat.one_pos
      (neonNvDeepPixel_length ..)).trans ?_
    rw [neonNvDeepPixel, if_neg (show ¬ 8 < groupCols (flatRow y u v).width by show ¬ 8 < groupCols 9; decide)]
    rfl

/-- C137 fails below black with rounding multiply-accumulate: in a row of one colour with luma 0 the first
column is 75 code values brighter than the last, which portable code does. -/
theorem c137_violated_below_black :
    ∃ out, Neon.nvP16ToRgb16 true .uv .little .lsb 10 .rgb .yuv422 (flatRow 0 512 700) (List.replicate 27 0) 27
        .limited .bt709 = .ok out ∧
      pixelAt out 27 3 0 0 = [338, 0, 0] ∧ pixelAt out 27 3 8 0 = [263, 0, 0] := by
  obtain ⟨out, e, h1, h2⟩ := flatRow_decode true (y := 0) (u := 512) (v := 700) (by decide) (by decide) (by decide)
  refine ⟨out, e, h1.trans ?_, h2.trans ?_⟩ <;> decide +kernel

/-- C137 fails beyond the depth without it: in a row of luma words of 40000 the first column is black, the last
is white. -/
theorem c137_violated_beyond_depth :
    ∃ out, Neon.nvP16ToRgb16 false .uv .little .lsb 10 .rgb .yuv422 (flatRow 40000 512 512) (List.replicate 27 0) 27
        .limited .bt709 = .ok out ∧
      pixelAt out 27 3 0 0 = [0, 0, 0] ∧ pixelAt out 27 3 8 0 = [1023, 1023, 1023] := by
  obtain ⟨out, e, h1, h2⟩ := flatRow_decode false (y := 40000) (u := 512) (v := 512) (by decide) (by decide)
    (by decide)
  refine ⟨out, e, h1.trans ?_, h2.trans ?_⟩ <;> decide +kernel

/-- A legal image in which the chroma is neither lost nor doubled. -/
example : ∃ out, Neon.nvP16ToRgb16 false .uv .little .lsb 10 .rgb .yuv422 (flatRow 500 512 700)
      (List.replicate 27 0) 27 .limited .bt709 = .ok out ∧
    LegalSamples 10 .limited 500 512 700 ∧
    pixelAt out 27 3 0 0 = [847, 409, 509] ∧ pixelAt out 27 3 8 0 = [847, 409, 509] := by
  obtain ⟨out, e, h1, h2⟩ := flatRow_decode false (y := 500) (u := 512) (v := 700) (by decide) (by decide)
    (by decide)
  refine ⟨out, e, by unfold LegalSamples; decide, h1.trans ?_, h2.trans ?_⟩ <;> decide +kernel

end Verif
