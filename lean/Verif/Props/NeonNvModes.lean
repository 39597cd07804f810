import Verif.Lemmas.NeonNvModes
import Verif.Props.X86NvModes
/-!
# C126–C129: 8-bit semi-planar YCbCr to RGB in the professional and fast modes on 64-bit ARM
-/
namespace Verif
open Spec X86

theorem neon_prof_rel (o : NVOrder) (ch : Channels) (s : Sampling) (i : BiPlanar)
    (rgba : Buf) (stride : Nat) (rg : YuvRange) (m : Matrix) (hi : GoodBiPlanar i s 256)
    (hdst : GoodDst rgba.length stride i.width i.height ch.count) :
    ∃ out, Neon.nvToRgbxProf o ch s i rgba stride rg m = .ok out ∧
      FrameRel out rgba stride i.width i.height ch.count (fun x y p =>
        p = profDecodedPixel ch rg m (BiPlanar.Y i x y) (BiPlanar.U i s o x y) (BiPlanar.V i s o x y)) := by
  obtain ⟨hb, hby⟩ := range_bias rg
  exact nv_kernels_rel .professional o ch s i rgba stride rg m
    (Neon.profNv_ok false (profFits_search rg m) hb hby) (Neon.profNv_ok true (profFits_search rg m) hb hby)
    hi hdst

theorem neon_fast_rel (o : NVOrder) (ch : Channels) (s : Sampling) (i : BiPlanar)
    (rgba : Buf) (stride : Nat) (rg : YuvRange) (m : Matrix) (hi : GoodBiPlanar i s 256)
    (hdst : GoodDst rgba.length stride i.width i.height ch.count) :
    ∃ out, Neon.nvToRgbxFast o ch s i rgba stride rg m = .ok out ∧
      FrameRel out rgba stride i.width i.height ch.count (fun x y p =>
        p = neonFastPixel ch rg m (BiPlanar.Y i x y) (BiPlanar.U i s o x y) (BiPlanar.V i s o x y)) := by
  obtain ⟨hb, hby⟩ := range_bias rg
  obtain ⟨f, l, _⟩ := fast_coef_bounds rg m
  have h80 : (searchInverse 6 8 rg m).y ≤ 80 := by
    cases rg
    · rw [l rfl]; decide
    · rw [f rfl]; decide
  have hK := Neon.fastNv_ok (nvFastFits_search rg m) h80 hb hby
  exact nv_kernels_rel .fast o ch s i rgba stride rg m hK hK hi hdst

/-! ## C126: professional mode -/

/-- C126: on 64-bit ARM the semi-planar decoders of the professional mode succeed on every good image and
destination — no load or store of the vector code leaves its slice or its stack buffer — and write exactly
the pixels of the image, each the decoding of precision 14 of the samples shown there, with luma below
black taken as black and the coefficient of red reduced to 16 bits. -/
theorem c126_neon_prof_nv_decode (o : NVOrder) (ch : Channels) (s : Sampling) (i : BiPlanar)
    (rgba : Buf) (stride : Nat) (rg : YuvRange) (m : Matrix) (hi : GoodBiPlanar i s 256)
    (hdst : GoodDst rgba.length stride i.width i.height ch.count) :
    ∃ out, Neon.nvToRgbxProf o ch s i rgba stride rg m = .ok out ∧
      FrameSpec out rgba stride i.width i.height ch.count (fun x y =>
        profDecodedPixel ch rg m (BiPlanar.Y i x y) (BiPlanar.U i s o x y) (BiPlanar.V i s o x y)) := by
  obtain ⟨out, e, h⟩ := neon_prof_rel o ch s i rgba stride rg m hi hdst
  exact ⟨out, e, frameRel_eq h⟩

/-- C126: they write the very bytes an x86 processor with AVX2 or SSE4.1 writes, whatever the image. -/
theorem c126_same_as_x86 (cpu : Cpu) (hc : cpu ≠ .plain) (o : NVOrder) (ch : Channels) (s : Sampling)
    (i : BiPlanar) (dst : Buf) (stride : Nat) (rg : YuvRange) (m : Matrix)
    (hi : GoodBiPlanar i s 256) (hdst : GoodDst dst.length stride i.width i.height ch.count) :
    ∃ out, Neon.nvToRgbxProf o ch s i dst stride rg m = .ok out ∧
      nvToRgbxProfOn cpu o ch s i dst stride rg m = .ok out := by
  obtain ⟨out, e, h⟩ := neon_prof_rel o ch s i dst stride rg m hi hdst
  obtain ⟨out', e', h'⟩ := prof_nv_rel cpu o ch s i dst stride rg m hi hdst
  refine ⟨out, e, ?_⟩
  rw [e', frameSpec_unique (frameRel_eq h') (frameRel_eq ⟨h.1, fun x y hx hy => ?_, h.2.2⟩)]
  show _ = _
  rw [h.2.1 x y hx hy]
  cases cpu
  · rfl
  · rfl
  · exact absurd rfl hc

/-- C126: swapping the two elements of every chroma pair and reading the image in the other order
(NV12 as NV21, …) gives identical bytes. -/
theorem c126_nv21_is_swapped_nv12 (ch : Channels) (s : Sampling) (i j : BiPlanar)
    (rgba : Buf) (stride : Nat) (rg : YuvRange) (m : Matrix) (hi : GoodBiPlanar i s 256)
    (hj : GoodBiPlanar j s 256) (hw : i.width = j.width) (hh : i.height = j.height)
    (hY : ∀ x y, x < i.width → y < i.height → at' i.y i.yStride x y = at' j.y j.yStride x y)
    (hC : ∀ cx cy, cx < cover i.width (hdiv s) → cy < cover i.height (vdiv s) →
      at' i.uv i.uvStride (2 * cx) cy = at' j.uv j.uvStride (2 * cx + 1) cy ∧
      at' i.uv i.uvStride (2 * cx + 1) cy = at' j.uv j.uvStride (2 * cx) cy)
    (hdst : GoodDst rgba.length stride i.width i.height ch.count) :
    ∃ out, Neon.nvToRgbxProf .uv ch s i rgba stride rg m = .ok out ∧
      Neon.nvToRgbxProf .vu ch s j rgba stride rg m = .ok out := by
  have hdst' : GoodDst rgba.length stride j.width j.height ch.count := by rw [← hw, ← hh]; exact hdst
  obtain ⟨out, e, f⟩ := c126_same_as_x86 .sse41 (by decide) .uv ch s i rgba stride rg m hi hdst
  obtain ⟨out', e', f'⟩ := c126_same_as_x86 .sse41 (by decide) .vu ch s j rgba stride rg m hj hdst'
  obtain ⟨o, g, g'⟩ := c100_nv21_is_swapped_nv12 .sse41 ch s i j rgba stride rg m hi hj hw hh hY hC hdst
  rw [f] at g
  rw [f'] at g'
  injection g with g
  injection g' with g'
  exact ⟨out, e, by rw [e', g', g]⟩

example : GoodBiPlanar demoNV12 .yuv420 256 ∧ GoodDst 33 11 demoNV12.width demoNV12.height 3 ∧
    Cpu.avx2 ≠ .plain :=
  ⟨demoNV12_good, ⟨by unfold U32; decide, by decide, by unfold FullRows; decide, by decide⟩, by decide⟩

/-! ## C127: professional mode against the portable code and the standard -/

/-- C127, what holds: for an image without luma below black, unless the matrix is SMPTE 240 in limited
range, a 64-bit ARM processor and an x86 processor of whatever class, with or without vector extensions,
write identical bytes.  Missing: luma below black and that matrix, where the claim is false. -/
theorem c127_portable_agreement_partial (cpu : Cpu) (o : NVOrder) (ch : Channels) (s : Sampling)
    (i : BiPlanar) (dst : Buf) (stride : Nat) (rg : YuvRange) (m : Matrix)
    (hi : GoodBiPlanar i s 256) (hdst : GoodDst dst.length stride i.width i.height ch.count)
    (hm : ¬ (rg = .limited ∧ m = .smpte240))
    (hblack : ∀ x y, x < i.width → y < i.height → (getYuvRange 8 rg).biasY ≤ BiPlanar.Y i x y) :
    ∃ out, Neon.nvToRgbxProf o ch s i dst stride rg m = .ok out ∧
      nvToRgbxProfOn cpu o ch s i dst stride rg m = .ok out := by
  obtain ⟨out, e, f⟩ := c126_same_as_x86 .avx2 (by decide) o ch s i dst stride rg m hi hdst
  obtain ⟨out', g, g'⟩ := c101_prof_cpu_agreement_partial .avx2 cpu o ch s i dst stride rg m hi hdst hm hblack
  rw [f] at g
  injection g with g
  exact ⟨out, e, by rw [g', g]⟩

/-- C127 against the standard, what holds: every component is within 0.52 code values of the saturated exact
ITU-R result with luma below black taken as black, unless the matrix is SMPTE 240 in limited range.
Missing: that matrix, where the claim is false. -/
theorem c127_accuracy_partial (o : NVOrder) (ch : Channels)
    (s : Sampling) (i : BiPlanar) (dst : Buf) (stride : Nat) (rg : YuvRange) (m : Matrix)
    (hi : GoodBiPlanar i s 256) (hdst : GoodDst dst.length stride i.width i.height ch.count)
    (hm : ¬ (rg = .limited ∧ m = .smpte240)) :
    ∃ out, Neon.nvToRgbxProf o ch s i dst stride rg m = .ok out ∧
      ∀ x y, x < i.width → y < i.height →
        ∃ r g b : Nat, pixelAt out stride ch.count x y = layout ch r g b 255 ∧
        let Y : Rat := (max (BiPlanar.Y i x y) (getYuvRange 8 rg).biasY : Nat)
        let U : Rat := BiPlanar.U i s o x y
        let V : Rat := BiPlanar.V i s o x y
        |(r : Rat) - satQ 8 (exactR 8 rg m Y U V)| ≤ 52 / 100 ∧
        |(g : Rat) - satQ 8 (exactG 8 rg m Y U V)| ≤ 52 / 100 ∧
        |(b : Rat) - satQ 8 (exactB 8 rg m Y U V)| ≤ 52 / 100 := by
  obtain ⟨out, e, f⟩ := c126_same_as_x86 .avx2 (by decide) o ch s i dst stride rg m hi hdst
  obtain ⟨out', g, h⟩ := c101_prof_accuracy_partial .avx2 o ch s i dst stride rg m hi hdst hm
  rw [f] at g
  injection g with g
  subst g
  exact ⟨out, e, h⟩

/-- C127 fails for SMPTE 240 in limited range: red of this color is 0 on 64-bit ARM; it should be 247. -/
theorem c127_smpte240_wrong_red :
    Neon.nvToRgbxProf .uv .rgb .yuv420 redNV (List.replicate 12 0) 6 .limited .smpte240 =
      .ok [0, 79, 98, 0, 79, 98, 0, 79, 98, 0, 79, 98] ∧
    nvToRgbxProfOn .plain .uv .rgb .yuv420 redNV (List.replicate 12 0) 6 .limited .smpte240 =
      .ok [247, 79, 98, 247, 79, 98, 247, 79, 98, 247, 79, 98] ∧
    247 < exactR 8 .limited .smpte240 100 128 200 := by
  refine ⟨?_, c101_smpte240_wrong_red.1, c101_smpte240_wrong_red.2.2⟩
  decide +kernel

/-- C127 fails for luma below black: red of this color is 115 on 64-bit ARM and 96 in portable code. -/
theorem c127_dark_luma_differs :
    Neon.nvToRgbxProf .uv .rgb .yuv420 darkNV (List.replicate 12 0) 6 .limited .bt601 =
      .ok [115, 0, 0, 115, 0, 0, 115, 0, 0, 115, 0, 0] ∧
    nvToRgbxProfOn .plain .uv .rgb .yuv420 darkNV (List.replicate 12 0) 6 .limited .bt601 =
      .ok [96, 0, 0, 96, 0, 0, 96, 0, 0, 96, 0, 0] := by
  refine ⟨?_, c101_dark_luma_differs.1⟩
  decide +kernel

/-- The hypotheses of C127 are met by a 2×2 image. -/
example : GoodBiPlanar blueNV .yuv420 256 ∧ GoodDst 12 6 blueNV.width blueNV.height 3 ∧
    ¬ (YuvRange.limited = .limited ∧ Matrix.bt601 = .smpte240) ∧
    ∀ x y, x < blueNV.width → y < blueNV.height → (getYuvRange 8 .limited).biasY ≤ BiPlanar.Y blueNV x y := by
  refine ⟨blueNV_good, ⟨by unfold U32; decide, by decide, by unfold FullRows; decide, by decide⟩,
    by decide, ?_⟩
  intro x y hx hy
  have hx : x < 2 := hx
  have hy : y < 2 := hy
  interval_cases x <;> interval_cases y <;> decide

/-! ## C128: fast mode -/

/-- C128: on 64-bit ARM the semi-planar decoders of the fast mode succeed on every good image and
destination — no load or store of the vector code leaves its slice or its stack buffer — and write exactly
the pixels of the image, each `neonFastPixel` of the samples shown there. -/
theorem c128_neon_fast_nv_decode (o : NVOrder) (ch : Channels) (s : Sampling) (i : BiPlanar)
    (rgba : Buf) (stride : Nat) (rg : YuvRange) (m : Matrix) (hi : GoodBiPlanar i s 256)
    (hdst : GoodDst rgba.length stride i.width i.height ch.count) :
    ∃ out, Neon.nvToRgbxFast o ch s i rgba stride rg m = .ok out ∧
      FrameSpec out rgba stride i.width i.height ch.count (fun x y =>
        neonFastPixel ch rg m (BiPlanar.Y i x y) (BiPlanar.U i s o x y) (BiPlanar.V i s o x y)) := by
  obtain ⟨out, e, h⟩ := neon_fast_rel o ch s i rgba stride rg m hi hdst
  exact ⟨out, e, frameRel_eq h⟩

/-- C128: swapping the two elements of every chroma pair and reading the image in the other order
gives identical bytes. -/
theorem c128_nv21_is_swapped_nv12 (ch : Channels) (s : Sampling) (i j : BiPlanar)
    (rgba : Buf) (stride : Nat) (rg : YuvRange) (m : Matrix) (hi : GoodBiPlanar i s 256)
    (hj : GoodBiPlanar j s 256) (hw : i.width = j.width) (hh : i.height = j.height)
    (hY : ∀ x y, x < i.width → y < i.height → at' i.y i.yStride x y = at' j.y j.yStride x y)
    (hC : ∀ cx cy, cx < cover i.width (hdiv s) → cy < cover i.height (vdiv s) →
      at' i.uv i.uvStride (2 * cx) cy = at' j.uv j.uvStride (2 * cx + 1) cy ∧
      at' i.uv i.uvStride (2 * cx + 1) cy = at' j.uv j.uvStride (2 * cx) cy)
    (hdst : GoodDst rgba.length stride i.width i.height ch.count) :
    ∃ out, Neon.nvToRgbxFast .uv ch s i rgba stride rg m = .ok out ∧
      Neon.nvToRgbxFast .vu ch s j rgba stride rg m = .ok out := by
  obtain ⟨out, e, h⟩ := neon_fast_rel .uv ch s i rgba stride rg m hi hdst
  rw [hw, hh] at hdst
  obtain ⟨out', e', h'⟩ := neon_fast_rel .vu ch s j rgba stride rg m hj hdst
  refine ⟨out, e, ?_⟩
  rw [e']
  congr 1
  refine frameSpec_unique (frameRel_eq h') ?_
  rw [← hw, ← hh]
  refine frameRel_eq ⟨h.1, fun x y hx hy => ?_, h.2.2⟩
  rw [h.2.1 x y hx hy]
  have a : BiPlanar.Y i x y = BiPlanar.Y j x y := hY x y hx hy
  obtain ⟨b, c⟩ := swapped_samples hi hC hx hy
  simp only [a, b, c]

/-! ## C129: fast mode against other processors -/

/-- The fast component of 64-bit ARM is the one of x86 or one more. -/
theorem neonFast_component (S : Int) :
    let a := (max (min (int16 S / 2 ^ 6) 255) 0).toNat
    let b := (max (min ((int16 S + 32) / 2 ^ 6) 255) 0).toNat
    a ≤ b + 1 ∧ b ≤ a + 1 := by
  generalize int16 S = x
  norm_num
  omega

/-- C129: whatever the image, a 64-bit ARM and an x86 processor with AVX2 or SSE4.1 decode it to pixels
whose components differ by at most one code value, and write the same area. -/
theorem c129_near_x86 (cpu : Cpu) (hc : cpu ≠ .plain) (o : NVOrder) (ch : Channels) (s : Sampling)
    (i : BiPlanar) (dst : Buf) (stride : Nat) (rg : YuvRange) (m : Matrix)
    (hi : GoodBiPlanar i s 256) (hdst : GoodDst dst.length stride i.width i.height ch.count) :
    ∃ out out', Neon.nvToRgbxFast o ch s i dst stride rg m = .ok out ∧
      nvToRgbxFastOn cpu o ch s i dst stride rg m = .ok out' ∧
      (∀ x y, x < i.width → y < i.height →
        PixelsNear ch (pixelAt out stride ch.count x y) (pixelAt out' stride ch.count x y)) ∧
      (∀ k, ¬ InFrame stride i.width i.height ch.count k → out[k]? = dst[k]? ∧ out'[k]? = dst[k]?) := by
  obtain ⟨out, e, h⟩ := neon_fast_rel o ch s i dst stride rg m hi hdst
  obtain ⟨out', e', h'⟩ := fast_nv_rel cpu o ch s i dst stride rg m hi hdst
  refine ⟨out, out', e, e', fun x y hx hy => ?_, fun k hk => ⟨h.2.2 k hk, h'.2.2 k hk⟩⟩
  rw [h.2.1 x y hx hy, h'.2.1 x y hx hy]
  have key : fastNvPixel cpu o ch s i rg m x y
      = fastDecodedPixel ch rg m (BiPlanar.Y i x y) (BiPlanar.U i s o x y) (BiPlanar.V i s o x y) := by
    cases cpu
    · rfl
    · rfl
    · exact absurd rfl hc
  rw [key]
  exact ⟨_, _, _, _, _, _, rfl, rfl, (neonFast_component _).symm, (neonFast_component _).symm,
    (neonFast_component _).symm⟩

/-- The fast component of 64-bit ARM is the scalar one or one more. -/
theorem neonFast_scalar {S : Int} (h1 : -32768 ≤ S) (h2 : S ≤ 32767) :
    let a := (max (min ((int16 S + 32) / 2 ^ 6) 255) 0).toNat
    let b := (max (min ((S + (2 ^ (6 - 1) - 1)) / 2 ^ 6) (2 ^ 8 - 1)) 0).toNat
    b ≤ a ∧ a ≤ b + 1 := by
  have e : int16 S = S := by unfold int16; omega
  simp only [e]
  norm_num
  omega

/-- The fast decoding of 64-bit ARM against the scalar one. -/
theorem neonFast_near (rg : YuvRange) (m : Matrix) {y u v : Nat} (hy : y < 256) (hu : u < 256) (hv : v < 256)
    (hb : (getYuvRange 8 rg).biasY ≤ y) (hw : rg = .limited → y ≤ 237) :
    let a := neonFastDecoded (searchInverse 6 8 rg m) (getYuvRange 8 rg).biasY y u v
    let b := decodeRGB 6 8 (searchInverse 6 8 rg m) (getYuvRange 8 rg).biasY (getYuvRange 8 rg).biasUv y u v
    (b.1 ≤ a.1 ∧ a.1 ≤ b.1 + 1) ∧ (b.2.1 ≤ a.2.1 ∧ a.2.1 ≤ b.2.1 + 1) ∧
      (b.2.2 ≤ a.2.2 ∧ a.2.2 ≤ b.2.2 + 1) := by
  obtain ⟨f, l, r0, r1, b0, b1, g0, g1, g2, g3, g4, fc⟩ := fast_coef_bounds rg m
  rw [(range_bias rg).1]
  set t := searchInverse 6 8 rg m with ht
  have dy : ((y - (getYuvRange 8 rg).biasY : Nat) : Int) = (y : Int) - (getYuvRange 8 rg).biasY := by omega
  unfold neonFastDecoded decodeRGB
  simp only [dy]
  have hu' : -128 ≤ (u : Int) - 128 ∧ (u : Int) - 128 ≤ 127 := by omega
  have hv' : -128 ≤ (v : Int) - 128 ∧ (v : Int) - 128 ≤ 127 := by omega
  generalize (u : Int) - 128 = cb at *
  generalize (v : Int) - 128 = cr at *
  have hdy : 0 ≤ ((y : Int) - (getYuvRange 8 rg).biasY) * t.y ∧
      ((y : Int) - (getYuvRange 8 rg).biasY) * t.y ≤ 16575 := by
    cases rg with
    | full =>
      rw [f rfl]
      have e : (getYuvRange 8 .full).biasY = 0 := rfl
      rw [e]; omega
    | limited =>
      have h237 := hw rfl
      rw [l rfl]
      have e : (getYuvRange 8 .limited).biasY = 16 := rfl
      rw [e] at hb ⊢; omega
  generalize ((y : Int) - (getYuvRange 8 rg).biasY) * t.y = Y at *
  have m1 := mulBound7 hv' ⟨r0, r1⟩
  have m2 := mulBound7 hu' ⟨b0, b1⟩
  have m3 := mulBound7 hv' (w := t.g1) ⟨g0, by omega⟩
  have m4 := mulBound7 hu' (w := t.g2) ⟨g2, by omega⟩
  have n1 : t.cr * cr ≤ 16129 := by obtain ⟨v1, v2⟩ := hv'; nlinarith
  have n2 : t.cb * cb ≤ 16129 := by obtain ⟨v1, v2⟩ := hu'; nlinarith
  have n3 : -8064 ≤ t.g1 * cr ∧ t.g1 * cr ≤ 8064 := by
    obtain ⟨v1, v2⟩ := hv'
    constructor <;> nlinarith
  have n4 : -8064 ≤ t.g2 * cb ∧ t.g2 * cb ≤ 8064 := by
    obtain ⟨v1, v2⟩ := hu'
    constructor <;> nlinarith
  rw [mul_comm] at m1 m2
  rw [sub_sub]
  exact ⟨neonFast_scalar (by omega) (by omega), neonFast_scalar (by omega) (by omega),
    neonFast_scalar (by omega) (by omega)⟩

/-- C129 against portable code, what holds: for an image whose luma is not below black and, in limited range,
not above 237, the components differ by at most one code value.  Missing: those luma values, where the
claim is false. -/
theorem c129_portable_partial (o : NVOrder) (ch : Channels) (s : Sampling)
    (i : BiPlanar) (dst : Buf) (stride : Nat) (rg : YuvRange) (m : Matrix)
    (hi : GoodBiPlanar i s 256) (hdst : GoodDst dst.length stride i.width i.height ch.count)
    (hblack : ∀ x y, x < i.width → y < i.height → (getYuvRange 8 rg).biasY ≤ BiPlanar.Y i x y)
    (hwhite : rg = .limited → ∀ x y, x < i.width → y < i.height → BiPlanar.Y i x y ≤ 237) :
    ∃ out out', Neon.nvToRgbxFast o ch s i dst stride rg m = .ok out ∧
      nvToRgbxFastOn .plain o ch s i dst stride rg m = .ok out' ∧
      (∀ x y, x < i.width → y < i.height →
        PixelsNear ch (pixelAt out stride ch.count x y) (pixelAt out' stride ch.count x y)) ∧
      (∀ k, ¬ InFrame stride i.width i.height ch.count k → out[k]? = dst[k]? ∧ out'[k]? = dst[k]?) := by
  obtain ⟨out, e, h⟩ := neon_fast_rel o ch s i dst stride rg m hi hdst
  obtain ⟨out', e', h'⟩ := fast_nv_rel .plain o ch s i dst stride rg m hi hdst
  refine ⟨out, out', e, e', fun x y hx hy => ?_, fun k hk => ⟨h.2.2 k hk, h'.2.2 k hk⟩⟩
  obtain ⟨b1, b2, b3⟩ := hi.sample_lt (o := o) hx hy
  obtain ⟨n1, n2, n3⟩ := neonFast_near rg m b1 b2 b3 (hblack x y hx hy) (fun hr => hwhite hr x y hx hy)
  rw [h.2.1 x y hx hy, h'.2.1 x y hx hy]
  exact ⟨_, _, _, _, _, _, rfl, rfl, ⟨n1.2, Nat.le_succ_of_le n1.1⟩,
    ⟨n2.2, Nat.le_succ_of_le n2.1⟩, ⟨n3.2, Nat.le_succ_of_le n3.1⟩⟩

/-- C129 fails for luma 238 and above in limited range: blue of this color is 255 in portable code and 0 on
64-bit ARM, because the 16-bit sum wraps. -/
theorem c129_bright_blue_wraps :
    Neon.nvToRgbxFast .uv .rgb .yuv420 brightNV (List.replicate 12 0) 6 .limited .bt709 =
      .ok [255, 232, 0, 255, 232, 0, 255, 232, 0, 255, 232, 0] ∧
    nvToRgbxFastOn .plain .uv .rgb .yuv420 brightNV (List.replicate 12 0) 6 .limited .bt709 =
      .ok [255, 232, 255, 255, 232, 255, 255, 232, 255, 255, 232, 255] := by
  refine ⟨?_, c103_bright_blue_wraps.1⟩
  decide +kernel

/-- The hypotheses of C129 are met by a 2×2 image. -/
example : GoodBiPlanar blueNV .yuv420 256 ∧ GoodDst 12 6 blueNV.width blueNV.height 3 ∧
    ∀ x y, x < blueNV.width → y < blueNV.height →
    (getYuvRange 8 .limited).biasY ≤ BiPlanar.Y blueNV x y ∧ BiPlanar.Y blueNV x y ≤ 237 := by
  refine ⟨blueNV_good, ⟨by unfold U32; decide, by decide, by unfold FullRows; decide, by decide⟩, ?_⟩
  intro x y hx hy
  have hx : x < 2 := hx
  have hy : y < 2 := hy
  interval_cases x <;> interval_cases y <;> decide

end Verif
