import Verif.Lemmas.NeonNvP10
import Verif.Props.NeonNvDeep16
import Verif.Props.NeonDeep8
/-!
# C140, C141: P010, P210 and P410 to 8-bit RGB on 64-bit ARM
-/
namespace Verif
open Spec X86 Neon

/-! ## C140 -/

theorem nv10Coef_search (md : Mode) (rg : YuvRange) (m : Matrix) :
    Nv10Coef md (searchInverse (nvP10Precision md) 10 rg m) := by
  cases md
  · exact deepCoef_search (.inl rfl) rg m
  · exact deepCoef_search (.inl rfl) rg m
  · show Nv10Coef .professional (searchInverse 14 10 rg m)
    unfold Nv10Coef
    cases m <;> cases rg <;> decide +kernel

/-- The pixel at `(x, y)`: a function of the 10-bit samples shown there, the same in every column. -/
def nv10ArmPixel (md : Mode) (o : NVOrder) (e : Endianness) (ch : Channels) (s : Sampling) (i : BiPlanar)
    (rg : YuvRange) (m : Matrix) (x y : Nat) : Buf :=
  nv10Pixel md ch (getYuvRange 10 rg) (searchInverse (nvP10Precision md) 10 rg m)
    (nativeSample e .msb 10 (BiPlanar.Y i x y)) (nativeSample e .msb 10 (BiPlanar.U i s o x y))
    (nativeSample e .msb 10 (BiPlanar.V i s o x y))

/-- C140: on 64-bit ARM the decoders of P010, P210 and P410 to 8-bit RGB succeed in every mode on every good
image and destination, whatever the words stored in the image — no load or store of the vector code leaves its
slice — and write exactly the pixels of the image, each a function of the samples shown at it. -/
theorem c140_neon_p10_decode (md : Mode) (o : NVOrder) (e : Endianness) (ch : Channels) (s : Sampling)
    (i : BiPlanar) (rgba : Buf) (stride : Nat) (rg : YuvRange) (m : Matrix) (hi : GoodBiPlanar i s 65536)
    (hdst : GoodDst rgba.length stride i.width i.height ch.count) :
    ∃ out, Neon.nvP10ToRgb8 md o e .msb ch s i rgba stride rg m = .ok out ∧
      FrameSpec out rgba stride i.width i.height ch.count (nv10ArmPixel md o e ch s i rg m) := by
  have hcn := X86.count_pos ch
  have hst : 0 < stride := Nat.lt_of_lt_of_le (Nat.mul_pos hi.wpos hcn) hdst.cols_le
  obtain ⟨hby, hbu⟩ := deep_bias (d := 10) (.inl rfl) rg
  have hf := nv10Handler_fills (w := i.width) (nv10Coef_search md rg m) hby hbu o s e ch
    (fun y u v => deepPixel (2 ^ (nvP10Precision md + 1) - 1) (nvP10Precision md)
        (nvP10Precision md + 2) 10 8 ch rg m (toNe e .msb y (16 - 10)) (toNe e .msb u (16 - 10))
        (toNe e .msb v (16 - 10)))
  unfold Neon.nvP10ToRgb8 Verif.nvP10ToRgb8
  rw [hdst.accepted hi.wpos hi.hpos hi.w32 hi.h32 hcn (X86.count_le ch), hi.accepted]
  simp only [Outcome.bind_ok]
  obtain ⟨out, e1, h⟩ := (nvDeepFrame_row hi.rows hcn (putNvP10_ok md e ch rg m) hf
    hdst.cols_le hdst.full).spec hcn hst hdst.cols_le hdst.full.1
  refine ⟨out, e1, frameRel_eq ⟨h.1, fun x y hx hy => ?_, h.2.2⟩⟩
  have hq : _ = nv10Px _ _ _ _ _ _ _ _ := h.2.1 x y hx hy
  refine hq.trans ?_
  cases o <;> rfl

/-- C140: byte order only represents the samples. -/
theorem c140_representation (md : Mode) (o : NVOrder) (e : Endianness) (ch : Channels) (s : Sampling)
    (i i' : BiPlanar) (rgba : Buf) (stride : Nat) (rg : YuvRange) (m : Matrix)
    (hi : GoodBiPlanar i s 65536) (hi' : GoodBiPlanar i' s 65536)
    (hdst : GoodDst rgba.length stride i.width i.height ch.count)
    (hw : i'.width = i.width) (hh : i'.height = i.height)
    (hs : ∀ x y, x < i.width → y < i.height →
      nativeSample .little .msb 10 (BiPlanar.Y i' x y) = nativeSample e .msb 10 (BiPlanar.Y i x y) ∧
      nativeSample .little .msb 10 (BiPlanar.U i' s o x y) = nativeSample e .msb 10 (BiPlanar.U i s o x y) ∧
      nativeSample .little .msb 10 (BiPlanar.V i' s o x y) = nativeSample e .msb 10 (BiPlanar.V i s o x y)) :
    ∃ out, Neon.nvP10ToRgb8 md o e .msb ch s i rgba stride rg m = .ok out ∧
      Neon.nvP10ToRgb8 md o .little .msb ch s i' rgba stride rg m = .ok out := by
  obtain ⟨out, e1, hr⟩ := c140_neon_p10_decode md o e ch s i rgba stride rg m hi hdst
  obtain ⟨out', e2, hr'⟩ := c140_neon_p10_decode md o .little ch s i' rgba stride rg m hi'
    (by rw [hw, hh]; exact hdst)
  refine ⟨out, e1, ?_⟩
  rw [e2]; congr 1
  rw [hw, hh] at hr'
  refine frameSpec_unique hr' ⟨hr.1, fun x y c hx hy hc => ?_, hr.2.2⟩
  rw [hr.2.1 x y c hx hy hc]
  obtain ⟨a, b, d⟩ := hs x y hx hy
  unfold nv10ArmPixel
  rw [a, b, d]

/-! ## C141 -/

/-- The correctly rounded and saturated decoding of 10-bit samples, to 8 bits. -/
def p10Rounded (md : Mode) (rg : YuvRange) (m : Matrix) (y u v : Nat) : Nat × Nat × Nat :=
  let p := nvP10Precision md
  let t := searchInverse p 10 rg m
  let c := getYuvRange 10 rg
  let q := fun s => saturate 8 (roundShift (2 ^ (p + 1) - 1) (p + 2) s)
  (q (linR t c.biasY c.biasUv y v), q (linG t c.biasY c.biasUv y u v), q (linB t c.biasY c.biasUv y u))

theorem nv10Cut_below (md : Mode) (s : Int) :
    let p := saturate 8 (roundShift (2 ^ (nvP10Precision md + 1) - 1) (nvP10Precision md + 2) s)
    nv10Cut md s ≤ p ∧ p ≤ nv10Cut md s + 1 := by
  cases md <;> simp only [nv10Cut, nv10Round, nv10Bits, nvP10Precision, byteSat, saturate, roundShift] <;>
    norm_num only <;> omega

/-- The configurations in which the weight of Cr does not fit 16 bits: SMPTE 240M in limited range, in the
professional mode. -/
def CrFits (md : Mode) (rg : YuvRange) (m : Matrix) : Prop :=
  ¬ (md = .professional ∧ rg = .limited ∧ m = .smpte240)

theorem nv10Cr_fits {md : Mode} {rg : YuvRange} {m : Matrix} (h : CrFits md rg m) :
    nv10Cr md (searchInverse (nvP10Precision md) 10 rg m).cr = (searchInverse (nvP10Precision md) 10 rg m).cr := by
  cases md
  · rfl
  · rfl
  · cases rg <;> cases m <;> first | exact absurd ⟨rfl, rfl, rfl⟩ h | decide +kernel

/-- C141: for luma not below black the components are those of the correctly rounded and saturated decoding or
one less, where the weight of Cr fits. -/
theorem c141_one_below (md : Mode) (rg : YuvRange) (m : Matrix) (y u v : Nat)
    (hc : CrFits md rg m) (h : (getYuvRange 10 rg).biasY ≤ y) :
    OneBelow (nv10RGB md (getYuvRange 10 rg) (searchInverse (nvP10Precision md) 10 rg m) y u v)
      (p10Rounded md rg m y u v) := by
  have ey : ((y - (getYuvRange 10 rg).biasY : Nat) : Int) = (y : Int) - (getYuvRange 10 rg).biasY := by omega
  unfold p10Rounded nv10RGB OneBelow
  simp only [nv10Cr_fits hc]
  generalize searchInverse (nvP10Precision md) 10 rg m = t
  simp only [ey, linR, linG, linB, Int.mul_comm t.cr, Int.mul_comm t.cb, Int.mul_comm t.g1, Int.mul_comm t.g2]
  exact ⟨nv10Cut_below md _, nv10Cut_below md _, nv10Cut_below md _⟩

/-- C141, what holds: an image with no luma below black is decoded, in every mode but SMPTE 240M in limited
range in the professional mode, to the colours of the
portable decoder or colours one below; the bytes outside of the image are left alone by both.
Missing: luma below black and that configuration, where the claim is false (`c141_violated_below_black`,
`c141_violated_smpte240`). -/
theorem c141_portable_agreement_partial (md : Mode) (o : NVOrder) (e : Endianness) (ch : Channels) (s : Sampling)
    (i : BiPlanar) (rgba : Buf) (stride : Nat) (rg : YuvRange) (m : Matrix) (hi : GoodBiPlanar i s 65536)
    (hdst : GoodDst rgba.length stride i.width i.height ch.count)
    (hc : CrFits md rg m)
    (hl : ∀ x y, x < i.width → y < i.height →
      (getYuvRange 10 rg).biasY ≤ nativeSample e .msb 10 (BiPlanar.Y i x y)) :
    ∃ out out', Neon.nvP10ToRgb8 md o e .msb ch s i rgba stride rg m = .ok out ∧
      nvP10ToRgb8 x64 md o e .msb ch s noSimdNV i rgba stride rg m = .ok out' ∧
      (∀ x y, x < i.width → y < i.height → ∃ c c' : Nat × Nat × Nat, OneBelow c c' ∧
        pixelAt out stride ch.count x y = layout ch c.1 c.2.1 c.2.2 255 ∧
        pixelAt out' stride ch.count x y = layout ch c'.1 c'.2.1 c'.2.2 255) ∧
      ∀ k, ¬ InFrame stride i.width i.height ch.count k → out[k]? = rgba[k]? ∧ out'[k]? = rgba[k]? := by
  obtain ⟨out, e1, h1⟩ := c140_neon_p10_decode md o e ch s i rgba stride rg m hi hdst
  obtain ⟨out', e2, h2⟩ := c29_nv_decode md o e ch s i rgba stride rg m hi hdst _ noSimdNV
    (noSimdNV_ok (R := fun _ _ _ _ => False))
  refine ⟨out, out', e1, e2, fun x y hx hy => ?_, fun k hk => ⟨h1.2.2 k hk, h2.2.2 k hk⟩⟩
  refine ⟨_, _, c141_one_below md rg m _ _ _ hc (hl x y hx hy),
    frameSpec_pixel h1 (x := x) (y := y) hx hy (layout_length' ..), ?_⟩
  exact (h2.2.1 x y hx hy).resolve_right id

/-- C141: for 10-bit samples with luma not below black the components are within 1.54 code values of the exact
ITU-R colour, scaled to 8 bits and saturated, in every mode and with every matrix but SMPTE 240M in limited range in the professional
mode. -/
theorem c141_itu (md : Mode) (rg : YuvRange) (m : Matrix) (y u v : Nat)
    (hc : CrFits md rg m) (h : LegalSamples 10 rg y u v) :
    let c := nv10RGB md (getYuvRange 10 rg) (searchInverse (nvP10Precision md) 10 rg m) y u v
    |(c.1 : Rat) - satQ 8 (exactR 10 rg m y u v / 4)| ≤ 154 / 100 ∧
    |(c.2.1 : Rat) - satQ 8 (exactG 10 rg m y u v / 4)| ≤ 154 / 100 ∧
    |(c.2.2 : Rat) - satQ 8 (exactB 10 rg m y u v / 4)| ≤ 154 / 100 := by
  intro c
  obtain ⟨r, g, b, e, r1, r2, r3⟩ := c29_close md .rgb rg m y u v h.2.1 h.2.2.1 h.2.2.2
  have e' : [(p10Rounded md rg m y u v).1, (p10Rounded md rg m y u v).2.1, (p10Rounded md rg m y u v).2.2]
      = [r, g, b] := e
  simp only [List.cons.injEq, and_true] at e'
  obtain ⟨q1, q2, q3⟩ := e'
  obtain ⟨v1, v2, v3⟩ := c141_one_below md rg m y u v hc h.1
  rw [q1] at v1
  rw [q2] at v2
  rw [q3] at v3
  exact ⟨below_close v1 r1, below_close v2 r2, below_close v3 r3⟩

/-- C141: luma below black decodes as black, whatever the chroma. -/
theorem c141_below_black (md : Mode) (ch : Channels) (rg : YuvRange) (m : Matrix) (y u v : Nat)
    (h : y ≤ (getYuvRange 10 rg).biasY) :
    nv10Pixel md ch (getYuvRange 10 rg) (searchInverse (nvP10Precision md) 10 rg m) y u v
      = nv10Pixel md ch (getYuvRange 10 rg) (searchInverse (nvP10Precision md) 10 rg m)
        (getYuvRange 10 rg).biasY u v := by
  have e : y - (getYuvRange 10 rg).biasY = (getYuvRange 10 rg).biasY - (getYuvRange 10 rg).biasY := by omega
  unfold nv10Pixel nv10RGB
  simp only [e]

/-- C141: white and black are exact in every mode: 10-bit white with neutral chroma is `(255, 255, 255)`, black
is `(0, 0, 0)`. -/
theorem c141_white_black (md : Mode) (rg : YuvRange) (m : Matrix) :
    let c := getYuvRange 10 rg
    let t := searchInverse (nvP10Precision md) 10 rg m
    nv10RGB md c t (c.biasY + c.rangeY) 512 512 = (255, 255, 255) ∧ nv10RGB md c t c.biasY 512 512 = (0, 0, 0) := by
  cases md <;> cases rg <;> cases m <;> decide +kernel

/-- The decoders on a row of one colour, given as 10-bit samples. -/
theorem flatRow_p10 (md : Mode) (m : Matrix) {y u v : Nat} (hy : y < 1024) (hu : u < 1024) (hv : v < 1024) :
    ∃ out out', Neon.nvP10ToRgb8 md .uv .little .msb .rgb .yuv422 (flatRow (y * 64) (u * 64) (v * 64))
        (List.replicate 27 0) 27 .limited m = .ok out ∧
      nvP10ToRgb8 x64 md .uv .little .msb .rgb .yuv422 noSimdNV (flatRow (y * 64) (u * 64) (v * 64))
        (List.replicate 27 0) 27 .limited m = .ok out' ∧
      pixelAt out 27 3 8 0 = nv10Pixel md .rgb (getYuvRange 10 .limited)
        (searchInverse (nvP10Precision md) 10 .limited m) y u v ∧
      pixelAt out' 27 3 8 0 = deepPixel (2 ^ (nvP10Precision md + 1) - 1) (nvP10Precision md)
        (nvP10Precision md + 2) 10 8 .rgb .limited m y u v := by
  have hg := flatRow_good (y := y * 64) (u := u * 64) (v := v * 64) (by omega) (by omega) (by omega)
  have hd : GoodDst (List.replicate 27 0).length 27 9 1 3 :=
    ⟨by unfold U32; decide, Nat.le_refl 27, by show FullRows 27 27 1; unfold FullRows; decide, by decide⟩
  have n : ∀ k, nativeSample .little .msb 10 (k * 64) = k := fun k => Nat.mul_div_cancel k (by decide)
  obtain ⟨out, e1, h1⟩ := c140_neon_p10_decode md .uv .little .rgb .yuv422 _ (List.replicate 27 0) 27
    .limited m hg hd
  obtain ⟨out', e2, h2⟩ := c29_nv_decode md .uv .little .rgb .yuv422 _ (List.replicate 27 0) 27
    .limited m hg hd _ noSimdNV (noSimdNV_ok (R := fun _ _ _ _ => False))
  refine ⟨out, out', e1, e2, ?_, ?_⟩
  · refine (frameSpec_pixel h1 (x := 8) (y := 0) (by show 8 < 9; decide) Nat.one_pos
      (by unfold nv10ArmPixel nv10Pixel; exact layout_length' ..)).trans ?_
    show nv10Pixel md .rgb _ _ (nativeSample .little .msb 10 (y * 64)) (nativeSample .little .msb 10 (u * 64))
      (nativeSample .little .msb 10 (v * 64)) = _
    rw [n, n, n]
  · refine ((h2.2.1 8 0 (by show 8 < 9; decide) Nat.one_pos).resolve_right id).trans ?_
    show deepPixel _ _ _ _ _ _ _ _ (nativeSample .little .msb 10 (y * 64)) (nativeSample .little .msb 10 (u * 64))
      (nativeSample .little .msb 10 (v * 64)) = _
    rw [n, n, n]

/-- C141 fails below black, in every mode: luma 0 with strong Cr is 19 code values brighter than
with portable code. -/
theorem c141_violated_below_black (md : Mode) :
    ∃ out out', Neon.nvP10ToRgb8 md .uv .little .msb .rgb .yuv422 (flatRow (0 * 64) (512 * 64) (750 * 64))
        (List.replicate 27 0) 27 .limited .bt709 = .ok out ∧
      nvP10ToRgb8 x64 md .uv .little .msb .rgb .yuv422 noSimdNV (flatRow (0 * 64) (512 * 64) (750 * 64))
        (List.replicate 27 0) 27 .limited .bt709 = .ok out' ∧
      pixelAt out 27 3 8 0 = [107, 0, 0] ∧ pixelAt out' 27 3 8 0 = [88, 0, 0] := by
  obtain ⟨out, out', e1, e2, h1, h2⟩ := flatRow_p10 md .bt709 (y := 0) (u := 512) (v := 750) (by decide) (by decide)
    (by decide)
  refine ⟨out, out', e1, e2, h1.trans ?_, h2.trans ?_⟩ <;> cases md <;> decide +kernel

/-- C141 fails with SMPTE 240M in limited range in the professional mode: the weight of Cr wraps to a negative
number, a strong red is decoded to cyan. -/
theorem c141_violated_smpte240 :
    ∃ out out', Neon.nvP10ToRgb8 .professional .uv .little .msb .rgb .yuv422 (flatRow (400 * 64) (512 * 64) (800 * 64))
        (List.replicate 27 0) 27 .limited .smpte240 = .ok out ∧
      nvP10ToRgb8 x64 .professional .uv .little .msb .rgb .yuv422 noSimdNV
        (flatRow (400 * 64) (512 * 64) (800 * 64)) (List.replicate 27 0) 27 .limited .smpte240 = .ok out' ∧
      pixelAt out 27 3 8 0 = [0, 79, 98] ∧ pixelAt out' 27 3 8 0 = [248, 79, 98] := by
  obtain ⟨out, out', e1, e2, h1, h2⟩ := flatRow_p10 .professional .smpte240 (y := 400) (u := 512) (v := 800)
    (by decide) (by decide) (by decide)
  refine ⟨out, out', e1, e2, h1.trans ?_, h2.trans ?_⟩ <;> decide +kernel

/-- C141: the two decoders do differ above black: a grey. -/
theorem c141_grey_one_below :
    ∃ out out', Neon.nvP10ToRgb8 .balanced .uv .little .msb .rgb .yuv422 (flatRow (501 * 64) (512 * 64) (512 * 64))
        (List.replicate 27 0) 27 .limited .bt709 = .ok out ∧
      nvP10ToRgb8 x64 .balanced .uv .little .msb .rgb .yuv422 noSimdNV (flatRow (501 * 64) (512 * 64) (512 * 64))
        (List.replicate 27 0) 27 .limited .bt709 = .ok out' ∧
      pixelAt out 27 3 8 0 = [127, 127, 127] ∧ pixelAt out' 27 3 8 0 = [128, 128, 128] := by
  obtain ⟨out, out', e1, e2, h1, h2⟩ := flatRow_p10 .balanced .bt709 (y := 501) (u := 512) (v := 512) (by decide) (by decide)
    (by decide)
  refine ⟨out, out', e1, e2, h1.trans ?_, h2.trans ?_⟩ <;> decide +kernel

/-- A legal image meets the hypothesis of the partial theorem. -/
example : ∀ x, x < 9 → ∀ y, y < 1 → (getYuvRange 10 .limited).biasY ≤
    nativeSample .little .msb 10 (BiPlanar.Y (flatRow (501 * 64) (512 * 64) (512 * 64)) x y) := by
  decide +kernel

end Verif
