import Verif.Lemmas.NeonDeepAlpha
import Verif.Props.NeonDeep8
import Verif.Props.X86DeepAlpha
/-!
# C142, C143: planar 10- and 12-bit YCbCr with an alpha plane to 8-bit RGBA on 64-bit ARM
-/
namespace Verif
open Spec X86

/-! ## C142 -/

/-- The pixel of native colour samples in column `x` of a row of `w` pixels on 64-bit ARM: NEON code does all but
the last one to eight columns.  `a` is the native alpha sample, `raw` the stored word: the portable code
takes the latter. -/
def alpha8Arm (d : Nat) (ch : Channels) (rg : YuvRange) (m : Matrix) (w x raw a y u v : Nat) : Buf :=
  if x < 8 * ((w - 1) / 8) then neonAlpha8Pixel d ch (getYuvRange d rg) (searchInverse 13 d rg m) a y u v
  else p10AlphaPixel d ch rg m (alpha8 d raw) y u v

/-- The pixel at `(x, y)` on 64-bit ARM. -/
def alpha8ArmPixel (e : Endianness) (bp : BytesPacking) (d : Nat) (ch : Channels)
    (s : Sampling) (i : PlanarAlpha) (rg : YuvRange) (m : Matrix) (x y : Nat) : Buf :=
  let j := opaqueImage i
  alpha8Arm d ch rg m i.width x (alphaAt i x y) (nativeSample e bp d (alphaAt i x y))
    (nativeSample e bp d (Planar.Y j x y)) (nativeSample e bp d (Planar.U j s x y))
    (nativeSample e bp d (Planar.V j s x y))

theorem alpha8Arm_length (d : Nat) (ch : Channels) (rg : YuvRange) (m : Matrix)
    (w x raw a y u v : Nat) : (alpha8Arm d ch rg m w x raw a y u v).length = ch.count := by
  unfold alpha8Arm; split <;> exact layout_length' ..

/-- C142: on 64-bit ARM the decoders of 10- and 12-bit images with an alpha plane to 8-bit RGBA and BGRA succeed on
every good image and destination of any width, without padding for 4:2:2, whatever the words stored in the image —
no load or store of the NEON code leaves its slice — and write exactly the pixels of the image, each the stated
function of its column, the samples and the alpha shown at it.  Missing: 4:2:2 images with padding, which the
portable part does not treat row by row (`TightAlpha`). -/
theorem c142_neon_deep8_alpha_partial (e : Endianness) (bp : BytesPacking) (d : Nat)
    (hd : d = 10 ∨ d = 12) (ch : Channels) (hch : ch = .rgba ∨ ch = .bgra) (s : Sampling)
    (i : PlanarAlpha) (rgba : Buf) (stride : Nat) (rg : YuvRange) (m : Matrix)
    (hi : GoodPlanarAlpha i s 65536) (hdst : GoodDst rgba.length stride i.width i.height ch.count)
    (ht : s = .yuv422 → TightAlpha i stride ch.count) :
    ∃ out, Neon.p16AlphaToRgb8 e bp d ch s i rgba stride rg m = .ok out ∧
      FrameSpec out rgba stride i.width i.height ch.count (alpha8ArmPixel e bp d ch s i rg m) := by
  have hD : Deep d := hd.elim .inl fun h => .inr (.inl h)
  have ha : ¬ ch.hasAlpha = false := by rcases hch with rfl | rfl <;> decide
  have hcn := count_pos ch
  have hst : 0 < stride := Nat.lt_of_lt_of_le (Nat.mul_pos hi.wpos hcn) hdst.cols_le
  obtain ⟨hby, -⟩ := deep_bias hD rg
  have hf := Neon.deepAlpha8Handler_fills (w := i.width) s e bp hd ch (deepCoef_search hD rg m) hby
    hi.wpos (fun y u v a => p10AlphaPixel d ch rg m (alpha8 d a) (toNe e bp y (16 - d))
        (toNe e bp u (16 - d)) (toNe e bp v (16 - d)))
  unfold Neon.p16AlphaToRgb8 p16AlphaToRgb8
  rw [if_neg ha, hdst.accepted hi.wpos hi.hpos hi.w32 hi.h32 hcn (count_le ch), hi.accepted]
  simp only [Outcome.bind_ok]
  obtain ⟨out, e1, h⟩ := (alphaFrame_src hi.rows hcn (fun x hx => hx)
    (putP10Alpha_ok hd e bp ch rg m) hf hdst.cols_le hdst.full).spec hcn hst hdst.cols_le hdst.full.1
  refine ⟨out, ?_, frameRel_eq ⟨h.1, fun x y hx hy => ?_, h.2.2⟩⟩
  · rw [← e1]
    cases s
    · rfl
    · have t := ht rfl
      have c2 : cover i.width 2 = ceil2 i.width := cover_hdiv (s := .yuv422) hi.wpos
      exact alpha422_tight hi.rows hdst.full t.dst t.y (t.u.trans c2) (t.v.trans c2) t.a
    · rfl
  refine (h.2.1 x y hx hy).trans ?_
  obtain ⟨b1, b2, b3⟩ := hi.opaque.sample_lt hx hy
  have ne : ∀ a, p10AlphaPixel d ch rg m a
      (toNe e bp (Planar.Y (opaqueImage i) x y) (16 - d))
      (toNe e bp (Planar.U (opaqueImage i) s x y) (16 - d))
      (toNe e bp (Planar.V (opaqueImage i) s x y) (16 - d))
      = p10AlphaPixel d ch rg m a
        (nativeSample e bp d (Planar.Y (opaqueImage i) x y))
        (nativeSample e bp d (Planar.U (opaqueImage i) s x y))
        (nativeSample e bp d (Planar.V (opaqueImage i) s x y)) := by
    intro a; rw [toNe_eq e bp b1, toNe_eq e bp b2, toNe_eq e bp b3]
  simp only [Neon.rowAlpha8, alpha8ArmPixel, alpha8Arm, ← ne]
  rfl

/-- C142: for 4:2:0 and 4:4:4 every good image is decoded, of any width, whereas x86 processors store beyond the
destination for some widths (`c89_stores_outside`). -/
theorem c142_every_width (e : Endianness) (bp : BytesPacking) (d : Nat)
    (hd : d = 10 ∨ d = 12) (ch : Channels) (hch : ch = .rgba ∨ ch = .bgra) (s : Sampling) (hs : s ≠ .yuv422)
    (i : PlanarAlpha) (rgba : Buf) (stride : Nat) (rg : YuvRange) (m : Matrix)
    (hi : GoodPlanarAlpha i s 65536) (hdst : GoodDst rgba.length stride i.width i.height ch.count) :
    ∃ out, Neon.p16AlphaToRgb8 e bp d ch s i rgba stride rg m = .ok out ∧
      FrameSpec out rgba stride i.width i.height ch.count (alpha8ArmPixel e bp d ch s i rg m) :=
  c142_neon_deep8_alpha_partial e bp d hd ch hch s i rgba stride rg m hi hdst fun h => absurd h hs

/-! ## C143 -/

/-- C143, what holds: with BT.601, BT.709 and BT.2020, for samples of the depth with luma not below black whose
components do not round to 256 or more, every colour is the correctly rounded one or one below, and the alpha
of little-endian images with low packing is the upper eight bits of the alpha shown there.
Missing: big-endian or high-packed alpha, luma below black, samples beyond the depth and bright colours, where
the claim is false. -/
theorem c143_agreement_partial (e : Endianness) (bp : BytesPacking) (d : Nat)
    (hd : d = 10 ∨ d = 12) (ch : Channels) (hch : ch = .rgba ∨ ch = .bgra) (s : Sampling)
    (i : PlanarAlpha) (rgba : Buf) (stride : Nat) (rg : YuvRange) (m : Matrix) (hm : Stored m)
    (hi : GoodPlanarAlpha i s 65536) (hdst : GoodDst rgba.length stride i.width i.height ch.count)
    (ht : s = .yuv422 → TightAlpha i stride ch.count)
    (hl : LegalImage e bp d s (opaqueImage i) rg)
    (hno : ∀ x y, x < i.width → y < i.height → NoOverflow8 d rg m
      (nativeSample e bp d (Planar.Y (opaqueImage i) x y))
      (nativeSample e bp d (Planar.U (opaqueImage i) s x y))
      (nativeSample e bp d (Planar.V (opaqueImage i) s x y))) :
    ∃ out, Neon.p16AlphaToRgb8 e bp d ch s i rgba stride rg m = .ok out ∧
      (∀ x y, x < i.width → y < i.height → ∃ c a, pixelAt out stride ch.count x y
          = layout ch c.1 c.2.1 c.2.2 a ∧
        OneBelow c (rounded8 d rg m (nativeSample e bp d (Planar.Y (opaqueImage i) x y))
          (nativeSample e bp d (Planar.U (opaqueImage i) s x y))
          (nativeSample e bp d (Planar.V (opaqueImage i) s x y))) ∧
        (e = .little → bp = .lsb → a = alpha8 d (alphaAt i x y))) ∧
      ∀ k, ¬ InFrame stride i.width i.height ch.count k → out[k]? = rgba[k]? := by
  obtain ⟨out, e1, h⟩ := c142_neon_deep8_alpha_partial e bp d hd ch hch s i rgba stride rg m hi hdst ht
  refine ⟨out, e1, fun x y hx hy => ?_, h.2.2⟩
  obtain ⟨n1, n2, n3⟩ := hno x y hx hy
  rw [frameSpec_pixel h (x := x) (y := y) hx hy (alpha8Arm_length ..), alpha8ArmPixel]
  simp only [alpha8Arm]
  split
  · refine ⟨_, _, rfl, ?_, ?_⟩
    · rw [← p10Inverse_stored hd rg hm]
      exact c131_neon_below d hd rg m _ _ _ (hl x y hx hy)
    · rintro rfl rfl; rfl
  · refine ⟨rounded8 d rg m (nativeSample e bp d (Planar.Y (opaqueImage i) x y))
        (nativeSample e bp d (Planar.U (opaqueImage i) s x y))
        (nativeSample e bp d (Planar.V (opaqueImage i) s x y)),
      alpha8 d (alphaAt i x y), ?_,
      ⟨⟨Nat.le_refl _, Nat.le_succ _⟩, ⟨Nat.le_refl _, Nat.le_succ _⟩, ⟨Nat.le_refl _, Nat.le_succ _⟩⟩,
      fun _ _ => rfl⟩
    unfold p10AlphaPixel rounded8
    rw [p10Inverse_stored hd rg hm]
    simp only [p10Wrap_sat hd n1, p10Wrap_sat hd n2, p10Wrap_sat hd n3]

/-- C143: the colours of the NEON code, in all but the last one to eight columns, are within 1.54 code values of
ITU-R for legal samples, bright colours included, with BT.601, BT.709 and BT.2020. -/
theorem c143_itu (d : Nat) (hd : d = 10 ∨ d = 12) (ch : Channels) (rg : YuvRange) (m : Matrix) (hm : Stored m)
    (a y u v : Nat) (h : LegalSamples d rg y u v) :
    ∃ r g b : Nat, neonAlpha8Pixel d ch (getYuvRange d rg) (searchInverse 13 d rg m) a y u v
        = layout ch r g b (alpha8 d a) ∧
      |(r : Rat) - satQ 8 (exactR d rg m y u v / 2 ^ (d - 8))| ≤ 154 / 100 ∧
      |(g : Rat) - satQ 8 (exactG d rg m y u v / 2 ^ (d - 8))| ≤ 154 / 100 ∧
      |(b : Rat) - satQ 8 (exactB d rg m y u v / 2 ^ (d - 8))| ≤ 154 / 100 := by
  have hc := c131_itu d hd rg m hm y u v h
  rw [p10Inverse_stored hd rg hm] at hc
  exact ⟨_, _, _, rfl, hc⟩

/-- C143: a white 10-bit sample is white in the columns of the NEON code, whatever the matrix, and alpha 1023
is 255. -/
theorem c143_white_opaque (rg : YuvRange) (m : Matrix) :
    neonAlpha8Pixel 10 .rgba (getYuvRange 10 rg) (searchInverse 13 10 rg m) 1023
      ((getYuvRange 10 rg).biasY + (getYuvRange 10 rg).rangeY) 512 512 = [255, 255, 255, 255] := by
  cases rg <;> cases m <;> decide +kernel

/-- The decoder on a line of nine pixels with the same samples and alpha: the first and the ninth pixel. -/
theorem alphaLine_arm {e : Endianness} {d : Nat} (hd : d = 10 ∨ d = 12) (rg : YuvRange) {y u v a : Nat}
    (hy : y < 65536) (hu : u < 65536) (hv : v < 65536) (ha : a < 65536) :
    ∃ out, Neon.p16AlphaToRgb8 e .lsb d .rgba .yuv444 (alphaLine 9 y u v (List.replicate 9 a))
        (List.replicate 36 7) 36 rg .bt709 = .ok out ∧
      pixelAt out 36 4 0 0 = neonAlpha8Pixel d .rgba (getYuvRange d rg) (searchInverse 13 d rg .bt709)
        (nativeSample e .lsb d a) (nativeSample e .lsb d y) (nativeSample e .lsb d u) (nativeSample e .lsb d v) ∧
      pixelAt out 36 4 8 0 = p10AlphaPixel d .rgba rg .bt709 (alpha8 d a) (nativeSample e .lsb d y)
        (nativeSample e .lsb d u) (nativeSample e .lsb d v) := by
  obtain ⟨out, e1, h⟩ := c142_every_width e .lsb d hd .rgba (.inl rfl) .yuv444 (by decide)
    (alphaLine 9 y u v (List.replicate 9 a)) (List.replicate 36 7) 36 rg .bt709
    (alphaLine_good (by decide) (by decide) hy hu hv List.length_replicate
      (fun x hx => by rw [(List.mem_replicate.1 hx).2]; exact ha))
    (lineDst_good (by show 0 < 9 ∧ 9 < 1000; decide) rfl _ List.length_replicate)
  refine ⟨out, e1, ?_, ?_⟩
  · refine (frameSpec_pixel h (x := 0) (y := 0) (by show 0 < 9; decide) Nat.one_pos (alpha8Arm_length ..)).trans ?_
    unfold alpha8ArmPixel alpha8Arm
    rw [if_pos (by show 0 < 8 * ((9 - 1) / 8); decide)]
    rfl
  · refine (frameSpec_pixel h (x := 8) (y := 0) (by show 8 < 9; decide) Nat.one_pos (alpha8Arm_length ..)).trans ?_
    unfold alpha8ArmPixel alpha8Arm
    rw [if_neg (by show ¬ 8 < 8 * ((9 - 1) / 8); decide)]
    rfl

/-- C143 fails for big-endian alpha: of nine grey pixels of a big-endian 10-bit image, all with alpha 512 of 1023
(stored with its bytes exchanged, as luma and chroma are), the first eight are half transparent and the ninth is
fully transparent. -/
theorem c143_violated_big_endian :
    ∃ out, Neon.p16AlphaToRgb8 .big .lsb 10 .rgba .yuv444
        (alphaLine 9 0x0002 0x0002 0x0002 (List.replicate 9 0x0002)) (List.replicate 36 7) 36 .full .bt709
        = .ok out ∧
      pixelAt out 36 4 0 0 = [128, 128, 128, 128] ∧ pixelAt out 36 4 8 0 = [128, 128, 128, 0] := by
  obtain ⟨out, e, h1, h2⟩ := alphaLine_arm (e := .big) (.inl rfl) .full (y := 2) (u := 2) (v := 2) (a := 2)
    (by decide) (by decide) (by decide) (by decide)
  exact ⟨out, e, h1.trans (by decide +kernel), h2.trans (by decide +kernel)⟩

/-- C143 fails for bright colours: of nine white opaque pixels, full range at 10 bits, the first eight are
decoded to white and the last to black. -/
theorem c143_violated_white :
    ∃ out, Neon.p16AlphaToRgb8 .little .lsb 10 .rgba .yuv444
        (alphaLine 9 1023 512 512 (List.replicate 9 1023)) (List.replicate 36 7) 36 .full .bt709 = .ok out ∧
      pixelAt out 36 4 0 0 = [255, 255, 255, 255] ∧ pixelAt out 36 4 8 0 = [0, 0, 0, 255] := by
  obtain ⟨out, e, h1, h2⟩ := alphaLine_arm (e := .little) (.inl rfl) .full (y := 1023) (u := 512) (v := 512)
    (a := 1023) (by decide) (by decide) (by decide) (by decide)
  exact ⟨out, e, h1.trans (by decide +kernel), h2.trans (by decide +kernel)⟩

/-- C143 fails below black: luma 0 with strong Cr at 12 bits in limited range is 19 code values brighter in
the first eight columns than in the ninth. -/
theorem c143_violated_below_black :
    ∃ out, Neon.p16AlphaToRgb8 .little .lsb 12 .rgba .yuv444
        (alphaLine 9 0 2048 3000 (List.replicate 9 4095)) (List.replicate 36 7) 36 .limited .bt709 = .ok out ∧
      pixelAt out 36 4 0 0 = [107, 0, 0, 255] ∧ pixelAt out 36 4 8 0 = [88, 0, 0, 255] := by
  obtain ⟨out, e, h1, h2⟩ := alphaLine_arm (e := .little) (.inr rfl) .limited (y := 0) (u := 2048) (v := 3000)
    (a := 4095) (by decide) (by decide) (by decide) (by decide)
  exact ⟨out, e, h1.trans (by decide +kernel), h2.trans (by decide +kernel)⟩

/-- The hypotheses of the agreement are met: sixteen pixels of a legal colour without overflow. -/
example : let i := alphaLine 16 500 400 600 (List.replicate 16 700)
    (∀ x y, x < 16 → y < 1 → NoOverflow8 10 .limited .bt709
      (nativeSample .little .lsb 10 (Planar.Y (opaqueImage i) x y))
      (nativeSample .little .lsb 10 (Planar.U (opaqueImage i) .yuv444 x y))
      (nativeSample .little .lsb 10 (Planar.V (opaqueImage i) .yuv444 x y))) ∧
    LegalImage .little .lsb 10 .yuv444 (opaqueImage i) .limited := by
  intro i
  have h : ∀ x < 16, ∀ y < 1, LegalSamples 10 .limited
      (nativeSample .little .lsb 10 (Planar.Y (opaqueImage i) x y))
      (nativeSample .little .lsb 10 (Planar.U (opaqueImage i) .yuv444 x y))
      (nativeSample .little .lsb 10 (Planar.V (opaqueImage i) .yuv444 x y)) := by
    unfold LegalSamples; decide
  have h' : ∀ x < 16, ∀ y < 1, NoOverflow8 10 .limited .bt709
      (nativeSample .little .lsb 10 (Planar.Y (opaqueImage i) x y))
      (nativeSample .little .lsb 10 (Planar.U (opaqueImage i) .yuv444 x y))
      (nativeSample .little .lsb 10 (Planar.V (opaqueImage i) .yuv444 x y)) := by
    unfold NoOverflow8; decide +kernel
  exact ⟨fun x y hx hy => h' x hx y hy, fun x y hx hy => h x hx y hy⟩

end Verif
