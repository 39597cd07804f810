import Verif.Lemmas.NeonDeep8
import Verif.Props.X86Deep8
/-!
# C130, C131: planar 10- and 12-bit YCbCr to 8-bit RGB on 64-bit ARM
-/
namespace Verif
open Spec X86

/-! ## C130 -/

/-- The pixel of native samples in column `x` of a row of `w` pixels on 64-bit ARM: NEON code does all but
the last one to eight columns. -/
def deep8Arm (d : Nat) (ch : Channels) (rg : YuvRange) (m : Matrix) (w x y u v : Nat) : Buf :=
  if x < 8 * ((w - 1) / 8) then neonDeep8Pixel d ch (getYuvRange d rg) (p10Inverse d rg m) y u v
  else p10Pixel d ch rg m y u v

/-- The pixel at `(x, y)` on 64-bit ARM. -/
def deep8ArmPixel (e : Endianness) (bp : BytesPacking) (d : Nat) (ch : Channels)
    (s : Sampling) (i : Planar) (rg : YuvRange) (m : Matrix) (x y : Nat) : Buf :=
  deep8Arm d ch rg m i.width x (nativeSample e bp d (Planar.Y i x y))
    (nativeSample e bp d (Planar.U i s x y)) (nativeSample e bp d (Planar.V i s x y))

theorem deep8Arm_length (d : Nat) (ch : Channels) (rg : YuvRange) (m : Matrix)
    (w x y u v : Nat) : (deep8Arm d ch rg m w x y u v).length = ch.count := by
  unfold deep8Arm; split <;> exact layout_length' ..

/-- C130: on 64-bit ARM the 10- and 12-bit planar decoders to 8-bit RGB succeed on every good image and
destination, whatever the words stored in the image — no load or store of the NEON code leaves its slice —
and write exactly the pixels of the image, each the stated function of its column and of the native samples
shown at it. -/
theorem c130_neon_deep8_decode (e : Endianness) (bp : BytesPacking) (d : Nat)
    (hd : d = 10 ∨ d = 12) (ch : Channels) (s : Sampling) (i : Planar) (rgba : Buf) (stride : Nat)
    (rg : YuvRange) (m : Matrix) (hi : GoodPlanar i s 65536)
    (hdst : GoodDst rgba.length stride i.width i.height ch.count) :
    ∃ out, Neon.p16ToRgb8 e bp d ch s i rgba stride rg m = .ok out ∧
      FrameSpec out rgba stride i.width i.height ch.count (deep8ArmPixel e bp d ch s i rg m) := by
  have hD : Deep d := hd.elim .inl fun h => .inr (.inl h)
  have hr := hi.rows
  have hcn := X86.count_pos ch
  have hst : 0 < stride := Nat.lt_of_lt_of_le (Nat.mul_pos hr.wpos hcn) hdst.cols_le
  obtain ⟨hby, -⟩ := deep_bias hD rg
  have hf := Neon.deep8Handler_fills (w := i.width) s e bp hd ch (deepCoef_p10 hd rg m) hby hr.wpos
    (fun y u v => p10Pixel d ch rg m (toNe e bp y (16 - d)) (toNe e bp u (16 - d))
        (toNe e bp v (16 - d)))
  unfold Neon.p16ToRgb8 p16ToRgb8
  rw [hdst.accepted hi.wpos hi.hpos hi.w32 hi.h32 hcn (X86.count_le ch), hi.accepted]
  simp only [Outcome.bind_ok]
  obtain ⟨out, e1, h⟩ := (deepFrame_q hr hcn (putP10_ok hd e bp ch rg m) hf hdst.cols_le
    hdst.full).spec hcn hst hdst.cols_le hdst.full.1
  refine ⟨out, e1, frameRel_eq ⟨h.1, fun x y hx hy => ?_, h.2.2⟩⟩
  refine (h.2.1 x y hx hy).trans ?_
  obtain ⟨b1, b2, b3⟩ := hi.sample_lt hx hy
  have ne : p10Pixel d ch rg m (toNe e bp (Planar.Y i x y) (16 - d))
      (toNe e bp (Planar.U i s x y) (16 - d)) (toNe e bp (Planar.V i s x y) (16 - d))
      = p10Pixel d ch rg m (nativeSample e bp d (Planar.Y i x y))
        (nativeSample e bp d (Planar.U i s x y)) (nativeSample e bp d (Planar.V i s x y)) := by
    rw [toNe_eq e bp b1, toNe_eq e bp b2, toNe_eq e bp b3]
  simp only [Neon.rowDeep8, deep8ArmPixel, deep8Arm, ← ne]
  rfl

/-- C130: byte order and packing only represent the samples. -/
theorem c130_representation (e : Endianness) (bp : BytesPacking) (d : Nat)
    (hd : d = 10 ∨ d = 12) (ch : Channels) (s : Sampling) (i : Planar) (rgba : Buf) (stride : Nat)
    (rg : YuvRange) (m : Matrix) (hi : GoodPlanar i s 65536)
    (hdst : GoodDst rgba.length stride i.width i.height ch.count) :
    ∃ out, Neon.p16ToRgb8 e bp d ch s i rgba stride rg m = .ok out ∧
      Neon.p16ToRgb8 .little .lsb d ch s (Planar.mapSamples (nativeSample e bp d) i) rgba
        stride rg m = .ok out := by
  obtain ⟨out, e1, hr⟩ := c130_neon_deep8_decode e bp d hd ch s i rgba stride rg m hi hdst
  obtain ⟨out', e2, hr'⟩ := c130_neon_deep8_decode .little .lsb d hd ch s
    (Planar.mapSamples (nativeSample e bp d) i) rgba stride rg m (native_map_good e bp d hi) hdst
  refine ⟨out, e1, ?_⟩
  rw [e2]; congr 1
  refine frameSpec_unique hr' ⟨hr.1, fun x y c hx hy hc => ?_, hr.2.2⟩
  rw [hr.2.1 x y c hx hy hc]
  have hz := nativeSample_zero e bp d
  unfold deep8ArmPixel
  simp only [Planar.Y, Planar.U, Planar.V, Planar.mapSamples, at'_map hz]
  rfl

/-- C130: every pixel is opaque, unlike on x86 processors (`c86_alpha_not_opaque`). -/
theorem c130_opaque (e : Endianness) (bp : BytesPacking) (d : Nat) (hd : d = 10 ∨ d = 12) (ch : Channels)
    (s : Sampling) (i : Planar) (rgba : Buf) (stride : Nat) (rg : YuvRange) (m : Matrix)
    (hi : GoodPlanar i s 65536) (hdst : GoodDst rgba.length stride i.width i.height ch.count) :
    ∃ out, Neon.p16ToRgb8 e bp d ch s i rgba stride rg m = .ok out ∧
      ∀ x y, x < i.width → y < i.height → ∃ r g b,
        pixelAt out stride ch.count x y = layout ch r g b 255 := by
  obtain ⟨out, e1, h1⟩ := c130_neon_deep8_decode e bp d hd ch s i rgba stride rg m hi hdst
  refine ⟨out, e1, fun x y hx hy => ?_⟩
  rw [frameSpec_pixel h1 (x := x) (y := y) hx hy (deep8Arm_length ..), deep8ArmPixel, deep8Arm]
  split
  · exact ⟨_, _, _, rfl⟩
  · exact ⟨_, _, _, rfl⟩

/-! ## C131 -/

/-- A sum cut down to 8 bits after rounding at the depth, against the sum rounded to 8 bits. -/
theorem cutTo8_below {d : Nat} (hd : d = 10 ∨ d = 12) {s : Int} (h : -200000000 ≤ s ∧ s ≤ 200000000) :
    let p := saturate 8 (roundShift (2 ^ (13 + (d - 8) - 1)) (13 + (d - 8)) s)
    cutTo8 d s ≤ p ∧ p ≤ cutTo8 d s + 1 := by
  unfold cutTo8 byteSat saturate roundShift
  rcases hd with rfl | rfl
  · norm_num; omega
  · norm_num; omega

/-- C131: for samples of the depth with luma not below black the components of the NEON code are those of
the correctly rounded and saturated decoding or one less. -/
theorem c131_neon_below (d : Nat) (hd : d = 10 ∨ d = 12) (rg : YuvRange) (m : Matrix) (y u v : Nat)
    (h : LegalSamples d rg y u v) :
    OneBelow (neonDeep8RGB d (getYuvRange d rg) (p10Inverse d rg m) y u v) (rounded8 d rg m y u v) := by
  have hD : Deep d := hd.elim .inl fun h => .inr (.inl h)
  obtain ⟨h0, hy, hu, hv⟩ := h
  obtain ⟨-, hbu⟩ := deep_bias hD rg
  obtain ⟨t1, t2, t3, t4, t5⟩ := deepCoef_p10 hd rg m
  have hp : (2 ^ (d - 1) : Nat) * 2 = 2 ^ d ∧ 2 ^ d ≤ 4096 := by rcases hd with rfl | rfl <;> decide
  have key : ∀ n : Nat, n < 2 ^ d → int16 ((n : Int) - (getYuvRange d rg).biasUv)
      = (n : Int) - (getYuvRange d rg).biasUv ∧
      (-2048 ≤ (n : Int) - (getYuvRange d rg).biasUv ∧ (n : Int) - (getYuvRange d rg).biasUv ≤ 2048) := by
    intro n hn; rw [hbu]; constructor
    · apply int16_small <;> omega
    · omega
  obtain ⟨ku, bu⟩ := key u hu
  obtain ⟨kv, bv⟩ := key v hv
  have ey : ((y - (getYuvRange d rg).biasY : Nat) : Int) = (y : Int) - (getYuvRange d rg).biasY := by omega
  have bY : -4095 ≤ (y : Int) - (getYuvRange d rg).biasY ∧ (y : Int) - (getYuvRange d rg).biasY ≤ 4095 := by
    omega
  have ky : int16 ((y : Int) - (getYuvRange d rg).biasY) = (y : Int) - (getYuvRange d rg).biasY :=
    int16_small (by omega) (by omega)
  unfold rounded8 neonDeep8RGB OneBelow
  generalize hc : getYuvRange d rg = c at *
  generalize ht : p10Inverse d rg m = t at *
  have bl := mul_bounds (A := 4095) (T := 10000) bY t1
  have b1 := mul_bounds (A := 2048) (T := 20000) bv t2
  have b2 := mul_bounds (A := 2048) (T := 20000) bu t3
  have b3 := mul_bounds (A := 2048) (T := 20000) bv t4
  have b4 := mul_bounds (A := 2048) (T := 20000) bu t5
  simp only [ey, ky, ku, kv, linR, linG, linB, Int.mul_comm t.cr, Int.mul_comm t.cb, Int.mul_comm t.g1,
    Int.mul_comm t.g2]
  refine ⟨cutTo8_below hd ?_, cutTo8_below hd ?_, cutTo8_below hd ?_⟩
  · constructor <;> linarith [bl.1, bl.2, b1.1, b1.2]
  · constructor <;> linarith [bl.1, bl.2, b3.1, b3.2, b4.1, b4.2]
  · constructor <;> linarith [bl.1, bl.2, b2.1, b2.2]

/-- C131, what holds: with BT.601, BT.709 and BT.2020 64-bit ARM decodes an image of legal samples in which
no component rounds to 256 or more to the colours of the portable decoder or colours one below.
Missing: luma below black, samples beyond the depth and bright colours, where the claim is false. -/
theorem c131_portable_agreement_partial (e : Endianness) (bp : BytesPacking) (d : Nat)
    (hd : d = 10 ∨ d = 12) (ch : Channels) (s : Sampling) (i : Planar) (rgba : Buf) (stride : Nat)
    (rg : YuvRange) (m : Matrix) (hm : Stored m) (hi : GoodPlanar i s 65536)
    (hdst : GoodDst rgba.length stride i.width i.height ch.count) (hl : LegalImage e bp d s i rg)
    (hno : ∀ x y, x < i.width → y < i.height → NoOverflow8 d rg m
      (nativeSample e bp d (Planar.Y i x y)) (nativeSample e bp d (Planar.U i s x y))
      (nativeSample e bp d (Planar.V i s x y))) :
    ∃ out out', Neon.p16ToRgb8 e bp d ch s i rgba stride rg m = .ok out ∧
      p16ToRgb8On .plain e bp d ch s i rgba stride rg m = .ok out' ∧
      (∀ x y, x < i.width → y < i.height → ∃ c c' : Nat × Nat × Nat, OneBelow c c' ∧
        pixelAt out stride ch.count x y = layout ch c.1 c.2.1 c.2.2 255 ∧
        pixelAt out' stride ch.count x y = layout ch c'.1 c'.2.1 c'.2.2 255) ∧
      ∀ k, ¬ InFrame stride i.width i.height ch.count k → out[k]? = rgba[k]? ∧ out'[k]? = rgba[k]? := by
  obtain ⟨out, e1, h1⟩ := c130_neon_deep8_decode e bp d hd ch s i rgba stride rg m hi hdst
  obtain ⟨out', e2, h2⟩ := c85_deep8_decode .plain e bp d hd ch s i rgba stride rg m hi hdst
  refine ⟨out, out', e1, e2, fun x y hx hy => ?_, fun k hk => ⟨h1.2.2 k hk, h2.2.2 k hk⟩⟩
  rw [frameSpec_pixel h1 (x := x) (y := y) hx hy (deep8Arm_length ..),
    frameSpec_pixel h2 (x := x) (y := y) hx hy (deep8Cpu_length ..)]
  have hN := p10Pixel_rounded hd ch rg hm (hno x y hx hy)
  have hb := c131_neon_below d hd rg m _ _ _ (hl x y hx hy)
  have hp := (show deep8CpuPixel .plain e bp d ch s i rg m x y = p10Pixel d ch rg m _ _ _ by
    unfold deep8CpuPixel deep8Cpu
    rw [if_neg (fun h => h.1 rfl)]).trans hN
  by_cases hx8 : x < 8 * ((i.width - 1) / 8)
  · exact ⟨_, _, hb, if_pos hx8, hp⟩
  · exact ⟨_, _, by unfold OneBelow; omega, (if_neg hx8).trans hN, hp⟩

/-- C131: with BT.601, BT.709 and BT.2020 the components of the NEON code are, for legal samples,
within 1.54 code values of the exact ITU-R colour, scaled to 8 bits and saturated — also where the
portable decoder overflows. -/
theorem c131_itu (d : Nat) (hd : d = 10 ∨ d = 12) (rg : YuvRange) (m : Matrix) (hm : Stored m)
    (y u v : Nat) (h : LegalSamples d rg y u v) :
    let c := neonDeep8RGB d (getYuvRange d rg) (p10Inverse d rg m) y u v
    |(c.1 : Rat) - satQ 8 (exactR d rg m y u v / 2 ^ (d - 8))| ≤ 154 / 100 ∧
    |(c.2.1 : Rat) - satQ 8 (exactG d rg m y u v / 2 ^ (d - 8))| ≤ 154 / 100 ∧
    |(c.2.2 : Rat) - satQ 8 (exactB d rg m y u v / 2 ^ (d - 8))| ≤ 154 / 100 := by
  intro c
  obtain ⟨r1, r2, r3⟩ := rounded8_close d hd rg m hm y u v h
  obtain ⟨v1, v2, v3⟩ := c131_neon_below d hd rg m y u v h
  exact ⟨below_close v1 r1, below_close v2 r2, below_close v3 r3⟩

/-- C131: for legal samples 64-bit ARM and an x86 processor with vector code give every component at most one
apart in the columns both do in vector code. -/
theorem c131_near_x86 (d : Nat) (hd : d = 10 ∨ d = 12) (rg : YuvRange) (m : Matrix) (y u v : Nat)
    (h : LegalSamples d rg y u v) :
    let a := neonDeep8RGB d (getYuvRange d rg) (p10Inverse d rg m) y u v
    let b := deep8RGB d (getYuvRange d rg) (p10Inverse d rg m)
      ((y - (getYuvRange d rg).biasY : Nat) : Int) u v
    (a.1 ≤ b.1 + 1 ∧ b.1 ≤ a.1 + 1) ∧ (a.2.1 ≤ b.2.1 + 1 ∧ b.2.1 ≤ a.2.1 + 1) ∧
      (a.2.2 ≤ b.2.2 + 1 ∧ b.2.2 ≤ a.2.2 + 1) := by
  simp only
  obtain ⟨v1, v2, v3⟩ := c131_neon_below d hd rg m y u v h
  obtain ⟨w1, w2, w3⟩ := c86_vec_below d hd rg m y u v h
  exact ⟨by omega, by omega, by omega⟩

/-- The colours of a line of nine equal pixels: eight by the NEON code, the ninth without. -/
theorem deepLine_arm {d : Nat} (hd : d = 10 ∨ d = 12) (rg : YuvRange) (m : Matrix)
    {y u v : Nat} (hy : y < 65536) (hu : u < 65536) (hv : v < 65536) :
    ∃ out, Neon.p16ToRgb8 .little .lsb d .rgb .yuv444 (deepLine y u v) (List.replicate 27 0) 27 rg m
        = .ok out ∧ pixelAt out 27 3 0 0 = neonDeep8Pixel d .rgb (getYuvRange d rg) (p10Inverse d rg m) y u v ∧
      pixelAt out 27 3 8 0 = p10Pixel d .rgb rg m y u v := by
  obtain ⟨out, e, h⟩ := c130_neon_deep8_decode .little .lsb d hd .rgb .yuv444 (deepLine y u v)
    (List.replicate 27 0) 27 rg m (deepLine_good hy hu hv)
    ⟨by unfold U32; decide, by show 9 * 3 ≤ 27; decide, by show FullRows 27 27 1; unfold FullRows; decide, by decide⟩
  refine ⟨out, e, ?_, ?_⟩
  · refine (frameSpec_pixel h (x := 0) (y := 0) (by show 0 < 9; decide) Nat.one_pos (deep8Arm_length ..)).trans ?_
    unfold deep8ArmPixel deep8Arm
    rw [if_pos (by show 0 < 8 * ((9 - 1) / 8); decide)]
    rfl
  · refine (frameSpec_pixel h (x := 8) (y := 0) (by show 8 < 9; decide) Nat.one_pos (deep8Arm_length ..)).trans ?_
    unfold deep8ArmPixel deep8Arm
    rw [if_neg (by show ¬ 8 < 8 * ((9 - 1) / 8); decide)]
    rfl

/-- C131 fails for bright colours: of nine white pixels, full range at 10 bits, the first eight are decoded
to white and the last to black. -/
theorem c131_violated_white :
    ∃ out, Neon.p16ToRgb8 .little .lsb 10 .rgb .yuv444 (deepLine 1023 512 512)
        (List.replicate 27 0) 27 .full .bt709 = .ok out ∧
      pixelAt out 27 3 0 0 = [255, 255, 255] ∧ pixelAt out 27 3 8 0 = [0, 0, 0] := by
  obtain ⟨out, e, h1, h2⟩ := deepLine_arm (.inl rfl) .full .bt709 (y := 1023) (u := 512) (v := 512)
    (by decide) (by decide) (by decide)
  exact ⟨out, e, h1.trans (by decide +kernel), h2.trans (by decide +kernel)⟩

/-- C131 fails below black: luma 0 with strong Cr at 12 bits in limited range is 19 code values brighter in
the first eight columns than in the ninth. -/
theorem c131_violated_below_black :
    ∃ out, Neon.p16ToRgb8 .little .lsb 12 .rgb .yuv444 (deepLine 0 2048 3000)
        (List.replicate 27 0) 27 .limited .bt709 = .ok out ∧
      pixelAt out 27 3 0 0 = [107, 0, 0] ∧ pixelAt out 27 3 8 0 = [88, 0, 0] := by
  obtain ⟨out, e, h1, h2⟩ := deepLine_arm (.inr rfl) .limited .bt709 (y := 0) (u := 2048) (v := 3000)
    (by decide) (by decide) (by decide)
  exact ⟨out, e, h1.trans (by decide +kernel), h2.trans (by decide +kernel)⟩

/-- The two ways of rounding do differ: 10-bit grey 503 in full range. -/
example : (neonDeep8RGB 10 (getYuvRange 10 .full) (p10Inverse 10 .full .bt709) 503 512 512,
    rounded8 10 .full .bt709 503 512 512) = ((125, 125, 125), (126, 126, 126)) := by decide +kernel

end Verif
