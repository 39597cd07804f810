import Verif.Lemmas.NeonDeep16
import Verif.Props.X86Deep
/-!
# C134, C135: planar 10- to 16-bit YCbCr to RGB of the same depth on 64-bit ARM
-/
namespace Verif
open Spec X86 Neon

theorem deepY_pos {d : Nat} (hd : Deep d) (rg : YuvRange) (m : Matrix) : 0 ≤ (searchInverse 13 d rg m).y := by
  rcases hd with rfl | rfl | rfl | rfl <;> cases rg <;> cases m <;> decide +kernel

/-! ## C134 -/

/-- The opaque pixel of native samples on 64-bit ARM: 16-bit arithmetic at 10 bits if the processor has
rounding multiply-accumulate (`rdm`), 32-bit arithmetic otherwise. -/
def neonDeepPixel (rdm : Bool) (d : Nat) (ch : Channels) (rg : YuvRange) (m : Matrix) (y u v : Nat) : Buf :=
  deepOpaque d ch (if rdm = true ∧ d = 10 then neonRdmRGB d (getYuvRange d rg) (searchInverse 13 d rg m) y u v
    else neonWideRGB d (getYuvRange d rg) (searchInverse 13 d rg m) y u v)

/-- C134: on 64-bit ARM the decoders to RGB of the same depth succeed on every good image and destination,
whatever the words stored in the image — no load or store of the vector code leaves its slice — and write
exactly the pixels of the image; every pixel is determined by the native samples shown at it, not by its
position, the size of the image or the padding. -/
theorem c134_neon_deep_decode (rdm : Bool) (e : Endianness) (bp : BytesPacking) (d : Nat) (hd : Deep d)
    (ch : Channels) (s : Sampling) (i : Planar) (rgba : Buf) (stride : Nat) (rg : YuvRange)
    (m : Matrix) (hi : GoodPlanar i s 65536)
    (hdst : GoodDst rgba.length stride i.width i.height ch.count) :
    ∃ out, Neon.p16ToRgb16 rdm e bp d ch s i rgba stride rg m = .ok out ∧
      FrameSpec out rgba stride i.width i.height ch.count fun x y =>
        neonDeepPixel rdm d ch rg m (nativeSample e bp d (Planar.Y i x y))
          (nativeSample e bp d (Planar.U i s x y)) (nativeSample e bp d (Planar.V i s x y)) := by
  have hr := hi.rows
  have hcn := X86.count_pos ch
  have hst : 0 < stride := Nat.lt_of_lt_of_le (Nat.mul_pos hr.wpos hcn) hdst.cols_le
  obtain ⟨hby, hbu⟩ := deep_bias hd rg
  have hbu' : (getYuvRange d rg).biasUv < 65536 := by
    rw [hbu]; rcases hd with rfl | rfl | rfl | rfl <;> decide
  have hf := deep16Handler_fills (w := i.width) rdm s e bp hd ch (deepCoef_search hd rg m) (deepY_pos hd rg m)
    hby hbu' (fun y u v => deepPixel (2 ^ 12 - 1) 13 13 d d ch rg m (toNe e bp y (16 - d))
        (toNe e bp u (16 - d)) (toNe e bp v (16 - d)))
  unfold Neon.p16ToRgb16 Verif.p16ToRgb16
  rw [hdst.accepted hi.wpos hi.hpos hi.w32 hi.h32 hcn (X86.count_le ch), hi.accepted]
  simp only [Outcome.bind_ok]
  obtain ⟨out, e1, h⟩ := (deepFrame_q hr hcn (putP16_ok hd.depth e bp ch rg m) hf hdst.cols_le
    hdst.full).spec hcn hst hdst.cols_le hdst.full.1
  refine ⟨out, e1, frameRel_eq ⟨h.1, fun x y hx hy => ?_, h.2.2⟩⟩
  refine (h.2.1 x y hx hy).trans ?_
  unfold wordsPix armRGB neonDeepPixel
  by_cases hq : rdm = true ∧ d = 10
  · rw [if_pos hq, if_pos hq]; rfl
  · rw [if_neg hq, if_neg hq]; rfl

/-- C134: byte order and packing only represent the samples: decoding an image stored big-endian or in the high
bits gives exactly what decoding the image of its native samples, stored little-endian in the low bits,
gives. -/
theorem c134_representation (rdm : Bool) (e : Endianness) (bp : BytesPacking) (d : Nat) (hd : Deep d)
    (ch : Channels) (s : Sampling) (i : Planar) (rgba : Buf) (stride : Nat) (rg : YuvRange)
    (m : Matrix) (hi : GoodPlanar i s 65536)
    (hdst : GoodDst rgba.length stride i.width i.height ch.count) :
    ∃ out, Neon.p16ToRgb16 rdm e bp d ch s i rgba stride rg m = .ok out ∧
      Neon.p16ToRgb16 rdm .little .lsb d ch s (Planar.mapSamples (nativeSample e bp d) i) rgba
        stride rg m = .ok out := by
  obtain ⟨out, e1, hr⟩ := c134_neon_deep_decode rdm e bp d hd ch s i rgba stride rg m hi hdst
  obtain ⟨out', e2, hr'⟩ := c134_neon_deep_decode rdm .little .lsb d hd ch s
    (Planar.mapSamples (nativeSample e bp d) i) rgba stride rg m (native_map_good e bp d hi) hdst
  refine ⟨out, e1, ?_⟩
  rw [e2]; congr 1
  refine frameSpec_unique hr' ⟨hr.1, fun x y c hx hy hc => ?_, hr.2.2⟩
  rw [hr.2.1 x y c hx hy hc]
  have hz := nativeSample_zero e bp d
  simp only [Planar.Y, Planar.U, Planar.V, Planar.mapSamples, at'_map hz]
  rfl

example : ∃ out, Neon.p16ToRgb16 true .big .lsb 10 .rgb .yuv420 demo10be (List.replicate 33 7) 11
    .limited .bt709 = .ok out ∧ pixelAt out 11 Channels.rgb.count 2 0 = [1023, 915, 575] := by
  obtain ⟨out, e, h⟩ := c134_neon_deep_decode true .big .lsb 10 (.inl rfl) .rgb .yuv420 demo10be
    (List.replicate 33 7) 11 .limited .bt709 demo10be_good
    ⟨by unfold U32; decide, by decide, by unfold FullRows; decide, by decide⟩
  refine ⟨out, e, ?_⟩
  rw [frameSpec_pixel h (x := 2) (y := 0) (by decide) (by decide) rfl]
  decide +kernel

/-! ## C135 -/

/-- Luma not below black and chroma whose distance from the neutral value fits an `i16`; the luma and the
chroma may lie beyond the depth. -/
def NeonSamples (d : Nat) (rg : YuvRange) (y u v : Nat) : Prop :=
  (getYuvRange d rg).biasY ≤ y ∧ u < 32768 + 2 ^ (d - 1) ∧ v < 32768 + 2 ^ (d - 1)

theorem LegalSamples.neon {d : Nat} (hd : Deep d) {rg : YuvRange} {y u v : Nat} (h : LegalSamples d rg y u v) :
    NeonSamples d rg y u v := by
  obtain ⟨h0, -, hu, hv⟩ := h
  have : 2 ^ d ≤ 32768 + 2 ^ (d - 1) := by rcases hd with rfl | rfl | rfl | rfl <;> decide
  exact ⟨h0, by omega, by omega⟩

theorem neonWide_eq {d : Nat} (hd : Deep d) (rg : YuvRange) (m : Matrix) {y u v : Nat}
    (h : NeonSamples d rg y u v) (ch : Channels) :
    deepOpaque d ch (neonWideRGB d (getYuvRange d rg) (searchInverse 13 d rg m) y u v)
      = deepPixel (2 ^ 12 - 1) 13 13 d d ch rg m y u v := by
  obtain ⟨h0, hu, hv⟩ := h
  obtain ⟨-, hbu⟩ := deep_bias hd rg
  have hp : 2 ^ (d - 1) ≤ 32768 := by rcases hd with rfl | rfl | rfl | rfl <;> decide
  have key : ∀ n : Nat, n < 32768 + 2 ^ (d - 1) → int16 ((n : Int) - (getYuvRange d rg).biasUv)
      = (n : Int) - (getYuvRange d rg).biasUv := by
    intro n hn; rw [hbu]; apply int16_small <;> omega
  have hl : ((y - (getYuvRange d rg).biasY : Nat) : Int) = (y : Int) - (getYuvRange d rg).biasY := by omega
  unfold deepOpaque deepPixel neonWideRGB linR linG linB
  simp only [hl, key u hu, key v hv]
  generalize ((y : Int) - (getYuvRange d rg).biasY) * (searchInverse 13 d rg m).y = l
  rw [Int.mul_comm ((v : Int) - _) _, Int.mul_comm ((v : Int) - _) (searchInverse 13 d rg m).g1,
    Int.mul_comm ((u : Int) - _) (searchInverse 13 d rg m).g2,
    Int.mul_comm ((u : Int) - _) (searchInverse 13 d rg m).cb]

/-- C135, the 32-bit arithmetic: for luma not below black and chroma within 32767 of the neutral value the
buffer is that of the portable decoder.  Missing: luma below black, where the claim is false
(`c135_violated_below_black`), and larger chroma words. -/
theorem c135_portable_partial (rdm : Bool) (e : Endianness) (bp : BytesPacking) (d : Nat) (hd : Deep d)
    (hk : rdm = false ∨ d ≠ 10)
    (ch : Channels) (s : Sampling) (i : Planar) (rgba : Buf) (stride : Nat) (rg : YuvRange)
    (m : Matrix) (hi : GoodPlanar i s 65536)
    (hdst : GoodDst rgba.length stride i.width i.height ch.count)
    (hl : ∀ x y, x < i.width → y < i.height → NeonSamples d rg (nativeSample e bp d (Planar.Y i x y))
      (nativeSample e bp d (Planar.U i s x y)) (nativeSample e bp d (Planar.V i s x y))) :
    Neon.p16ToRgb16 rdm e bp d ch s i rgba stride rg m
      = p16ToRgb16 x64 e bp d ch s noSimd i rgba stride rg m := by
  obtain ⟨out, e1, h1⟩ := c134_neon_deep_decode rdm e bp d hd ch s i rgba stride rg m hi hdst
  obtain ⟨out', e2, h2⟩ := c28_planar_decode_exact e bp d hd.depth ch s i rgba stride rg m hi hdst
  rw [e1, e2]
  congr 1
  refine frameSpec_unique h1 ⟨h2.1, fun x y c hx hy hc => ?_, h2.2.2⟩
  have hq : ¬ (rdm = true ∧ d = 10) := by
    rintro ⟨h, h'⟩
    rcases hk with k | k
    · rw [h] at k; cases k
    · exact k h'
  rw [h2.2.1 x y c hx hy hc]
  simp only [neonDeepPixel, if_neg hq, neonWide_eq hd rg m (hl x y hx hy) ch]

/-- C135: in full range, with the samples in the most significant bits (or 16 bits deep), the 32-bit arithmetic
writes what the portable decoder writes, whatever the image. -/
theorem c135_full_range (rdm : Bool) (e : Endianness) (bp : BytesPacking) (d : Nat) (hd : Deep d)
    (hk : rdm = false ∨ d ≠ 10) (hbp : bp = .msb ∨ d = 16)
    (ch : Channels) (s : Sampling) (i : Planar) (rgba : Buf) (stride : Nat)
    (m : Matrix) (hi : GoodPlanar i s 65536)
    (hdst : GoodDst rgba.length stride i.width i.height ch.count) :
    Neon.p16ToRgb16 rdm e bp d ch s i rgba stride .full m
      = p16ToRgb16 x64 e bp d ch s noSimd i rgba stride .full m := by
  refine c135_portable_partial rdm e bp d hd hk ch s i rgba stride .full m hi hdst fun x y hx hy => ?_
  obtain ⟨b1, b2, b3⟩ := hi.sample_lt hx hy
  exact LegalSamples.neon hd ⟨Nat.zero_le _, native_msb_lt hd e hbp b1, native_msb_lt hd e hbp b2,
    native_msb_lt hd e hbp b3⟩

theorem neonRdm_eq {d : Nat} (hd : d = 10 ∨ d = 12) (rg : YuvRange) (m : Matrix) {y u v : Nat}
    (h : LegalSamples d rg y u v) :
    neonRdmRGB d (getYuvRange d rg) (searchInverse 13 d rg m) y u v
      = deepVecRGB d (getYuvRange d rg) (searchInverse 13 d rg m) y u v := by
  obtain ⟨h0, hy, hu, hv⟩ := h
  have hD : Deep d := hd.elim .inl fun h => .inr (.inl h)
  have hp : (2 ^ (d - 1) : Nat) * 2 = 2 ^ d ∧ 2 ^ d ≤ 4096 := by rcases hd with rfl | rfl <;> decide
  obtain ⟨-, hbu⟩ := deep_bias hD rg
  obtain ⟨t1, t2, t3, t4, t5⟩ := deepCoef_search hD rg m
  generalize hc : getYuvRange d rg = c at *
  generalize ht : searchInverse 13 d rg m = t at *
  have ch : ∀ n : Nat, n < 2 ^ d → -8192 ≤ int16 (4 * ((n : Int) - c.biasUv)) ∧
      int16 (4 * ((n : Int) - c.biasUv)) ≤ 8192 := by
    intro n hn
    rw [hbu, int16_small (by omega) (by omega)]
    omega
  obtain ⟨e, e0, e3, el⟩ := longLuma_legal hd (yo := y - c.biasY) (by omega)
  have mr : ∀ a k : Int, -16384 ≤ a ∧ a ≤ 16384 → -20000 ≤ k ∧ k ≤ 20000 →
      -10001 ≤ mulRound a k ∧ mulRound a k ≤ 10001 := by
    intro a k ha hk
    have := mul_bounds (A := 16384) (T := 20000) ha hk
    unfold mulRound
    generalize a * k = p at *
    omega
  have bu := ch u hu
  have bv := ch v hv
  have l := mr (longLuma d (y - c.biasY)) t.y (by rw [el]; omega) (by omega)
  have r := mr (int16 (4 * ((v : Int) - c.biasUv))) t.cr (by omega) t2
  have b := mr (int16 (4 * ((u : Int) - c.biasUv))) t.cb (by omega) t3
  have g1 := mr (int16 (4 * ((v : Int) - c.biasUv))) (-t.g1) (by omega) (by omega)
  have g2 := mr (int16 (4 * ((u : Int) - c.biasUv))) (-t.g2) (by omega) (by omega)
  have s1 : sat16 (mulRound (longLuma d (y - c.biasY)) t.y + mulRound (int16 (4 * ((v : Int) - c.biasUv))) (-t.g1))
      = mulRound (longLuma d (y - c.biasY)) t.y + mulRound (int16 (4 * ((v : Int) - c.biasUv))) (-t.g1) := by
    unfold sat16; omega
  unfold neonRdmRGB deepVecRGB
  dsimp only
  rw [s1, int16_small (x := _ + mulRound _ t.cr) (by omega) (by omega),
    int16_small (x := _ + mulRound _ t.cb) (by omega) (by omega),
    int16_small (x := _ + mulRound _ (-t.g1) + _) (by omega) (by omega)]

theorem neonDeep_close (rdm : Bool) {d : Nat} (hd : Deep d) (rg : YuvRange) (m : Matrix) {y u v : Nat}
    (h : LegalSamples d rg y u v) (ch : Channels) :
    DeepClose d 2 ch (neonDeepPixel rdm d ch rg m y u v) (deepPixel (2 ^ 12 - 1) 13 13 d d ch rg m y u v) := by
  unfold neonDeepPixel
  by_cases hq : rdm = true ∧ d = 10
  · rw [if_pos hq]
    obtain ⟨-, rfl⟩ := hq
    rw [neonRdm_eq (.inl rfl) rg m h]
    exact deepVec_close (.inl rfl) rg m h ch
  · rw [if_neg hq, neonWide_eq hd rg m (h.neon hd) ch]
    exact DeepClose.same ..

/-- C135: for samples of the depth with luma not below black, every component on 64-bit ARM is within two code
values of the portable decoder, and the same area is written. -/
theorem c135_agreement_partial (rdm : Bool) (e : Endianness) (bp : BytesPacking) (d : Nat)
    (hd : Deep d) (ch : Channels) (s : Sampling) (i : Planar) (rgba : Buf) (stride : Nat)
    (rg : YuvRange) (m : Matrix) (hi : GoodPlanar i s 65536)
    (hdst : GoodDst rgba.length stride i.width i.height ch.count) (hl : LegalImage e bp d s i rg) :
    ∃ out out', Neon.p16ToRgb16 rdm e bp d ch s i rgba stride rg m = .ok out ∧
      p16ToRgb16 x64 e bp d ch s noSimd i rgba stride rg m = .ok out' ∧
      (∀ x y, x < i.width → y < i.height →
        DeepClose d 2 ch (pixelAt out stride ch.count x y) (pixelAt out' stride ch.count x y)) ∧
      ∀ k, ¬ InFrame stride i.width i.height ch.count k → out[k]? = rgba[k]? ∧ out'[k]? = rgba[k]? := by
  obtain ⟨out, e1, h1⟩ := c134_neon_deep_decode rdm e bp d hd ch s i rgba stride rg m hi hdst
  obtain ⟨out', e2, h2⟩ := c28_planar_decode_exact e bp d hd.depth ch s i rgba stride rg m hi hdst
  refine ⟨out, out', e1, e2, fun x y hx hy => ?_, fun k hk => ⟨h1.2.2 k hk, h2.2.2 k hk⟩⟩
  rw [frameSpec_pixel h1 (x := x) (y := y) hx hy (layout_length' ..),
    frameSpec_pixel h2 (x := x) (y := y) hx hy (layout_length' ..)]
  exact neonDeep_close rdm hd rg m (hl x y hx hy) ch

/-- C135: at 10 bits with rounding multiply-accumulate, for samples of the depth with luma not below black, the
buffer is that of the x86 processors with AVX2 or SSE4.1. -/
theorem c135_same_as_x86_partial (e : Endianness) (bp : BytesPacking)
    (ch : Channels) (s : Sampling) (i : Planar) (rgba : Buf) (stride : Nat)
    (rg : YuvRange) (m : Matrix) (hi : GoodPlanar i s 65536)
    (hdst : GoodDst rgba.length stride i.width i.height ch.count) (hl : LegalImage e bp 10 s i rg) :
    Neon.p16ToRgb16 true e bp 10 ch s i rgba stride rg m
      = p16ToRgb16On .avx2 e bp 10 ch s i rgba stride rg m := by
  obtain ⟨out, e1, h1⟩ := c134_neon_deep_decode true e bp 10 (.inl rfl) ch s i rgba stride rg m hi hdst
  obtain ⟨out', e2, h2⟩ := c83_deep_decode .avx2 e bp 10 (.inl rfl) ch s i rgba stride rg m hi hdst
  rw [e1, e2]
  congr 1
  refine frameSpec_unique h1 ⟨h2.1, fun x y c hx hy hc => ?_, h2.2.2⟩
  rw [h2.2.1 x y c hx hy hc, deepCpuPixel, deepCpu, deepVec]
  simp only [neonDeepPixel, true_and, if_true, neonRdm_eq (.inl rfl) rg m (hl x y hx hy)]

/-- C135: for samples of the depth with luma not below black, every component is within `5/2 + 2^d / 2^13` code
values of the exact ITU-R result saturated to the depth. -/
theorem c135_itu_partial (rdm : Bool) (d : Nat) (hd : Deep d) (ch : Channels) (rg : YuvRange) (m : Matrix)
    (y u v : Nat) (h : LegalSamples d rg y u v) :
    ∃ r g b : Nat, neonDeepPixel rdm d ch rg m y u v = layout ch r g b (2 ^ d - 1) ∧
      |(r : Rat) - satQ d (exactR d rg m y u v)| ≤ 5 / 2 + 2 ^ d / 2 ^ 13 ∧
      |(g : Rat) - satQ d (exactG d rg m y u v)| ≤ 5 / 2 + 2 ^ d / 2 ^ 13 ∧
      |(b : Rat) - satQ d (exactB d rg m y u v)| ≤ 5 / 2 + 2 ^ d / 2 ^ 13 := by
  by_cases hq : rdm = true ∧ d = 10
  · obtain ⟨r, g, b, e1, h1⟩ := c84_itu .avx2 d hd ch rg m y u v h
    refine ⟨r, g, b, e1 ▸ ?_, h1⟩
    obtain ⟨rfl, rfl⟩ := hq
    simp only [neonDeepPixel, true_and, if_true, neonRdm_eq (.inl rfl) rg m h, deepCpu, deepVec]
  · obtain ⟨r, g, b, e1, h1⟩ := c84_itu .plain d hd ch rg m y u v h
    refine ⟨r, g, b, e1 ▸ ?_, h1⟩
    simp only [neonDeepPixel, if_neg hq, neonWide_eq hd rg m (h.neon hd) ch]
    rfl

/-- C135 fails below black: luma below black decodes as black, whatever the chroma. -/
theorem c135_below_black (rdm : Bool) (d : Nat) (ch : Channels) (rg : YuvRange) (m : Matrix) (y u v : Nat)
    (h : y ≤ (getYuvRange d rg).biasY) :
    neonDeepPixel rdm d ch rg m y u v = neonDeepPixel rdm d ch rg m (getYuvRange d rg).biasY u v := by
  have e : y - (getYuvRange d rg).biasY = (getYuvRange d rg).biasY - (getYuvRange d rg).biasY := by omega
  unfold neonDeepPixel neonRdmRGB neonWideRGB
  simp only [e]

/-- What 64-bit ARM makes of one pixel. -/
theorem neonDot_decode (rdm : Bool) {d : Nat} (hd : Deep d) (rg : YuvRange) (m : Matrix) {y u v : Nat}
    (hy : y < 65536) (hu : u < 65536) (hv : v < 65536) :
    Neon.p16ToRgb16 rdm .little .lsb d .rgb .yuv444 (deepDot y u v) [0, 0, 0] 3 rg m
      = .ok (neonDeepPixel rdm d .rgb rg m y u v) := by
  obtain ⟨out, e, h⟩ := c134_neon_deep_decode rdm .little .lsb d hd .rgb .yuv444 (deepDot y u v) [0, 0, 0] 3
    rg m (deepDot_good hy hu hv) ⟨by unfold U32; decide, Nat.le_refl 3,
      by show FullRows 3 3 1; unfold FullRows; decide, by decide⟩
  have len : (neonDeepPixel rdm d .rgb rg m y u v).length = 3 := rfl
  rw [e]; congr 1
  have hp := frameSpec_pixel h (x := 0) (y := 0) Nat.one_pos Nat.one_pos len
  have hl : out.length = 3 := h.1
  unfold pixelAt at hp
  simp only [Nat.zero_mul, Nat.add_zero, List.drop_zero] at hp
  rw [List.take_of_length_le (by rw [hl]; exact Nat.le_refl 3)] at hp
  exact hp

/-- C135 fails below black, at 12 bits in limited range: luma 0 with strong chroma is 299 code values brighter
on 64-bit ARM than in the portable decoder. -/
theorem c135_violated_below_black (rdm : Bool) :
    Neon.p16ToRgb16 rdm .little .lsb 12 .rgb .yuv444 (deepDot 0 2048 3000) [0, 0, 0] 3
        .limited .bt709 = .ok [1713, 0, 0] ∧
      p16ToRgb16 x64 .little .lsb 12 .rgb .yuv444 noSimd (deepDot 0 2048 3000) [0, 0, 0] 3
        .limited .bt709 = .ok [1414, 0, 0] := by
  constructor
  · rw [neonDot_decode rdm (.inr (.inl rfl)) .limited .bt709 (by decide) (by decide) (by decide)]
    cases rdm <;> decide +kernel
  · rw [← c83_plain_is_portable, deepDot_decode _ (.inr (.inl rfl)) .limited .bt709 (by decide) (by decide)
      (by decide)]
    decide +kernel

/-- C135 fails beyond the depth: a 10-bit luma word of 8300 decodes to black with rounding multiply-accumulate
and to white without. -/
theorem c135_violated_beyond_depth (rdm : Bool) :
    Neon.p16ToRgb16 rdm .little .lsb 10 .rgb .yuv444 (deepDot 8300 512 512) [0, 0, 0] 3 .limited .bt709
      = .ok (if rdm then [0, 0, 0] else [1023, 1023, 1023]) := by
  rw [neonDot_decode rdm (.inl rfl) .limited .bt709 (by decide) (by decide) (by decide)]
  cases rdm <;> decide +kernel

/-- A legal image; the two kernels differ by one. -/
example : LegalSamples 10 .limited 648 294 600 ∧
    neonDeepPixel true 10 .rgb .limited .bt709 648 294 600 = [841, 683, 221] ∧
    neonDeepPixel false 10 .rgb .limited .bt709 648 294 600 = [840, 682, 220] := by
  unfold LegalSamples; decide +kernel

end Verif
