import Verif.Lemmas.X86DeepRows
import Verif.Props.DeepDecode
import Verif.Props.Identity
/-!
# C83, C84: planar 10- to 16-bit YCbCr to RGB of the same depth on x86 processors
-/
namespace Verif
open Spec X86

theorem deepCoef_search {d : Nat} (hd : Deep d) (rg : YuvRange) (m : Matrix) :
    DeepCoef (searchInverse 13 d rg m) := by
  rcases hd with rfl | rfl | rfl | rfl <;> cases rg <;> cases m <;> (unfold DeepCoef; decide +kernel)

theorem deep_bias {d : Nat} (hd : Deep d) (rg : YuvRange) :
    (getYuvRange d rg).biasY < 65536 ∧ (getYuvRange d rg).biasUv = 2 ^ (d - 1) := by
  rcases hd with rfl | rfl | rfl | rfl <;> cases rg <;> decide

/-! ## C83 -/

/-- Red, green and blue of native samples in the vector code of a processor, if it has any for the
depth. -/
def deepVec (cpu : Cpu) (d : Nat) (rg : YuvRange) (m : Matrix) (y u v : Nat) :
    Option (Nat × Nat × Nat) :=
  let c := getYuvRange d rg
  let t := searchInverse 13 d rg m
  match cpu with
  | .avx2 => some (if d = 10 then deepVecRGB d c t y u v else deepWideRGB d c t y u v)
  | .sse41 => if d ≤ 12 then some (deepVecRGB d c t y u v) else none
  | .plain => none

/-- The pixel of native samples on a processor. -/
def deepCpu (cpu : Cpu) (d : Nat) (ch : Channels) (rg : YuvRange) (m : Matrix) (y u v : Nat) : Buf :=
  match deepVec cpu d rg m y u v with
  | some c => deepOpaque d ch c
  | none => deepPixel (2 ^ 12 - 1) 13 13 d d ch rg m y u v

/-- The pixel at `(x, y)` on a processor. -/
def deepCpuPixel (cpu : Cpu) (e : Endianness) (bp : BytesPacking) (d : Nat) (ch : Channels)
    (s : Sampling) (i : Planar) (rg : YuvRange) (m : Matrix) (x y : Nat) : Buf :=
  deepCpu cpu d ch rg m (nativeSample e bp d (Planar.Y i x y))
    (nativeSample e bp d (Planar.U i s x y)) (nativeSample e bp d (Planar.V i s x y))

/-- C83: on every class of x86 processor the decoders to RGB of the same depth succeed on every good
image and destination, whatever the words stored in the image — no load or store of the vector
code leaves its slice — and write exactly the pixels of the image; every pixel is determined by
the native samples shown at it, not by its position, the size of the image or the padding. -/
theorem c83_deep_decode (cpu : Cpu) (e : Endianness) (bp : BytesPacking) (d : Nat) (hd : Deep d)
    (ch : Channels) (s : Sampling) (i : Planar) (rgba : Buf) (stride : Nat) (rg : YuvRange)
    (m : Matrix) (hi : GoodPlanar i s 65536)
    (hdst : GoodDst rgba.length stride i.width i.height ch.count) :
    ∃ out, p16ToRgb16On cpu e bp d ch s i rgba stride rg m = .ok out ∧
      FrameSpec out rgba stride i.width i.height ch.count (deepCpuPixel cpu e bp d ch s i rg m) := by
  have hr := hi.rows
  have hcn := count_pos ch
  have hst : 0 < stride := Nat.lt_of_lt_of_le (Nat.mul_pos hr.wpos hcn) hdst.cols_le
  obtain ⟨hby, hbu⟩ := deep_bias hd rg
  have hbu' : (getYuvRange d rg).biasUv < 65536 := by
    rw [hbu]; rcases hd with rfl | rfl | rfl | rfl <;> decide
  have hf := deepHandler_fills (w := i.width) cpu s e bp hd ch (deepCoef_search hd rg m) hby hbu'
    (fun y u v => deepPixel (2 ^ 12 - 1) 13 13 d d ch rg m (toNe e bp y (16 - d))
        (toNe e bp u (16 - d)) (toNe e bp v (16 - d)))
  unfold p16ToRgb16On p16ToRgb16
  rw [hdst.accepted hi.wpos hi.hpos hi.w32 hi.h32 hcn (count_le ch), hi.accepted]
  simp only [Outcome.bind_ok]
  obtain ⟨out, e1, h⟩ := (deepFrame_q hr hcn (putP16_ok hd.depth e bp ch rg m) hf hdst.cols_le
    hdst.full).spec hcn hst hdst.cols_le hdst.full.1
  refine ⟨out, e1, frameRel_eq ⟨h.1, fun x y hx hy => ?_, h.2.2⟩⟩
  refine (h.2.1 x y hx hy).trans ?_
  obtain ⟨b1, b2, b3⟩ := hi.sample_lt hx hy
  have ne : deepPixel (2 ^ 12 - 1) 13 13 d d ch rg m (toNe e bp (Planar.Y i x y) (16 - d))
      (toNe e bp (Planar.U i s x y) (16 - d)) (toNe e bp (Planar.V i s x y) (16 - d))
      = deepPlanarPixel e bp d ch s i rg m x y := by
    rw [toNe_eq e bp b1, toNe_eq e bp b2, toNe_eq e bp b3]
  cases cpu with
  | avx2 =>
    simp only [cpuDeep, deepCpuPixel, deepCpu, deepVec, wordsPix]
    split <;> rfl
  | sse41 =>
    simp only [cpuDeep, deepCpuPixel, deepCpu, deepVec, wordsPix]
    by_cases h12 : d ≤ 12
    · rw [if_pos h12, if_pos h12]; rfl
    · rw [if_neg h12, if_neg h12]; exact ne
  | plain => exact ne

/-- C83: at 10 bits AVX2 and SSE4.1 write the same buffer; at 14 and 16 bits SSE4.1 writes what a
processor without vector code writes. -/
theorem c83_same_buffers (e : Endianness) (bp : BytesPacking)
    (ch : Channels) (s : Sampling) (i : Planar) (rgba : Buf) (stride : Nat) (rg : YuvRange)
    (m : Matrix) (hi : GoodPlanar i s 65536)
    (hdst : GoodDst rgba.length stride i.width i.height ch.count) :
    p16ToRgb16On .avx2 e bp 10 ch s i rgba stride rg m
      = p16ToRgb16On .sse41 e bp 10 ch s i rgba stride rg m ∧
    ∀ d, d = 14 ∨ d = 16 → p16ToRgb16On .sse41 e bp d ch s i rgba stride rg m
      = p16ToRgb16On .plain e bp d ch s i rgba stride rg m := by
  constructor
  · obtain ⟨out, e1, h1⟩ := c83_deep_decode .avx2 e bp 10 (.inl rfl) ch s i rgba stride rg m hi hdst
    obtain ⟨out', e2, h2⟩ := c83_deep_decode .sse41 e bp 10 (.inl rfl) ch s i rgba stride rg m hi hdst
    rw [e1, e2, frameSpec_unique h1 h2]
  · intro d hd
    unfold p16ToRgb16On
    congr 1
    funext y u v row
    exact if_neg (by rcases hd with rfl | rfl <;> decide)

/-- A processor without vector code runs the portable decoder. -/
theorem c83_plain_is_portable (e : Endianness) (bp : BytesPacking) (d : Nat)
    (ch : Channels) (s : Sampling) (i : Planar) (rgba : Buf) (stride : Nat) (rg : YuvRange)
    (m : Matrix) : p16ToRgb16On .plain e bp d ch s i rgba stride rg m
      = p16ToRgb16 x64 e bp d ch s noSimd i rgba stride rg m := rfl

/-- C83: on every processor byte order and packing only represent the samples: decoding an image
stored big-endian or in the high bits gives exactly what decoding the image of its native samples,
stored little-endian in the low bits, gives. -/
theorem c83_representation (cpu : Cpu) (e : Endianness) (bp : BytesPacking) (d : Nat) (hd : Deep d)
    (ch : Channels) (s : Sampling) (i : Planar) (rgba : Buf) (stride : Nat) (rg : YuvRange)
    (m : Matrix) (hi : GoodPlanar i s 65536)
    (hdst : GoodDst rgba.length stride i.width i.height ch.count) :
    ∃ out, p16ToRgb16On cpu e bp d ch s i rgba stride rg m = .ok out ∧
      p16ToRgb16On cpu .little .lsb d ch s (Planar.mapSamples (nativeSample e bp d) i) rgba
        stride rg m = .ok out := by
  obtain ⟨out, e1, hr⟩ := c83_deep_decode cpu e bp d hd ch s i rgba stride rg m hi hdst
  obtain ⟨out', e2, hr'⟩ := c83_deep_decode cpu .little .lsb d hd ch s
    (Planar.mapSamples (nativeSample e bp d) i) rgba stride rg m (native_map_good e bp d hi) hdst
  refine ⟨out, e1, ?_⟩
  rw [e2]; congr 1
  refine frameSpec_unique hr' ⟨hr.1, fun x y c hx hy hc => ?_, hr.2.2⟩
  rw [hr.2.1 x y c hx hy hc]
  have hz := nativeSample_zero e bp d
  unfold deepCpuPixel
  simp only [Planar.Y, Planar.U, Planar.V, Planar.mapSamples, at'_map hz]
  rfl

example : ∃ out, p16ToRgb16On .avx2 .big .lsb 10 .rgb .yuv420 demo10be (List.replicate 33 7) 11
    .limited .bt709 = .ok out ∧ pixelAt out 11 Channels.rgb.count 2 0 = [1023, 915, 575] := by
  obtain ⟨out, e, h⟩ := c83_deep_decode .avx2 .big .lsb 10 (.inl rfl) .rgb .yuv420 demo10be
    (List.replicate 33 7) 11 .limited .bt709 demo10be_good
    ⟨by unfold U32; decide, by decide, by unfold FullRows; decide, by decide⟩
  refine ⟨out, e, ?_⟩
  rw [frameSpec_pixel h (x := 2) (y := 0) (by decide) (by decide) rfl]
  decide +kernel

/-! ## C84 -/

/-- Samples of the depth, luma not below black. -/
def LegalSamples (d : Nat) (rg : YuvRange) (y u v : Nat) : Prop :=
  (getYuvRange d rg).biasY ≤ y ∧ y < 2 ^ d ∧ u < 2 ^ d ∧ v < 2 ^ d

/-- All samples shown by the image are. -/
def LegalImage (e : Endianness) (bp : BytesPacking) (d : Nat) (s : Sampling) (i : Planar)
    (rg : YuvRange) : Prop :=
  ∀ x y, x < i.width → y < i.height → LegalSamples d rg (nativeSample e bp d (Planar.Y i x y))
    (nativeSample e bp d (Planar.U i s x y)) (nativeSample e bp d (Planar.V i s x y))

theorem int16_small {x : Int} (h1 : -32768 ≤ x) (h2 : x ≤ 32767) : int16 x = x := asI16_id h1 h2

theorem deepWide_eq {d : Nat} (hd : Deep d) (rg : YuvRange) (m : Matrix) {y u v : Nat}
    (h : LegalSamples d rg y u v) (ch : Channels) :
    deepOpaque d ch (deepWideRGB d (getYuvRange d rg) (searchInverse 13 d rg m) y u v)
      = deepPixel (2 ^ 12 - 1) 13 13 d d ch rg m y u v := by
  obtain ⟨h0, hy, hu, hv⟩ := h
  obtain ⟨-, hbu⟩ := deep_bias hd rg
  have hp : (2 ^ (d - 1) : Nat) * 2 = 2 ^ d ∧ 2 ^ d ≤ 65536 := by
    rcases hd with rfl | rfl | rfl | rfl <;> decide
  have key : ∀ n : Nat, n < 2 ^ d → int16 ((n : Int) - (getYuvRange d rg).biasUv)
      = (n : Int) - (getYuvRange d rg).biasUv := by
    intro n hn; rw [hbu]; apply int16_small <;> omega
  have hl : (if d = 16 then ((y - (getYuvRange d rg).biasY : Nat) : Int)
      else int16 ((y - (getYuvRange d rg).biasY : Nat) : Int)) = (y : Int) - (getYuvRange d rg).biasY := by
    split
    · omega
    · have : 2 ^ d ≤ 16384 := by rcases hd with rfl | rfl | rfl | rfl <;> simp_all
      rw [int16_small] <;> omega
  unfold deepOpaque deepPixel deepWideRGB linR linG linB
  simp only [hl, key u hu, key v hv]
  generalize ((y : Int) - (getYuvRange d rg).biasY) * (searchInverse 13 d rg m).y = l
  rw [Int.mul_comm ((v : Int) - _) _, Int.mul_comm ((u : Int) - _) _,
    Int.mul_comm ((u : Int) - _) (searchInverse 13 d rg m).cb,
    Int.mul_comm ((v : Int) - _) (searchInverse 13 d rg m).g1]
  congr 3
  omega

/-- C84, AVX2 at 12, 14 and 16 bits: for samples of the depth with luma not below black the buffer
is that of the portable decoder. -/
theorem c84_avx2_portable_partial (e : Endianness) (bp : BytesPacking) (d : Nat)
    (hd : d = 12 ∨ d = 14 ∨ d = 16)
    (ch : Channels) (s : Sampling) (i : Planar) (rgba : Buf) (stride : Nat) (rg : YuvRange)
    (m : Matrix) (hi : GoodPlanar i s 65536)
    (hdst : GoodDst rgba.length stride i.width i.height ch.count)
    (hl : LegalImage e bp d s i rg) :
    p16ToRgb16On .avx2 e bp d ch s i rgba stride rg m
      = p16ToRgb16 x64 e bp d ch s noSimd i rgba stride rg m := by
  have hD : Deep d := .inr hd
  obtain ⟨out, e1, h1⟩ := c83_deep_decode .avx2 e bp d hD ch s i rgba stride rg m hi hdst
  obtain ⟨out', e2, h2⟩ := c28_planar_decode_exact e bp d hD.depth ch s i rgba stride rg m hi hdst
  rw [e1, e2]
  congr 1
  refine frameSpec_unique h1 ⟨h2.1, fun x y c hx hy hc => ?_, h2.2.2⟩
  rw [h2.2.1 x y c hx hy hc, deepCpuPixel, deepCpu, deepVec]
  simp only [if_neg (show d ≠ 10 by omega), deepWide_eq hD rg m (hl x y hx hy) ch]

theorem native_msb_lt {d : Nat} (hd : Deep d) (e : Endianness) {bp : BytesPacking}
    (h : bp = .msb ∨ d = 16) {x : Nat} (hx : x < 65536) : nativeSample e bp d x < 2 ^ d := by
  have key : ∀ z, z < 65536 → z / 2 ^ (16 - d) < 2 ^ d := by
    intro z hz
    rcases hd with rfl | rfl | rfl | rfl <;> omega
  rcases h with rfl | rfl
  · cases e
    · exact key (256 * (x % 256) + x / 256) (by omega)
    · exact key _ hx
  · exact nativeSample_lt e bp hx

/-- C84: in full range, with the samples in the most significant bits (or 16 bits deep), AVX2 at 12,
14 and 16 bits writes what the portable decoder writes, whatever the image. -/
theorem c84_avx2_full_range (e : Endianness) (bp : BytesPacking) (d : Nat)
    (hd : d = 12 ∨ d = 14 ∨ d = 16) (hbp : bp = .msb ∨ d = 16)
    (ch : Channels) (s : Sampling) (i : Planar) (rgba : Buf) (stride : Nat)
    (m : Matrix) (hi : GoodPlanar i s 65536)
    (hdst : GoodDst rgba.length stride i.width i.height ch.count) :
    p16ToRgb16On .avx2 e bp d ch s i rgba stride .full m
      = p16ToRgb16 x64 e bp d ch s noSimd i rgba stride .full m := by
  refine c84_avx2_portable_partial e bp d hd ch s i rgba stride .full m hi hdst fun x y hx hy => ?_
  obtain ⟨b1, b2, b3⟩ := hi.sample_lt hx hy
  have hD : Deep d := .inr hd
  exact ⟨Nat.zero_le _, native_msb_lt hD e hbp b1, native_msb_lt hD e hbp b2, native_msb_lt hD e hbp b3⟩

/-- Red, green and blue of two pixels differ by at most `n`, both are opaque. -/
def DeepClose (d n : Nat) (ch : Channels) (p q : Buf) : Prop :=
  ∃ r g b r' g' b' : Nat, p = layout ch r g b (2 ^ d - 1) ∧ q = layout ch r' g' b' (2 ^ d - 1) ∧
    (r ≤ r' + n ∧ r' ≤ r + n) ∧ (g ≤ g' + n ∧ g' ≤ g + n) ∧ (b ≤ b' + n ∧ b' ≤ b + n)

theorem DeepClose.symm {d n : Nat} {ch : Channels} {p q : Buf} (h : DeepClose d n ch p q) :
    DeepClose d n ch q p := by
  obtain ⟨r, g, b, r', g', b', e, e', h1, h2, h3⟩ := h
  exact ⟨r', g', b', r, g, b, e', e, h1.symm, h2.symm, h3.symm⟩

theorem DeepClose.same (d n : Nat) (ch : Channels) (r g b : Nat) :
    DeepClose d n ch (layout ch r g b (2 ^ d - 1)) (layout ch r g b (2 ^ d - 1)) :=
  ⟨r, g, b, r, g, b, rfl, rfl, by omega, by omega, by omega⟩

theorem saturate_near {d : Nat} {a b : Int} {n : Nat} (h1 : a ≤ b + n) (h2 : b ≤ a + n) :
    saturate d a ≤ saturate d b + n ∧ saturate d b ≤ saturate d a + n := by
  unfold saturate
  generalize (2 : Int) ^ d = p
  omega

/-- The sum of two rounded terms, the first with an excess of at most 3/32768 of `ty`, against the
rounded sum. -/
theorem round_terms_at {R : Int} (hR : R = 2 ^ 12 - 1 ∨ R = 2 ^ 12) {Y e A B ty : Int} (he : 0 ≤ e ∧ e ≤ 3)
    (ht : 0 ≤ ty ∧ ty ≤ 10000) :
    let v := mulRound (4 * Y + e) ty + (4 * A + 16384) / 32768 + (4 * B + 16384) / 32768
    let p := roundShift R 13 (Y * ty + A + B)
    v ≤ p + 2 ∧ p ≤ v + 2 := by
  have h := mul_bounds (a := e) (t := ty) (A := 3) (T := 10000) (by omega) (by omega)
  have h0 : 0 ≤ e * ty := Int.mul_nonneg he.1 ht.1
  have e1 : (4 * Y + e) * ty = 4 * (Y * ty) + e * ty := by ring
  unfold mulRound roundShift
  rw [e1]
  generalize Y * ty = L at *
  generalize e * ty = f at *
  rcases hR with rfl | rfl <;> (norm_num; omega)

theorem round_terms {Y e A B ty : Int} (he : 0 ≤ e ∧ e ≤ 3) (ht : 0 ≤ ty ∧ ty ≤ 10000) :
    let v := mulRound (4 * Y + e) ty + (4 * A + 16384) / 32768 + (4 * B + 16384) / 32768
    let p := roundShift (2 ^ 12 - 1) 13 (Y * ty + A + B)
    v ≤ p + 2 ∧ p ≤ v + 2 := round_terms_at (.inl rfl) he ht

theorem longLuma_legal {d yo : Nat} (hd : d = 10 ∨ d = 12) (h : yo < 2 ^ d) :
    ∃ e : Int, 0 ≤ e ∧ e ≤ 3 ∧ longLuma d yo = 4 * (yo : Int) + e := by
  have hq : yo / 2 ^ (d - 2) < 4 ∧ 4 * yo < 16384 := by
    rcases hd with rfl | rfl <;> omega
  refine ⟨((yo / 2 ^ (d - 2) : Nat) : Int), Int.natCast_nonneg _, by omega, ?_⟩
  unfold longLuma
  rw [Nat.mod_eq_of_lt (by omega), show 4 * yo = 2 ^ 2 * yo from rfl,
    ← Nat.two_pow_add_eq_or_of_lt (i := 2) hq.1 yo, int16_small]
  · push_cast; ring
  · generalize yo / 2 ^ (d - 2) = q at *; push_cast; omega
  · generalize yo / 2 ^ (d - 2) = q at *; push_cast; omega

theorem deepVec_close_at {R : Int} (hR : R = 2 ^ 12 - 1 ∨ R = 2 ^ 12) {d : Nat} (hd : d = 10 ∨ d = 12)
    (rg : YuvRange) (m : Matrix) {y u v : Nat}
    (h : LegalSamples d rg y u v) (ch : Channels) :
    DeepClose d 2 ch (deepOpaque d ch (deepVecRGB d (getYuvRange d rg) (searchInverse 13 d rg m) y u v))
      (deepPixel R 13 13 d d ch rg m y u v) := by
  have hD : Deep d := hd.elim .inl fun h => .inr (.inl h)
  obtain ⟨h0, hy, hu, hv⟩ := h
  obtain ⟨-, hbu⟩ := deep_bias hD rg
  obtain ⟨t1, t2, t3, t4, t5⟩ := deepCoef_search hD rg m
  have ty : 0 ≤ (searchInverse 13 d rg m).y := by
    rcases hd with rfl | rfl <;> cases rg <;> cases m <;> decide +kernel
  have hp : (2 ^ (d - 1) : Nat) * 2 = 2 ^ d ∧ 2 ^ d ≤ 4096 := by rcases hd with rfl | rfl <;> decide
  have key : ∀ n : Nat, n < 2 ^ d → int16 (4 * ((n : Int) - (getYuvRange d rg).biasUv))
      = 4 * ((n : Int) - (getYuvRange d rg).biasUv) ∧
      (-2048 ≤ (n : Int) - (getYuvRange d rg).biasUv ∧ (n : Int) - (getYuvRange d rg).biasUv ≤ 2048) := by
    intro n hn; rw [hbu]; constructor
    · apply int16_small <;> omega
    · omega
  obtain ⟨ku, bu⟩ := key u hu
  obtain ⟨kv, bv⟩ := key v hv
  obtain ⟨e, e0, e3, el⟩ := longLuma_legal hd (yo := y - (getYuvRange d rg).biasY) (by omega)
  have ey : ((y - (getYuvRange d rg).biasY : Nat) : Int) = (y : Int) - (getYuvRange d rg).biasY := by omega
  have bY : 0 ≤ (y : Int) - (getYuvRange d rg).biasY ∧ (y : Int) - (getYuvRange d rg).biasY ≤ 4095 := by omega
  generalize hc : getYuvRange d rg = c at *
  generalize ht : searchInverse 13 d rg m = t at *
  have mr : ∀ a k : Int, mulRound (4 * a) k = (4 * (k * a) + 16384) / 32768 := by
    intro a k; unfold mulRound; rw [show 4 * a * k = 4 * (k * a) by ring]
  have prod : ∀ a k : Int, -2048 ≤ a ∧ a ≤ 2048 → -20000 ≤ k ∧ k ≤ 20000 →
      -40960000 ≤ k * a ∧ k * a ≤ 40960000 := by
    intro a k ha hk
    have := mul_bounds (A := 2048) (T := 20000) ha hk
    rw [Int.mul_comm]; omega
  have comp : ∀ A B : Int, -40960000 ≤ A ∧ A ≤ 40960000 → -40960000 ≤ B ∧ B ≤ 40960000 →
      let v := mulRound (longLuma d (y - c.biasY)) t.y + (4 * A + 16384) / 32768 + (4 * B + 16384) / 32768
      let p := ((y : Int) - c.biasY) * t.y + A + B
      saturate d (int16 v) ≤ saturate d (roundShift R 13 p) + 2 ∧
      saturate d (roundShift R 13 p) ≤ saturate d (int16 v) + 2 := by
    intro A B hA hB
    have r := round_terms_at hR (Y := (y : Int) - c.biasY) (e := e) (A := A) (B := B) (ty := t.y) ⟨e0, e3⟩
      ⟨ty, t1.2⟩
    have by1 := mul_bounds (A := 16383) (T := 10000)
      (a := 4 * ((y : Int) - c.biasY) + e) (t := t.y) (by omega) t1
    simp only at r ⊢
    rw [el, ey]
    have eq : int16 (mulRound (4 * ((y : Int) - c.biasY) + e) t.y + (4 * A + 16384) / 32768
        + (4 * B + 16384) / 32768) = mulRound (4 * ((y : Int) - c.biasY) + e) t.y
        + (4 * A + 16384) / 32768 + (4 * B + 16384) / 32768 := by
      unfold mulRound
      generalize (4 * ((y : Int) - c.biasY) + e) * t.y = q at *
      apply int16_small <;> omega
    rw [eq]
    exact saturate_near r.1 r.2
  have cR := comp (t.cr * ((v : Int) - c.biasUv)) 0 (prod _ _ bv t2) (by omega)
  have cB := comp (t.cb * ((u : Int) - c.biasUv)) 0 (prod _ _ bu t3) (by omega)
  have cG := comp (-t.g1 * ((v : Int) - c.biasUv)) (-t.g2 * ((u : Int) - c.biasUv))
    (prod _ _ bv (by omega)) (prod _ _ bu (by omega))
  refine ⟨_, _, _, _, _, _, rfl, rfl, ?_, ?_, ?_⟩
  · simp only [deepVecRGB, linR, kv, mr, hc, ht]
    simpa using cR
  · simp only [deepVecRGB, linG, kv, ku, mr, hc, ht]
    simpa [sub_eq_add_neg] using cG
  · simp only [deepVecRGB, linB, ku, mr, hc, ht]
    simpa using cB

theorem deepVec_close {d : Nat} (hd : d = 10 ∨ d = 12) (rg : YuvRange) (m : Matrix) {y u v : Nat}
    (h : LegalSamples d rg y u v) (ch : Channels) :
    DeepClose d 2 ch (deepOpaque d ch (deepVecRGB d (getYuvRange d rg) (searchInverse 13 d rg m) y u v))
      (deepPixel (2 ^ 12 - 1) 13 13 d d ch rg m y u v) := deepVec_close_at (.inl rfl) hd rg m h ch

theorem deepCpu_cases (cpu : Cpu) {d : Nat} (hD : Deep d) (ch : Channels) (rg : YuvRange) (m : Matrix)
    {y u v : Nat} (h : LegalSamples d rg y u v) :
    deepCpu cpu d ch rg m y u v = deepPixel (2 ^ 12 - 1) 13 13 d d ch rg m y u v ∨
    ((d = 10 ∨ d = 12) ∧ deepCpu cpu d ch rg m y u v
      = deepOpaque d ch (deepVecRGB d (getYuvRange d rg) (searchInverse 13 d rg m) y u v)) := by
  cases cpu with
  | plain => exact .inl rfl
  | avx2 =>
    simp only [deepCpu, deepVec]
    by_cases h10 : d = 10
    · exact .inr ⟨.inl h10, by rw [if_pos h10]⟩
    · rw [if_neg h10]
      exact .inl (deepWide_eq hD rg m h ch)
  | sse41 =>
    simp only [deepCpu, deepVec]
    by_cases h12 : d ≤ 12
    · rw [if_pos h12]
      exact .inr ⟨by rcases hD with h | h | h | h <;> omega, rfl⟩
    · rw [if_neg h12]
      exact .inl rfl

/-- C84, what holds: two processors of whatever class decode an image of samples of the depth with
luma not below black to pixels that differ by at most two code values per component, and write the
same area.  Missing: luma below black and samples beyond the depth, where the claim is false. -/
theorem c84_cpu_agreement_partial (cpu cpu' : Cpu) (e : Endianness) (bp : BytesPacking) (d : Nat)
    (hd : Deep d) (ch : Channels) (s : Sampling) (i : Planar) (rgba : Buf) (stride : Nat)
    (rg : YuvRange) (m : Matrix) (hi : GoodPlanar i s 65536)
    (hdst : GoodDst rgba.length stride i.width i.height ch.count) (hl : LegalImage e bp d s i rg) :
    ∃ out out', p16ToRgb16On cpu e bp d ch s i rgba stride rg m = .ok out ∧
      p16ToRgb16On cpu' e bp d ch s i rgba stride rg m = .ok out' ∧
      (∀ x y, x < i.width → y < i.height →
        DeepClose d 2 ch (pixelAt out stride ch.count x y) (pixelAt out' stride ch.count x y)) ∧
      ∀ k, ¬ InFrame stride i.width i.height ch.count k → out[k]? = rgba[k]? ∧ out'[k]? = rgba[k]? := by
  obtain ⟨out, e1, h1⟩ := c83_deep_decode cpu e bp d hd ch s i rgba stride rg m hi hdst
  obtain ⟨out', e2, h2⟩ := c83_deep_decode cpu' e bp d hd ch s i rgba stride rg m hi hdst
  refine ⟨out, out', e1, e2, fun x y hx hy => ?_, fun k hk => ⟨h1.2.2 k hk, h2.2.2 k hk⟩⟩
  have len : ∀ c y u v, (deepCpu c d ch rg m y u v).length = ch.count := by
    intro c y u v; unfold deepCpu; split <;> exact layout_length' ..
  rw [frameSpec_pixel h1 (x := x) (y := y) hx hy (len ..), frameSpec_pixel h2 (x := x) (y := y) hx hy (len ..)]
  have hL := hl x y hx hy
  unfold deepCpuPixel
  rcases deepCpu_cases cpu hd ch rg m hL with a | ⟨hd2, a⟩ <;>
    rcases deepCpu_cases cpu' hd ch rg m hL with b | ⟨hd3, b⟩ <;> rw [a, b]
  · exact DeepClose.same ..
  · exact (deepVec_close hd3 rg m hL ch).symm
  · exact deepVec_close hd2 rg m hL ch
  · exact DeepClose.same ..

/-- C84: on every processor, for samples of the depth with luma not below black, every component is
within `5/2 + 2^d / 2^13` code values of the exact ITU-R result saturated to the depth. -/
theorem c84_itu (cpu : Cpu) (d : Nat) (hd : Deep d) (ch : Channels) (rg : YuvRange) (m : Matrix)
    (y u v : Nat) (h : LegalSamples d rg y u v) :
    ∃ r g b : Nat, deepCpu cpu d ch rg m y u v = layout ch r g b (2 ^ d - 1) ∧
      |(r : Rat) - satQ d (exactR d rg m y u v)| ≤ 5 / 2 + 2 ^ d / 2 ^ 13 ∧
      |(g : Rat) - satQ d (exactG d rg m y u v)| ≤ 5 / 2 + 2 ^ d / 2 ^ 13 ∧
      |(b : Rat) - satQ d (exactB d rg m y u v)| ≤ 5 / 2 + 2 ^ d / 2 ^ 13 := by
  obtain ⟨r, g, b, e1, hr, hg, hb⟩ := c28_close (2 ^ 12 - 1) (.inl rfl) d hd.depth ch rg m y u v
    h.2.1 h.2.2.1 h.2.2.2
  have near : ∀ {a b : Nat} {E D : Rat}, (a ≤ b + 2 ∧ b ≤ a + 2) → |(b : Rat) - E| ≤ 1 / 2 + D →
      |(a : Rat) - E| ≤ 5 / 2 + D := by
    intro a b E D hab h
    have h1 : (a : Rat) ≤ b + 2 := by exact_mod_cast hab.1
    have h2 : (b : Rat) ≤ a + 2 := by exact_mod_cast hab.2
    rw [abs_le] at h ⊢
    constructor <;> linarith [h.1, h.2]
  rcases deepCpu_cases cpu hd ch rg m h with a | ⟨hd2, a⟩
  · exact ⟨r, g, b, a.trans e1, near (b := r) (by omega) hr, near (b := g) (by omega) hg,
      near (b := b) (by omega) hb⟩
  · obtain ⟨r', g', b', r2, g2, b2, q1, q2, n1, n2, n3⟩ := deepVec_close hd2 rg m h ch
    have inj : r2 = r ∧ g2 = g ∧ b2 = b := by
      have := q2.symm.trans e1
      cases ch <;> simp_all [layout]
    obtain ⟨rfl, rfl, rfl⟩ := inj
    exact ⟨r', g', b', a.trans q1, near n1 hr, near n2 hg, near n3 hb⟩

/-- C84 fails below black: with vector code luma below black decodes as black, whatever the
chroma. -/
theorem c84_below_black (cpu : Cpu) (d : Nat) (rg : YuvRange) (m : Matrix) (y u v : Nat)
    (h : y ≤ (getYuvRange d rg).biasY) :
    deepVec cpu d rg m y u v = deepVec cpu d rg m (getYuvRange d rg).biasY u v := by
  have e : y - (getYuvRange d rg).biasY = (getYuvRange d rg).biasY - (getYuvRange d rg).biasY := by omega
  unfold deepVec deepVecRGB deepWideRGB
  simp only [e]

/-- One pixel of luma `y` and the given chroma. -/
def deepDot (y u v : Nat) : Planar :=
  { y := [y], yStride := 1, u := [u], uStride := 1, v := [v], vStride := 1, width := 1, height := 1 }

theorem deepDot_good {y u v : Nat} (hy : y < 65536) (hu : u < 65536) (hv : v < 65536) :
    GoodPlanar (deepDot y u v) .yuv444 65536 := by
  have h1 : U32 1 := by unfold U32; decide
  have h2 : FullRows 1 1 1 := by unfold FullRows; decide
  have h3 : cover 1 (hdiv .yuv444) = 1 ∧ cover 1 (vdiv .yuv444) = 1 := by decide
  have h4 : FullRows 1 1 (cover 1 (vdiv .yuv444)) := by rw [h3.2]; exact h2
  exact {
    wpos := Nat.one_pos
    hpos := Nat.one_pos
    w32 := h1
    h32 := h1
    y := ⟨h1, Nat.le_refl 1, h2, by simpa [deepDot] using hy⟩
    u := ⟨h1, Nat.le_of_eq h3.1, h4, by simpa [deepDot] using hu⟩
    v := ⟨h1, Nat.le_of_eq h3.1, h4, by simpa [deepDot] using hv⟩ }

/-- What a processor makes of one pixel. -/
theorem deepDot_decode (cpu : Cpu) {d : Nat} (hd : Deep d) (rg : YuvRange) (m : Matrix) {y u v : Nat}
    (hy : y < 65536) (hu : u < 65536) (hv : v < 65536) :
    p16ToRgb16On cpu .little .lsb d .rgb .yuv444 (deepDot y u v) [0, 0, 0] 3 rg m
      = .ok (deepCpu cpu d .rgb rg m y u v) := by
  obtain ⟨out, e, h⟩ := c83_deep_decode cpu .little .lsb d hd .rgb .yuv444 (deepDot y u v) [0, 0, 0] 3
    rg m (deepDot_good hy hu hv) ⟨by unfold U32; decide, Nat.le_refl 3, by show FullRows 3 3 1; unfold FullRows; decide,
    by decide⟩
  have len : (deepCpu cpu d .rgb rg m y u v).length = 3 := by
    unfold deepCpu; split <;> rfl
  rw [e]; congr 1
  have hp := frameSpec_pixel h (x := 0) (y := 0) Nat.one_pos Nat.one_pos len
  have hl : out.length = 3 := h.1
  unfold pixelAt at hp
  simp only [Nat.zero_mul, Nat.add_zero, List.drop_zero] at hp
  rw [List.take_of_length_le (by rw [hl]; exact Nat.le_refl 3)] at hp
  exact hp

/-- C84 fails below black, at 12 bits in limited range: luma 0 with strong chroma is 299 code values
brighter with AVX2 or SSE4.1 than without. -/
theorem c84_violated_below_black :
    ∃ a b c, p16ToRgb16On .avx2 .little .lsb 12 .rgb .yuv444 (deepDot 0 2048 3000) [0, 0, 0] 3
        .limited .bt709 = .ok [a, 0, 0] ∧
      p16ToRgb16On .sse41 .little .lsb 12 .rgb .yuv444 (deepDot 0 2048 3000) [0, 0, 0] 3
        .limited .bt709 = .ok [b, 0, 0] ∧
      p16ToRgb16On .plain .little .lsb 12 .rgb .yuv444 (deepDot 0 2048 3000) [0, 0, 0] 3
        .limited .bt709 = .ok [c, 0, 0] ∧ c + 299 ≤ a ∧ c + 299 ≤ b := by
  have hd : Deep 12 := .inr (.inl rfl)
  refine ⟨1713, 1713, 1414, ?_, ?_, ?_, by decide, by decide⟩
  all_goals
    rw [deepDot_decode _ hd .limited .bt709 (by decide) (by decide) (by decide)]
    decide +kernel

/-- C84 fails beyond the depth: a 10-bit luma word of 8300 decodes to white without vector code and
to black with it. -/
theorem c84_violated_beyond_depth (cpu : Cpu) :
    p16ToRgb16On cpu .little .lsb 10 .rgb .yuv444 (deepDot 8300 512 512) [0, 0, 0] 3 .limited .bt709
      = .ok (if cpu = .plain then [1023, 1023, 1023] else [0, 0, 0]) := by
  rw [deepDot_decode cpu (.inl rfl) .limited .bt709 (by decide) (by decide) (by decide)]
  cases cpu <;> decide +kernel

/-- A legal image with three processors. -/
example : LegalImage .little .lsb 12 .yuv444 (deepDot 2000 1000 3000) .limited := by
  intro x y hx hy
  obtain rfl : x = 0 := Nat.lt_one_iff.mp hx
  obtain rfl : y = 0 := Nat.lt_one_iff.mp hy
  unfold LegalSamples
  decide

/-- The bound of two is not attained here, the difference is one. -/
example : deepCpu .sse41 12 .rgb .limited .bt709 2000 1000 3000 = [3752, 1754, 0] ∧
    deepCpu .plain 12 .rgb .limited .bt709 2000 1000 3000 = [3751, 1753, 0] := by decide +kernel

end Verif
