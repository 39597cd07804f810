import Verif.Lemmas.DeepEncode
import Verif.Props.NvEncode
import Verif.Props.DeepDecode
/-!
# C30, C32 (writing), C48: high-bit-depth encoding
-/
namespace Verif
open Spec

/-! ## C30: what is written -/

/-- The row whose pixel supplies the luma sample at `(x, y)`.  It should always be `y`; the 4:2:0
encoder takes the pixel of the row above for every second sample of every second row. -/
def lumaRowOf : Sampling → Nat → Nat → Nat
  | .yuv420, x, y => if y % 2 = 1 ∧ x % 2 = 1 then y - 1 else y
  | _, _, y => y

/-- The planes `out` written by the planar encoder, `row x y` being the source row of luma. -/
structure DeepEncoded (e : Endianness) (bp : BytesPacking) (d : Nat) (ch : Channels) (s : Sampling)
    (rg : YuvRange) (m : Matrix) (row : Nat → Nat → Nat) (R : EncRel) (rgba : Buf) (stride : Nat)
    (i out : Planar) : Prop where
  geometry : out.width = i.width ∧ out.height = i.height ∧ out.yStride = i.yStride ∧
    out.uStride = i.uStride ∧ out.vStride = i.vStride
  y : FrameRel out.y i.y i.yStride i.width i.height 1 fun x y q =>
    q = [wordOf e bp d (deepLuma d ch rg m (pixelAt rgba stride ch.count x (row x y)))] ∨
    R.y (pixelAt rgba stride ch.count x y) (q.getD 0 0)
  u : FrameRel out.u i.u i.uStride (cover i.width (hdiv s)) (cover i.height (vdiv s)) 1 fun cx cy q =>
    let blk := block rgba stride ch.count i.width i.height (hdiv s) (vdiv s) cx cy
    q = [wordOf e bp d (deepCb d ch rg m blk)] ∨ R.u (lastColumn i.width i.height (hdiv s) (vdiv s) cx cy) blk (q.getD 0 0)
  v : FrameRel out.v i.v i.vStride (cover i.width (hdiv s)) (cover i.height (vdiv s)) 1 fun cx cy q =>
    let blk := block rgba stride ch.count i.width i.height (hdiv s) (vdiv s) cx cy
    q = [wordOf e bp d (deepCr d ch rg m blk)] ∨ R.v (lastColumn i.width i.height (hdiv s) (vdiv s) cx cy) blk (q.getD 0 0)

theorem deepFun_lumaAt {e : Endianness} {bp : BytesPacking} {d : Nat} {ch : Channels} {rg : YuvRange}
    {m : Matrix} {s : Sampling} {rgba : Buf} {stride cn : Nat} (x y : Nat) :
    (deepFun true e bp d ch rg m).lumaAt s rgba stride cn x y
      = wordOf e bp d (deepLuma d ch rg m (pixelAt rgba stride cn x (lumaRowOf s x y))) := by
  unfold EncFun.lumaAt
  by_cases h : vdiv s = 2 ∧ y % 2 = 1 ∧ x % 2 = 1
  · rw [if_pos h]
    have : lumaRowOf s x y = y - 1 := by
      cases s
      · exact if_pos h.2
      · exact absurd h.1 (by decide)
      · exact absurd h.1 (by decide)
    rw [this]; rfl
  · rw [if_neg h]
    have : lumaRowOf s x y = y := by
      cases s
      · exact if_neg fun hh => h ⟨rfl, hh⟩
      · rfl
      · rfl
    rw [this]; rfl

/-- Every plane and the source have rows of exactly the image width: no padding. -/
def NoPadding (i : Planar) (s : Sampling) (stride cn : Nat) : Prop :=
  i.yStride = i.width ∧ i.uStride = cover i.width (hdiv s) ∧ i.vStride = cover i.width (hdiv s) ∧
    stride = i.width * cn

/-- C30 as far as it holds for planar destinations: encoding a good RGB(A) buffer of depth 10, 12,
14 or 16 succeeds without any 32-bit overflow and replaces exactly the samples of the image, chroma
being that of the average of the covered pixels.  Missing against the full property:
* in 4:2:0, luma at odd columns of odd rows is that of the pixel above (`lumaRowOf`);
* in 4:2:2, only planes without row padding are covered;
* 16-bit full-range BT.601 overflows.
The three counterexamples follow below. -/
theorem c30_planar_encode_partial (e : Endianness) (bp : BytesPacking) (d : Nat) (hd : Deep d)
    (ch : Channels) (s : Sampling) (i : Planar) (rgba : Buf) (stride : Nat) (rg : YuvRange)
    (m : Matrix) (ho : ¬ Overflows d rg m) (D : Nat) (hi : GoodPlanar i s D)
    (hsrc : GoodDst rgba.length stride i.width i.height ch.count) (hb : Samples d rgba)
    (hpad : s = .yuv422 → NoPadding i s stride ch.count)
    (R : EncRel) (h : RowEncoder) (h2 : RowEncoder420)
    (hh : h.Ok (2 ^ d) ch.count i.width (hdiv s) R) (hh2 : h2.Ok (2 ^ d) ch.count i.width R) :
    ∃ out, rgb16ToP16 x64 e bp d ch s h h2 i rgba stride rg m = .ok out ∧
      DeepEncoded e bp d ch s rg m (lumaRowOf s) R rgba stride i out := by
  have hr := hi.rows
  have hcn := count_pos ch
  have hE := deep_blocks true e bp hd ch rg m ho
  have fin : ∀ o : Outcome (Buf × Buf × Buf),
      Encoded (deepFun true e bp d ch rg m) R s ch.count i rgba stride o →
      ∃ out, (o >>= fun x => pure { i with y := x.1, u := x.2.1, v := x.2.2 }) = Outcome.ok out ∧
      DeepEncoded e bp d ch s rg m (lumaRowOf s) R rgba stride i out := by
    intro o ⟨y, u, v, eo, ly, lu, lv⟩
    refine ⟨{ i with y, u, v }, by rw [eo]; rfl, ⟨rfl, rfl, rfl, rfl, rfl⟩, ?_, ?_, ?_⟩
    · unfold LumaOk at ly
      simp only [deepFun_lumaAt] at ly
      exact ly
    · rw [cover_hdiv hi.wpos, cover_vdiv hi.hpos]
      unfold ChromaOk at lu
      simpa [linFun, deepCb] using lu
    · rw [cover_hdiv hi.wpos, cover_vdiv hi.hpos]
      unfold ChromaOk at lv
      simpa [linFun, deepCr] using lv
  unfold rgb16ToP16
  rw [hsrc.accepted hi.wpos hi.hpos hi.w32 hi.h32 hcn (count_le ch), hi.accepted]
  simp only [Outcome.bind_ok]
  cases s with
  | yuv444 => exact fin _ (encode444_ok hcn hE hh hr hsrc.full hsrc.cols_le hb)
  | yuv422 =>
    obtain ⟨p1, p2, p3, p4⟩ := hpad rfl
    rw [cover_hdiv hi.wpos] at p2 p3
    exact fin _ (encode422_ok hcn hE hh hr hsrc.full hsrc.cols_le hb
      (Or.inr ⟨p1, p2, p3, p4⟩))
  | yuv420 => exact fin _ (encode420_ok hcn hE hh hh2 hr hsrc.full hsrc.cols_le hb)

/-- C30 for 4:4:4: luma at every position is that of that very pixel; any padding. -/
theorem c30_encode_444 (e : Endianness) (bp : BytesPacking) (d : Nat) (hd : Deep d)
    (ch : Channels) (i : Planar) (rgba : Buf) (stride : Nat) (rg : YuvRange)
    (m : Matrix) (ho : ¬ Overflows d rg m) (D : Nat) (hi : GoodPlanar i .yuv444 D)
    (hsrc : GoodDst rgba.length stride i.width i.height ch.count) (hb : Samples d rgba)
    (R : EncRel) (h : RowEncoder) (h2 : RowEncoder420)
    (hh : h.Ok (2 ^ d) ch.count i.width 1 R) (hh2 : h2.Ok (2 ^ d) ch.count i.width R) :
    ∃ out, rgb16ToP16 x64 e bp d ch .yuv444 h h2 i rgba stride rg m = .ok out ∧
      DeepEncoded e bp d ch .yuv444 rg m (fun _ y => y) R rgba stride i out :=
  c30_planar_encode_partial e bp d hd ch .yuv444 i rgba stride rg m ho D hi hsrc hb (by intro h; cases h)
    R h h2 hh hh2

/-- A 3×2 4:2:0 destination with padded rows. -/
def demoDst16 (v : Nat) : Planar :=
  { y := List.replicate 8 v, yStride := 4, u := List.replicate 3 v, uStride := 3
    v := List.replicate 2 v, vStride := 2, width := 3, height := 2 }

theorem demoDst16_good : GoodPlanar (demoDst16 7) .yuv420 65536 where
  wpos := by decide
  hpos := by decide
  w32 := by unfold U32; decide
  h32 := by unfold U32; decide
  y := ⟨by unfold U32; decide, by decide, by unfold FullRows; decide, by decide⟩
  u := ⟨by unfold U32; decide, by decide, by unfold FullRows; decide, by decide⟩
  v := ⟨by unfold U32; decide, by decide, by unfold FullRows; decide, by decide⟩

def demoRgb10 : Buf :=
  [1023, 0, 0, 0, 1023, 0, 0, 0, 1023, 9, 9,
   0, 0, 0, 1023, 1023, 1023, 512, 300, 7, 9, 9]

example : GoodDst demoRgb10.length 11 3 2 3 ∧ Samples 10 demoRgb10 ∧ Deep 10 ∧
    ¬ Overflows 10 .limited .bt601 :=
  ⟨⟨by unfold U32; decide, by decide, by unfold FullRows; decide, by decide⟩, by
    unfold Samples; decide, Or.inl rfl, by decide⟩

/-- C30 fails in 4:2:0: in a 2×2 image whose upper right pixel is black and whose lower right pixel
is white, the lower right luma sample is black (64) instead of white (940). -/
theorem c30_420_luma_from_row_above :
    rgb16ToP16 x64 .little .lsb 10 .rgb .yuv420 noEnc noEnc420
      ⟨[0, 0, 0, 0], 2, [0], 1, [0], 1, 2, 2⟩
      [0, 0, 0, 0, 0, 0, 0, 0, 0, 1023, 1023, 1023] 6 .limited .bt601
      = .ok ⟨[64, 64, 64, 64], 2, [512], 1, [512], 1, 2, 2⟩ ∧
    deepLuma 10 .rgb .limited .bt601 [1023, 1023, 1023] = 940 := by decide +kernel

/-- C30 fails in 4:2:2 with padded rows: the padding of a 2-pixel row is overwritten, with values
computed from the padding of the source. -/
theorem c30_422_padding_overwritten :
    ∃ out, rgb16ToP16 x64 .little .lsb 10 .rgb .yuv422 noEnc noEnc420
      ⟨[7, 7, 7, 7], 4, [7, 7], 2, [7, 7], 2, 2, 1⟩
      [0, 0, 0, 0, 0, 0, 1023, 1023, 1023, 0, 0, 0] 12 .limited .bt601 = .ok out ∧
      out.y = [64, 64, 940, 64] := by
  refine ⟨⟨[64, 64, 940, 64], 4, [512, 512], 2, [512, 512], 2, 2, 1⟩, ?_, rfl⟩
  decide +kernel

/-- C30 fails in 4:2:2 with padded rows and an odd width: the only pixel of a one-pixel row is not
stored; the last element of the padding receives its luma instead. -/
theorem c30_422_odd_width_misplaced :
    ∃ out, rgb16ToP16 x64 .little .lsb 10 .rgb .yuv422 noEnc noEnc420
      ⟨[7, 7], 2, [7], 1, [7], 1, 1, 1⟩ [1023, 1023, 1023] 3 .limited .bt601 = .ok out ∧
      out.y = [7, 940] := by
  refine ⟨⟨[7, 940], 2, [512], 1, [512], 1, 1, 1⟩, ?_, rfl⟩
  decide +kernel

/-- C30 fails at 16 bits, full range, BT.601: the luma of white does not fit in 32 bits; a debug
build panics. -/
theorem c30_16bit_full_bt601_overflows :
    rgb16ToP16 x64 .little .lsb 16 .rgb .yuv444 noEnc noEnc420 ⟨[0], 1, [0], 1, [0], 1, 1, 1⟩
      [65535, 65535, 65535] 3 .full .bt601 = .panic := by decide +kernel

/-! ## Semi-planar destinations -/

/-- The planes written by the semi-planar encoder. -/
structure NvDeepSpec (o : NVOrder) (e : Endianness) (bp : BytesPacking) (d : Nat) (ch : Channels)
    (s : Sampling) (rg : YuvRange) (m : Matrix) (rgba : Buf) (stride : Nat) (i out : BiPlanar) :
    Prop where
  geometry : out.width = i.width ∧ out.height = i.height ∧ out.yStride = i.yStride ∧
    out.uvStride = i.uvStride
  y : FrameSpec out.y i.y i.yStride i.width i.height 1 fun x y =>
    [wordOf e bp d (deepLuma d ch rg m (pixelAt rgba stride ch.count x y))]
  uv : FrameSpec out.uv i.uv i.uvStride (cover i.width (hdiv s)) (cover i.height (vdiv s)) 2
    fun cx cy =>
    let blk := block rgba stride ch.count i.width i.height (hdiv s) (vdiv s) cx cy
    pairOf o (wordOf e bp d (deepCb d ch rg m blk)) (wordOf e bp d (deepCr d ch rg m blk))

theorem nvDeep_lumaAt {e : Endianness} {bp : BytesPacking} {d : Nat} {ch : Channels} {rg : YuvRange}
    {m : Matrix} {s : Sampling} {rgba : Buf} {stride cn : Nat} (x y : Nat) :
    (deepFun false e bp d ch rg m).lumaAt s rgba stride cn x y
      = wordOf e bp d (deepLuma d ch rg m (pixelAt rgba stride cn x y)) := by
  unfold EncFun.lumaAt
  split <;> rfl

/-- C30 as far as it holds for the bi-planar formats P010, P210, P410 and their relatives.  Missing
against the full property: 4:2:0 images of odd width (other than 1), and 16-bit full-range BT.601;
the counterexamples follow. -/
theorem c30_nv_encode_partial (o : NVOrder) (e : Endianness) (bp : BytesPacking) (d : Nat)
    (hd : d = 10 ∨ d = 12 ∨ d = 16)
    (ch : Channels) (s : Sampling) (i : BiPlanar) (rgba : Buf) (stride : Nat) (rg : YuvRange)
    (m : Matrix) (ho : ¬ Overflows d rg m) (D : Nat) (hi : GoodBiPlanar i s D)
    (hsrc : GoodDst rgba.length stride i.width i.height ch.count) (hb : Samples d rgba)
    (hodd : s = .yuv420 → i.width % 2 = 0 ∨ i.width = 1) :
    ∃ out, rgb16ToNvP16 x64 o e bp d ch s i rgba stride rg m = .ok out ∧
      NvDeepSpec o e bp d ch s rg m rgba stride i out := by
  have hD : Deep d := by unfold Deep; omega
  have hr := hi.rows
  have hcn := count_pos ch
  have hE := deep_blocks false e bp hD ch rg m ho
  have ht : (if d = 16 then computedForward 15 d rg m else (computedForward 15 d rg m).castI16)
      = computedForward 15 d rg m := by
    split
    · rfl
    · exact castI16_id (by omega) rg m
  have fin : ∀ oc : Outcome (Buf × Buf),
      NvEncoded (deepFun false e bp d ch rg m) noRel o s ch.count i rgba stride oc →
      ∃ out, (oc >>= fun x => pure { i with y := x.1, uv := x.2 }) = Outcome.ok out ∧
      NvDeepSpec o e bp d ch s rg m rgba stride i out := by
    intro oc ⟨y, uv, eo, ly, luv⟩
    refine ⟨{ i with y, uv }, by rw [eo]; rfl, ⟨rfl, rfl, rfl, rfl⟩, ?_, ?_⟩
    · unfold LumaOk at ly
      simp only [nvDeep_lumaAt] at ly
      exact frameRel_eq ⟨ly.1, fun x y hx hy => (ly.2.1 x y hx hy).resolve_right id, ly.2.2⟩
    · rw [cover_hdiv hi.wpos, cover_vdiv hi.hpos]
      unfold PairsOk at luv
      refine frameRel_eq ⟨luv.1, fun cx cy hx hy => ?_, luv.2.2⟩
      have := luv.2.1 cx cy hx hy
      unfold PairIs at this
      have := this.resolve_right fun f => f.1
      simpa [linFun, deepCb, deepCr, EncFun.uv, pairOf_eq] using this
  unfold rgb16ToNvP16
  rw [hsrc.accepted hi.wpos hi.hpos hi.w32 hi.h32 hcn (count_le ch), hi.accepted]
  simp only [Outcome.bind_ok, ht]
  cases s with
  | yuv444 => exact fin _ (nvEncode444_ok hcn hE (noEncNV_ok (s := .yuv444)) hr hsrc.full hsrc.cols_le hb)
  | yuv422 => exact fin _ (nvEncode422_ok hcn hE (noEncNV_ok (s := .yuv422)) hr hsrc.full hsrc.cols_le hb)
  | yuv420 => exact fin _ (nvEncode420_ok hcn hE (noEncNV_ok (s := .yuv420)) noEncNV420_ok hr hsrc.full
      hsrc.cols_le hb (Or.inr (hodd rfl)))

/-- C30 fails for P010 at odd widths: in a 3×2 image the luma of the last pixel of the second row is
stored over that of its first pixel, and the last sample is left unwritten. -/
theorem c30_p010_odd_width :
    ∃ out, rgb16ToNvP16 x64 .uv .little .msb 10 .rgb .yuv420
      ⟨[7, 7, 7, 7, 7, 7], 3, [7, 7, 7, 7], 4, 3, 2⟩
      [0, 0, 0, 0, 0, 0, 0, 0, 0, 0, 0, 0, 0, 0, 0, 1023, 1023, 1023] 9 .limited .bt601 = .ok out ∧
      out.y = [4096, 4096, 4096, 60160, 4096, 7] ∧
      wordOf .little .msb 10 64 = 4096 ∧ wordOf .little .msb 10 940 = 60160 := by
  refine ⟨⟨[4096, 4096, 4096, 60160, 4096, 7], 3, [32768, 32768, 32768, 32768], 4, 3, 2⟩, ?_, rfl, rfl, rfl⟩
  decide +kernel

/-- C30 fails for the function called `rgb16_to_p216`: it is instantiated for 4:2:0, so that a
proper 2×2 P216 image (4:2:2, two chroma rows) is refused. -/
theorem c30_p216_refused :
    GoodBiPlanar ⟨[7, 7, 7, 7], 2, [7, 7, 7, 7], 2, 2, 2⟩ .yuv422 65536 ∧
    rgb16ToP216 x64 .rgb ⟨[7, 7, 7, 7], 2, [7, 7, 7, 7], 2, 2, 2⟩
      [0, 0, 0, 0, 0, 0, 65535, 0, 0, 65535, 0, 0] 6 .limited .bt601
      = .err (.chromaPlaneSizeMismatch ⟨2, 4⟩) := by
  refine ⟨?_, by decide +kernel⟩
  exact
    { wpos := by decide, hpos := by decide, w32 := by unfold U32; decide, h32 := by unfold U32; decide
      y := ⟨by unfold U32; decide, by decide, by unfold FullRows; decide, by decide⟩
      uvStride32 := by unfold U32; decide, uvStride := by decide, uvLen := by decide
      uvBound := by decide }

/-! ## C32: writing then reading a sample -/

/-- C32 (writing): storing a value of `d` bits in any byte order and packing and reading it back with
the decoders' own function returns it. -/
theorem c32_write_read (e : Endianness) (bp : BytesPacking) (d : Nat) (hd : Deep d) (v : Nat)
    (hv : v < 2 ^ d) : toNe e bp (transformInteger e bp d v) (16 - d) = v := by
  rw [transformInteger_eq e bp hd (Int.natCast_nonneg v) (by exact_mod_cast hv), Int.toNat_natCast,
    toNe_eq e bp (wordOf_lt e bp hd hv), native_wordOf e bp hd hv]

example : transformInteger .big .msb 10 940 = 235 ∧ toNe .big .msb 235 6 = 940 := by decide

/-! ## Distance to the exact values -/

theorem encPure_close' {p d : Nat} (hp : 0 < p) {k1 k2 k3 : Int} {q1 q2 q3 : Rat} {b0 : Nat}
    {r g b : Nat} (hr : r < 2 ^ d) (hg : g < 2 ^ d) (hb : b < 2 ^ d)
    (n1 : NearestCoef p k1 q1) (n2 : NearestCoef p k2 q2) (n3 : NearestCoef p k3 q3) :
    |((encPure p k1 k2 k3 (encodeBias p b0) r g b : Int) : Rat)
      - (b0 + (q1 * r + q2 * g + q3 * b))| ≤ 1 / 2 + 3 * 2 ^ d / (2 * 2 ^ p) := by
  have hpp : (0 : Rat) < 2 ^ p := by positivity
  have hn : NearestShift p (encPure p k1 k2 k3 (encodeBias p b0) r g b)
      ((r : Int) * k1 + g * k2 + b * k3 + b0 * 2 ^ p) := by
    have := shift_near_down hp ((r : Int) * k1 + g * k2 + b * k3 + b0 * 2 ^ p)
    unfold encPure encodeBias
    rw [Int.add_assoc] at this
    exact this
  have h1 := near_rat hn
  have ab : ∀ x : Nat, x < 2 ^ d → |(x : Rat)| ≤ 2 ^ d := by
    intro x hx; rw [abs_of_nonneg (by positivity)]; exact_mod_cast hx.le
  have e1 := coef_err n1 (ab r hr)
  have e2 := coef_err n2 (ab g hg)
  have e3 := coef_err n3 (ab b hb)
  have e : ((encPure p k1 k2 k3 (encodeBias p b0) r g b : Int) : Rat)
      - (b0 + (q1 * r + q2 * g + q3 * b))
    = (((encPure p k1 k2 k3 (encodeBias p b0) r g b : Int) : Rat)
        - (((r : Int) * k1 + g * k2 + b * k3 + b0 * 2 ^ p : Int) : Rat) / 2 ^ p)
      + (((k1 : Rat) * r / 2 ^ p - q1 * r) + (((k2 : Rat) * g / 2 ^ p - q2 * g)
        + ((k3 : Rat) * b / 2 ^ p - q3 * b))) := by
    push_cast; field_simp; ring
  rw [e]
  have t1 := abs_add_le (((encPure p k1 k2 k3 (encodeBias p b0) r g b : Int) : Rat)
        - (((r : Int) * k1 + g * k2 + b * k3 + b0 * 2 ^ p : Int) : Rat) / 2 ^ p)
      (((k1 : Rat) * r / 2 ^ p - q1 * r) + (((k2 : Rat) * g / 2 ^ p - q2 * g)
        + ((k3 : Rat) * b / 2 ^ p - q3 * b)))
  have t2 := abs_add_le ((k1 : Rat) * r / 2 ^ p - q1 * r) (((k2 : Rat) * g / 2 ^ p - q2 * g)
        + ((k3 : Rat) * b / 2 ^ p - q3 * b))
  have t3 := abs_add_le ((k2 : Rat) * g / 2 ^ p - q2 * g) ((k3 : Rat) * b / 2 ^ p - q3 * b)
  have e4 : (2 ^ d : Rat) / (2 * 2 ^ p) + (2 ^ d / (2 * 2 ^ p) + 2 ^ d / (2 * 2 ^ p))
      = 3 * 2 ^ d / (2 * 2 ^ p) := by ring
  linarith

theorem deepOff (d : Nat) (hd : Deep d) (rg : YuvRange) :
    offY d rg = ((getYuvRange d rg).biasY : Rat) ∧ offC d = ((getYuvRange d rg).biasUv : Rat) := by
  rcases hd with rfl | rfl | rfl | rfl <;> cases rg <;> decide +kernel

/-- C30: luma and chroma of every RGB triple of depth `d` are samples of depth `d`, within
`1/2 + 3·2^d/2^16` code values of the exact ITU-R values (0.55 at 10 bits, 0.69 at 12, 1.25 at 14,
3.5 at 16). -/
theorem c30_close (d : Nat) (hd : Deep d) (rg : YuvRange) (m : Matrix) (ho : ¬ Overflows d rg m)
    (r g b : Nat) (hr : r < 2 ^ d) (hg : g < 2 ^ d) (hb : b < 2 ^ d) :
    ∃ y cb cr : Nat, (lumaVal 15 d rg m r g b = y ∧ cbVal 15 d rg m r g b = cb ∧
      crVal 15 d rg m r g b = cr) ∧ y < 2 ^ d ∧ cb < 2 ^ d ∧ cr < 2 ^ d ∧
      |(y : Rat) - exactY d rg m r g b| ≤ 1 / 2 + 3 * 2 ^ d / 2 ^ 16 ∧
      |(cb : Rat) - exactCb d rg m r g b| ≤ 1 / 2 + 3 * 2 ^ d / 2 ^ 16 ∧
      |(cr : Rat) - exactCr d rg m r g b| ≤ 1 / 2 + 3 * 2 ^ d / 2 ^ 16 := by
  obtain ⟨⟨y0, y1⟩, ⟨b0, b1⟩, ⟨r0, r1⟩⟩ := deepVals hd rg m ho hr hg hb
  obtain ⟨y, hy⟩ := Int.eq_ofNat_of_zero_le y0
  obtain ⟨cb, hcb⟩ := Int.eq_ofNat_of_zero_le b0
  obtain ⟨cr, hcr⟩ := Int.eq_ofNat_of_zero_le r0
  rw [hy] at y1; rw [hcb] at b1; rw [hcr] at r1
  have es := c06_searchForward 15 d (by unfold Prec; omega) hd.depth rg m
  obtain ⟨-, n1, n2, n3, n4, n5, n6, n7, n8, n9⟩ :=
    c06_forward_tables 15 d (by unfold Prec; omega) hd.depth rg m
  rw [← es] at n1 n2 n3 n4 n5 n6 n7 n8 n9
  have e16 : (3 : Rat) * 2 ^ d / (2 * 2 ^ 15) = 3 * 2 ^ d / 2 ^ 16 := by norm_num
  obtain ⟨o1, o2⟩ := deepOff d hd rg
  refine ⟨y, cb, cr, ⟨hy, hcb, hcr⟩, by exact_mod_cast y1, by exact_mod_cast b1,
    by exact_mod_cast r1, ?_, ?_, ?_⟩
  · rw [exactY_eq, o1, ← e16, ← Int.cast_natCast, ← hy]
    exact encPure_close' (by decide) hr hg hb n1 n2 n3
  · rw [exactCb_eq, o2, ← e16, ← Int.cast_natCast, ← hcb]
    exact encPure_close' (by decide) hr hg hb n4 n5 n6
  · rw [exactCr_eq, o2, ← e16, ← Int.cast_natCast, ← hcr]
    exact encPure_close' (by decide) hr hg hb n7 n8 n9

/-! ## C48: 4:4:4 round trip at high bit depth -/

/-- Tolerance for red and blue of the round trip. -/
def tolRB (d : Nat) : Nat := if d = 10 then 2 else if d = 12 then 3 else if d = 14 then 6 else 20
/-- Tolerance for green of the round trip. -/
def tolG (d : Nat) : Nat := if d = 10 then 1 else if d = 12 then 2 else if d = 14 then 5 else 16

theorem deep_inv_bounds {d : Nat} (hd : Deep d) (rg : YuvRange) (m : Matrix) :
    0 ≤ invY d rg ∧ 0 ≤ invCr d rg m ∧ 0 ≤ invCb d rg m ∧ 0 ≤ invG1 d rg m ∧ 0 ≤ invG2 d rg m ∧
    (invY d rg + invCr d rg m) * (1 / 2 + 3 * 2 ^ d / 2 ^ 16) + (1 / 2 + 2 ^ d / 2 ^ 13) < tolRB d + 1 ∧
    (invY d rg + invCb d rg m) * (1 / 2 + 3 * 2 ^ d / 2 ^ 16) + (1 / 2 + 2 ^ d / 2 ^ 13) < tolRB d + 1 ∧
    (invY d rg + invG1 d rg m + invG2 d rg m) * (1 / 2 + 3 * 2 ^ d / 2 ^ 16) + (1 / 2 + 2 ^ d / 2 ^ 13)
      < tolG d + 1 := by
  revert rg m
  have : ∀ d ∈ [10, 12, 14, 16], ∀ m ∈ allMatrix, ∀ rg ∈ allRange,
    0 ≤ invY d rg ∧ 0 ≤ invCr d rg m ∧ 0 ≤ invCb d rg m ∧ 0 ≤ invG1 d rg m ∧ 0 ≤ invG2 d rg m ∧
    (invY d rg + invCr d rg m) * (1 / 2 + 3 * 2 ^ d / 2 ^ 16) + (1 / 2 + 2 ^ d / 2 ^ 13) < tolRB d + 1 ∧
    (invY d rg + invCb d rg m) * (1 / 2 + 3 * 2 ^ d / 2 ^ 16) + (1 / 2 + 2 ^ d / 2 ^ 13) < tolRB d + 1 ∧
    (invY d rg + invG1 d rg m + invG2 d rg m) * (1 / 2 + 3 * 2 ^ d / 2 ^ 16) + (1 / 2 + 2 ^ d / 2 ^ 13)
      < tolG d + 1 := by decide +kernel
  exact fun rg m => this d (by rcases hd with rfl | rfl | rfl | rfl <;> simp) m (mem_allMatrix m) rg
    (mem_allRange rg)

/-- Triangle step of the round trip. -/
theorem round_trip_step {d : Nat} {x x' n : Nat} {E B δ : Rat} (hx : x < 2 ^ d)
    (h1 : |(x' : Rat) - satQ d E| ≤ δ) (h2 : |E - x| ≤ B) (h3 : B + δ < (n : Rat) + 1) :
    x' ≤ x + n ∧ x ≤ x' + n := by
  have hs : satQ d (x : Rat) = x := by
    apply satQ_id (by positivity)
    unfold maxV
    have : (x : Rat) + 1 ≤ 2 ^ d := by exact_mod_cast hx
    linarith
  have t1 := satQ_lipschitz d E x
  rw [hs] at t1
  have t2 := abs_add_le ((x' : Rat) - satQ d E) (satQ d E - x)
  rw [show (x' : Rat) - satQ d E + (satQ d E - x) = x' - x by ring] at t2
  have A : |(((x' : Int)) : Rat) - ((x : Int) : Rat)| < (n : Rat) + 1 := by push_cast; linarith
  have := int_lt_of_abs_lt A
  omega

/-- C48, arithmetic: encoding and decoding one colour. -/
theorem c48_round_trip (half : Int) (hh : half = 2 ^ 12 - 1 ∨ half = 2 ^ 12) (d : Nat) (hd : Deep d)
    (ch : Channels) (rg : YuvRange) (m : Matrix) (ho : ¬ Overflows d rg m) (r g b : Nat)
    (hr : r < 2 ^ d) (hg : g < 2 ^ d) (hb : b < 2 ^ d) :
    ∃ r' g' b' : Nat, deepPixel half 13 13 d d ch rg m (lumaVal 15 d rg m r g b).toNat
        (cbVal 15 d rg m r g b).toNat (crVal 15 d rg m r g b).toNat = layout ch r' g' b' (2 ^ d - 1) ∧
      (r' ≤ r + tolRB d ∧ r ≤ r' + tolRB d) ∧ (g' ≤ g + tolG d ∧ g ≤ g' + tolG d) ∧
      (b' ≤ b + tolRB d ∧ b ≤ b' + tolRB d) := by
  obtain ⟨y, cb, cr, ⟨e1, e2, e3⟩, l1, l2, l3, d1, d2, d3⟩ := c30_close d hd rg m ho r g b hr hg hb
  rw [e1, e2, e3]
  simp only [Int.toNat_natCast]
  obtain ⟨r', g', b', e, q1, q2, q3⟩ := c28_close half hh d hd.depth ch rg m y cb cr l1 l2 l3
  obtain ⟨s1, s2, s3⟩ := spec_decode_encode d hd.depth rg m r g b
  obtain ⟨i1, i2, i3, i4, i5, i6, i7, i8⟩ := deep_inv_bounds hd rg m
  have prod : ∀ (c e D : Rat), 0 ≤ c → |e| ≤ D → |c * e| ≤ c * D := by
    intro c e D hc he; rw [abs_mul, abs_of_nonneg hc]; exact mul_le_mul_of_nonneg_left he hc
  have p1 := prod _ _ _ i1 d1
  have p2 := prod _ _ _ i2 d3
  have p3 := prod _ _ _ i3 d2
  have p4 := prod _ _ _ i4 d3
  have p5 := prod _ _ _ i5 d2
  refine ⟨r', g', b', e, round_trip_step hr q1 ?_ i6, round_trip_step hg q2 ?_ i8,
    round_trip_step hb q3 ?_ i7⟩
  · have E : exactR d rg m y cb cr - r = invY d rg * ((y : Rat) - exactY d rg m r g b)
        + invCr d rg m * ((cr : Rat) - exactCr d rg m r g b) := by
      rw [exactR_eq]
      have := s1; rw [exactR_eq] at this
      linear_combination this
    rw [E, add_mul]
    exact le_trans (abs_add_le _ _) (add_le_add p1 p2)
  · have E : exactG d rg m y cb cr - g = invY d rg * ((y : Rat) - exactY d rg m r g b)
        - invG1 d rg m * ((cr : Rat) - exactCr d rg m r g b)
        - invG2 d rg m * ((cb : Rat) - exactCb d rg m r g b) := by
      rw [exactG_eq]
      have := s2; rw [exactG_eq] at this
      linear_combination this
    rw [E, add_mul, add_mul]
    refine le_trans (abs_sub _ _) (add_le_add (le_trans (abs_sub _ _) (add_le_add p1 p4)) p5)
  · have E : exactB d rg m y cb cr - b = invY d rg * ((y : Rat) - exactY d rg m r g b)
        + invCb d rg m * ((cb : Rat) - exactCb d rg m r g b) := by
      rw [exactB_eq]
      have := s3; rw [exactB_eq] at this
      linear_combination this
    rw [E, add_mul]
    exact le_trans (abs_add_le _ _) (add_le_add p1 p3)

/-- Exact form of `DeepEncoded`: without vector code. -/
theorem DeepEncoded.exact {e : Endianness} {bp : BytesPacking} {d : Nat} {ch : Channels} {s : Sampling}
    {rg : YuvRange} {m : Matrix} {row : Nat → Nat → Nat} {rgba : Buf} {stride : Nat} {i out : Planar}
    (h : DeepEncoded e bp d ch s rg m row noRel rgba stride i out) :
    FrameSpec out.y i.y i.yStride i.width i.height 1 (fun x y =>
      [wordOf e bp d (deepLuma d ch rg m (pixelAt rgba stride ch.count x (row x y)))]) ∧
    FrameSpec out.u i.u i.uStride (cover i.width (hdiv s)) (cover i.height (vdiv s)) 1 (fun cx cy =>
      [wordOf e bp d (deepCb d ch rg m
        (block rgba stride ch.count i.width i.height (hdiv s) (vdiv s) cx cy))]) ∧
    FrameSpec out.v i.v i.vStride (cover i.width (hdiv s)) (cover i.height (vdiv s)) 1 (fun cx cy =>
      [wordOf e bp d (deepCr d ch rg m
        (block rgba stride ch.count i.width i.height (hdiv s) (vdiv s) cx cy))]) :=
  ⟨frameRel_eq ⟨h.y.1, fun x y hx hy => (h.y.2.1 x y hx hy).resolve_right id, h.y.2.2⟩,
   frameRel_eq ⟨h.u.1, fun x y hx hy => (h.u.2.1 x y hx hy).resolve_right id, h.u.2.2⟩,
   frameRel_eq ⟨h.v.1, fun x y hx hy => (h.v.2.1 x y hx hy).resolve_right id, h.v.2.2⟩⟩

theorem deepBlk_lt {d : Nat} (hd : Deep d) (ch : Channels) (rg : YuvRange) (m : Matrix)
    (ho : ¬ Overflows d rg m) {rgba : Buf} (hb : Samples d rgba) (stride x y : Nat) :
    let px := pixelAt rgba stride ch.count x y
    deepLuma d ch rg m px < 2 ^ d ∧ deepCb d ch rg m [px] < 2 ^ d ∧ deepCr d ch rg m [px] < 2 ^ d := by
  intro px
  obtain ⟨r1, g1, b1⟩ : red ch px < 2 ^ d ∧ green ch px < 2 ^ d ∧ blue ch px < 2 ^ d :=
    comps_lt (Nat.two_pow_pos d) ch (mem_pixelAt hb)
  obtain ⟨⟨y0, y1⟩, ⟨b0, b1⟩, ⟨r0, r1⟩⟩ := deepVals hd rg m ho r1 g1 b1
  unfold deepLuma deepCb deepCr
  simp only [List.map_cons, List.map_nil, avgUp_one]
  have e2 : ((2 ^ d : Nat) : Int) = 2 ^ d := by push_cast; rfl
  omega

/-- C48 at the API: encoding an RGB(A) image of depth 10, 12, 14 or 16 to a 4:4:4 image of the same
depth, in any byte order and packing, and decoding the result with the same settings, into any
channel order, returns every pixel with red and blue within `tolRB` (2, 3, 6, 20) and green within
`tolG` (1, 2, 5, 16). -/
theorem c48_api_round_trip (e : Endianness) (bp : BytesPacking) (d : Nat) (hd : Deep d)
    (ch ch' : Channels) (i : Planar) (rgba dst : Buf) (stride stride' : Nat) (rg : YuvRange)
    (m : Matrix) (ho : ¬ Overflows d rg m) (hi : GoodPlanar i .yuv444 65536)
    (hsrc : GoodDst rgba.length stride i.width i.height ch.count)
    (hb : Samples d rgba) (hdst : GoodDst dst.length stride' i.width i.height ch'.count) :
    ∃ yuv out, rgb16ToP16 x64 e bp d ch .yuv444 noEnc noEnc420 i rgba stride rg m = .ok yuv ∧
      p16ToRgb16 x64 e bp d ch' .yuv444 noSimd yuv dst stride' rg m = .ok out ∧
      ∀ x y, x < i.width → y < i.height →
        let px := pixelAt rgba stride ch.count x y
        ∃ r g b : Nat, pixelAt out stride' ch'.count x y = layout ch' r g b (2 ^ d - 1) ∧
          (r ≤ red ch px + tolRB d ∧ red ch px ≤ r + tolRB d) ∧
          (g ≤ green ch px + tolG d ∧ green ch px ≤ g + tolG d) ∧
          (b ≤ blue ch px + tolRB d ∧ blue ch px ≤ b + tolRB d) := by
  obtain ⟨yuv, e1, hE⟩ := c30_encode_444 e bp d hd ch i rgba stride rg m ho 65536 hi hsrc hb noRel
    noEnc noEnc420 (noEnc_ok (s := .yuv444)) noEnc420_ok
  obtain ⟨fy, fu, fv⟩ := hE.exact
  obtain ⟨g1, g2, g3, g4, g5⟩ := hE.geometry
  have c1 : ∀ n : Nat, 0 < n → cover n (hdiv .yuv444) = n := by
    intro n hn; simp only [cover, hdiv, Nat.div_one]; omega
  have c2 : ∀ n : Nat, 0 < n → cover n (vdiv .yuv444) = n := by
    intro n hn; simp only [cover, vdiv, Nat.div_one]; omega
  have hblk : ∀ x y, x < i.width → y < i.height →
      block rgba stride ch.count i.width i.height (hdiv .yuv444) (vdiv .yuv444) x y
        = [pixelAt rgba stride ch.count x y] := by
    intro x y hx hy
    simp only [hdiv, vdiv, block, blockCols_one hx, blockCols_one hy]
    rfl
  have hlt : ∀ x y, _ := fun x y => deepBlk_lt hd ch rg m ho hb stride x y
  rw [c1 _ hi.wpos, c2 _ hi.hpos] at fu fv
  have fu' : FrameSpec yuv.u i.u i.uStride i.width i.height 1 (fun cx cy =>
      [wordOf e bp d (deepCb d ch rg m [pixelAt rgba stride ch.count cx cy])]) :=
    ⟨fu.1, fun x y c hx hy hc => by
      rw [fu.2.1 x y c hx hy hc]; simp only [hblk x y hx hy], fu.2.2⟩
  have fv' : FrameSpec yuv.v i.v i.vStride i.width i.height 1 (fun cx cy =>
      [wordOf e bp d (deepCr d ch rg m [pixelAt rgba stride ch.count cx cy])]) :=
    ⟨fv.1, fun x y c hx hy hc => by
      rw [fv.2.1 x y c hx hy hc]; simp only [hblk x y hx hy], fv.2.2⟩
  have hgood : GoodPlanar yuv .yuv444 65536 := by
    constructor
    · rw [g1]; exact hi.wpos
    · rw [g2]; exact hi.hpos
    · rw [g1]; exact hi.w32
    · rw [g2]; exact hi.h32
    · rw [g1, g2, g3]
      exact ⟨hi.y.stride32, hi.y.cols_le, by rw [fy.1]; exact hi.y.full,
        frameSpec_bound fy hi.y.bound fun x y => wordOf_lt e bp hd (hlt x y).1⟩
    · rw [g1, g2, g4]
      exact ⟨hi.u.stride32, hi.u.cols_le, by rw [fu'.1]; exact hi.u.full,
        frameSpec_bound fu' hi.u.bound fun x y => wordOf_lt e bp hd (hlt x y).2.1⟩
    · rw [g1, g2, g5]
      exact ⟨hi.v.stride32, hi.v.cols_le, by rw [fv'.1]; exact hi.v.full,
        frameSpec_bound fv' hi.v.bound fun x y => wordOf_lt e bp hd (hlt x y).2.2⟩
  rw [← g1, ← g2] at hdst
  obtain ⟨out, e2, hr⟩ := c28_planar_decode e bp d hd.depth ch' .yuv444 yuv dst stride' rg m hgood hdst
    (fun _ _ _ _ => False) noSimd noSimd_ok
  refine ⟨yuv, out, e1, e2, fun x y hx hy => ?_⟩
  intro px
  obtain ⟨r1, gr1, b1⟩ : red ch px < 2 ^ d ∧ green ch px < 2 ^ d ∧ blue ch px < 2 ^ d :=
    comps_lt (Nat.two_pow_pos d) ch (mem_pixelAt hb)
  obtain ⟨l1, l2, l3⟩ := hlt x y
  have hY : nativeSample e bp d (Planar.Y yuv x y) = deepLuma d ch rg m px := by
    unfold Planar.Y
    rw [g3, frameSpec_at fy hx hy, native_wordOf e bp hd l1]
  have hU : nativeSample e bp d (Planar.U yuv .yuv444 x y) = deepCb d ch rg m [px] := by
    unfold Planar.U
    rw [g4]
    simp only [hdiv, vdiv, Nat.div_one]
    rw [frameSpec_at fu' hx hy, native_wordOf e bp hd l2]
  have hV : nativeSample e bp d (Planar.V yuv .yuv444 x y) = deepCr d ch rg m [px] := by
    unfold Planar.V
    rw [g5]
    simp only [hdiv, vdiv, Nat.div_one]
    rw [frameSpec_at fv' hx hy, native_wordOf e bp hd l3]
  rw [(hr.2.1 x y (g1 ▸ hx) (g2 ▸ hy)).resolve_right id]
  unfold deepPlanarPixel
  rw [hY, hU, hV]
  unfold deepLuma deepCb deepCr
  simp only [List.map_cons, List.map_nil, avgUp_one]
  exact c48_round_trip _ (by decide) d hd ch' rg m ho _ _ _ r1 gr1 b1

/-- A 2×1 12-bit case meeting the hypotheses, with a padded destination. -/
example : ∃ i : Planar, i.width = 2 ∧ GoodPlanar i .yuv444 65536 ∧
    Samples 12 [4095, 0, 0, 1, 2, 3] ∧ GoodDst 6 6 2 1 3 ∧ ¬ Overflows 12 .full .bt601 :=
  ⟨⟨[0, 0, 5], 3, [0, 0], 2, [0, 0], 2, 2, 1⟩, rfl,
   { wpos := by decide, hpos := by decide, w32 := by unfold U32; decide, h32 := by unfold U32; decide
     y := ⟨by unfold U32; decide, by decide, by unfold FullRows; decide, by decide⟩
     u := ⟨by unfold U32; decide, by decide, by unfold FullRows; decide, by decide⟩
     v := ⟨by unfold U32; decide, by decide, by unfold FullRows; decide, by decide⟩ },
   by unfold Samples; decide, ⟨by unfold U32; decide, by decide, by unfold FullRows; decide, by decide⟩,
   by decide⟩

end Verif
