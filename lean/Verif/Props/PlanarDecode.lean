import Verif.Lemmas.Good
/-!
# C15, C16, C19, C22, C23, C25: 8-bit planar YCbCr to RGB
-/
namespace Verif
open Spec

/-- The pixel the specification asks for at `(x, y)`. -/
abbrev planarPixel (ch : Channels) (s : Sampling) (i : Planar) (rg : YuvRange) (m : Matrix)
    (x y : Nat) : Buf :=
  decodedPixel 13 8 ch rg m 255 (Planar.Y i x y) (Planar.U i s x y) (Planar.V i s x y)

/-! ## C15 -/

/-- C15: decoding a good 8-bit planar image into a good destination succeeds, writes exactly the
`width × height` pixels and nothing else, and every pixel is the decoding of the luma sample at
`(x, y)` and the chroma samples covering it — or, where the vector code was responsible for the
pixel, what the vector code guarantees (`R`).  Every sampling, channel order, matrix, range,
stride and size. -/
theorem c15_planar_decode (ch : Channels) (s : Sampling) (i : Planar) (rgba : Buf) (stride : Nat)
    (rg : YuvRange) (m : Matrix) (hi : GoodPlanar i s 256)
    (hdst : GoodDst rgba.length stride i.width i.height ch.count)
    (R : Nat → Nat → Nat → Buf → Prop) (hd : RowHandler) (hd2 : RowHandler420)
    (h1 : hd.Ok 256 ch.count i.width (hdiv s) R) (h2 : hd2.Ok 256 ch.count i.width R) :
    ∃ out, yuvToRgbx x64 ch s hd hd2 i rgba stride rg m = .ok out ∧
      FrameRel out rgba stride i.width i.height ch.count (fun x y p =>
        p = planarPixel ch s i rg m x y ∨
        R (Planar.Y i x y) (Planar.U i s x y) (Planar.V i s x y) p) := by
  have hr := hi.rows
  have hcfg : DecodeCfg 13 8 := Or.inr (Or.inl ⟨rfl, Or.inl rfl⟩)
  have hcn := count_pos ch
  have hst : 0 < stride := Nat.lt_of_lt_of_le (Nat.mul_pos hr.wpos hcn) hdst.cols_le
  have p1 := putRow_ok hcfg ch rg m
  have p2 := putTwoRow_ok hcfg ch rg m
  unfold yuvToRgbx yuvToRgbxImpl
  rw [hdst.accepted hi.wpos hi.hpos hi.w32 hi.h32 hcn (count_le ch), hi.accepted]
  simp only [Outcome.bind_ok]
  cases s with
  | yuv444 =>
    exact (decode444_rel hr hcn p1 h1 hdst.cols_le hdst.full).spec hcn hst hdst.cols_le hdst.full.1
  | yuv422 =>
    exact (decode422_rel hr hcn p1 h1 hdst.cols_le hdst.full).spec hcn hst hdst.cols_le hdst.full.1
  | yuv420 =>
    exact (decode420_rel hr hcn p1 p2 h1 h2 hdst.cols_le hdst.full).spec hcn hst hdst.cols_le
      hdst.full.1

/-- The vector code computes the same pixels as the scalar code. -/
def ExactVec (ch : Channels) (rg : YuvRange) (m : Matrix) (y u v : Nat) (p : Buf) : Prop :=
  p = decodedPixel 13 8 ch rg m 255 y u v

/-- C15 when the vector code is exact or absent. -/
theorem c15_planar_decode_exact (ch : Channels) (s : Sampling) (i : Planar) (rgba : Buf)
    (stride : Nat) (rg : YuvRange) (m : Matrix) (hi : GoodPlanar i s 256)
    (hdst : GoodDst rgba.length stride i.width i.height ch.count)
    (hd : RowHandler) (hd2 : RowHandler420)
    (h1 : hd.Ok 256 ch.count i.width (hdiv s) (ExactVec ch rg m))
    (h2 : hd2.Ok 256 ch.count i.width (ExactVec ch rg m)) :
    ∃ out, yuvToRgbx x64 ch s hd hd2 i rgba stride rg m = .ok out ∧
      FrameSpec out rgba stride i.width i.height ch.count (planarPixel ch s i rg m) := by
  obtain ⟨out, e, hr⟩ := c15_planar_decode ch s i rgba stride rg m hi hdst (ExactVec ch rg m)
    hd hd2 h1 h2
  refine ⟨out, e, frameRel_eq ?_⟩
  refine ⟨hr.1, fun x y hx hy => ?_, hr.2.2⟩
  rcases hr.2.1 x y hx hy with h | h
  · exact h
  · exact h

/-- A target without vector code meets the contract for every `R`. -/
theorem noSimd_ok {B cn w hd : Nat} {R : Nat → Nat → Nat → Buf → Prop} :
    noSimd.Ok B cn w hd R := by
  intro y u v row _ _ _ _ _ _ _
  refine ⟨row, 0, rfl, by omega, by simp, rfl, ?_, ?_⟩
  · intro x y hx; omega
  · intro i _; rfl
theorem noSimd420_ok {B cn w : Nat} {R : Nat → Nat → Nat → Buf → Prop} :
    noSimd420.Ok B cn w R := by
  intro y0 y1 u v row0 row1 _ _ _ _ _ _ _ _ _ _
  refine ⟨row0, row1, 0, rfl, ⟨by omega, by simp, rfl, ?_, ?_⟩, by omega, by simp, rfl, ?_, ?_⟩
  · intro x y hx; omega
  · intro i _; rfl
  · intro x y hx; omega
  · intro i _; rfl

/-- The hypotheses of C15 are met by a 3×3 4:2:0 image with padded strides (odd width and height,
elements after the last row). -/
def demo420 : Planar :=
  { y := [16, 81, 145, 9, 41, 210, 106, 9, 170, 235, 128, 9, 9]
    yStride := 4
    u := [128, 90, 9, 54, 240, 9]
    uStride := 3
    v := [128, 240, 34, 110]
    vStride := 2
    width := 3
    height := 3 }

theorem demo420_good : GoodPlanar demo420 .yuv420 256 where
  wpos := by decide
  hpos := by decide
  w32 := by unfold U32; decide
  h32 := by unfold U32; decide
  y := ⟨by unfold U32; decide, by decide, by unfold FullRows; decide, by decide⟩
  u := ⟨by unfold U32; decide, by decide, by unfold FullRows; decide, by decide⟩
  v := ⟨by unfold U32; decide, by decide, by unfold FullRows; decide, by decide⟩

example : GoodDst (List.replicate 33 7).length 11 3 3 3 :=
  ⟨by unfold U32; decide, by decide, by unfold FullRows; decide, by decide⟩

example : yuvToRgbx x64 .rgb .yuv420 noSimd noSimd420 demo420 (List.replicate 33 7) 11 .limited
    .bt601 = .ok
    [0, 0, 0, 76, 76, 76, 255, 74, 74, 7, 7,
     29, 29, 29, 226, 226, 226, 255, 29, 28, 7, 7,
     29, 255, 30, 105, 255, 106, 102, 101, 255, 7, 7] := by decide +kernel

/-! ## C10, end to end -/

theorem decodeRGB_close (rg : YuvRange) (m : Matrix) {y u v : Nat} (hy : y < 256) (hu : u < 256)
    (hv : v < 256) :
    ∃ r g b : Nat, decodeRGB 13 8 (searchInverse 13 8 rg m) (getYuvRange 8 rg).biasY
        (getYuvRange 8 rg).biasUv y u v = (r, g, b) ∧
      |(r : Rat) - satQ 8 (exactR 8 rg m y u v)| ≤ 54 / 100 ∧
      |(g : Rat) - satQ 8 (exactG 8 rg m y u v)| ≤ 54 / 100 ∧
      |(b : Rat) - satQ 8 (exactB 8 rg m y u v)| ≤ 54 / 100 := by
  have hcfg : DecodeCfg 13 8 := Or.inr (Or.inl ⟨rfl, Or.inl rfl⟩)
  obtain ⟨r, g, b, e1, _, _, _, e2⟩ := kernel_decodeRGB hcfg rg m (Or.inl rfl) (k := decodeRow)
    hy hu hv
  obtain ⟨r', g', b', e3, a1, a2, a3⟩ := c10_decode_close 13 8 hcfg (by decide) rg m decodeRow
    (Or.inl rfl) (qrshr 13 8) (Or.inl rfl) y u v hy hu hv
  rw [e2] at e3
  injection e3 with e3
  simp only [Prod.mk.injEq] at e3
  obtain ⟨rfl, rfl, rfl⟩ := e3
  have hb : (1 : Rat) / 2 + 2 ^ 8 / 2 ^ 13 ≤ 54 / 100 := by norm_num
  push_cast at a1 a2 a3
  exact ⟨r, g, b, e1, le_trans a1 hb, le_trans a2 hb, le_trans a3 hb⟩

/-- C10 at the API: after a successful 8-bit planar decode every pixel holds, in its channel
order, an `(r, g, b)` within 0.54 code values of the saturated exact ITU-R result of the samples
covering it, and opaque alpha. -/
theorem c10_planar_decode_close (ch : Channels) (s : Sampling) (i : Planar) (rgba : Buf)
    (stride : Nat) (rg : YuvRange) (m : Matrix) (hi : GoodPlanar i s 256)
    (hdst : GoodDst rgba.length stride i.width i.height ch.count)
    (hd : RowHandler) (hd2 : RowHandler420)
    (h1 : hd.Ok 256 ch.count i.width (hdiv s) (ExactVec ch rg m))
    (h2 : hd2.Ok 256 ch.count i.width (ExactVec ch rg m)) :
    ∃ out, yuvToRgbx x64 ch s hd hd2 i rgba stride rg m = .ok out ∧
      FrameRel out rgba stride i.width i.height ch.count (fun x y p =>
        ∃ r g b : Nat, p = layout ch r g b 255 ∧
        let Y : Rat := Planar.Y i x y
        let U : Rat := Planar.U i s x y
        let V : Rat := Planar.V i s x y
        |(r : Rat) - satQ 8 (exactR 8 rg m Y U V)| ≤ 54 / 100 ∧
        |(g : Rat) - satQ 8 (exactG 8 rg m Y U V)| ≤ 54 / 100 ∧
        |(b : Rat) - satQ 8 (exactB 8 rg m Y U V)| ≤ 54 / 100) := by
  obtain ⟨out, e, hr⟩ := c15_planar_decode ch s i rgba stride rg m hi hdst (ExactVec ch rg m)
    hd hd2 h1 h2
  refine ⟨out, e, hr.1, fun x y hx hy => ?_, hr.2.2⟩
  have hp : pixelAt out stride ch.count x y = planarPixel ch s i rg m x y := by
    rcases hr.2.1 x y hx hy with h | h <;> exact h
  obtain ⟨by1, bu1, bv1⟩ := hi.sample_lt hx hy
  obtain ⟨r, g, b, e1, a⟩ := decodeRGB_close rg m by1 bu1 bv1
  refine ⟨r, g, b, ?_, a⟩
  rw [hp]
  unfold planarPixel decodedPixel
  simp only [e1]

/-! ## C19: channel order -/

/-- C19: decoding the same image into two channel orders gives the same red, green and blue at
every pixel, and alpha 255 where there is an alpha channel. -/
theorem c19_channel_order (ch ch' : Channels) (s : Sampling) (i : Planar) (dst dst' : Buf)
    (stride stride' : Nat) (rg : YuvRange) (m : Matrix) (hi : GoodPlanar i s 256)
    (hdst : GoodDst dst.length stride i.width i.height ch.count)
    (hdst' : GoodDst dst'.length stride' i.width i.height ch'.count) :
    ∃ out out', yuvToRgbx x64 ch s noSimd noSimd420 i dst stride rg m = .ok out ∧
      yuvToRgbx x64 ch' s noSimd noSimd420 i dst' stride' rg m = .ok out' ∧
      ∀ x y, x < i.width → y < i.height → ∃ r g b,
        pixelAt out stride ch.count x y = layout ch r g b 255 ∧
        pixelAt out' stride' ch'.count x y = layout ch' r g b 255 := by
  obtain ⟨out, e, hr⟩ := c15_planar_decode ch s i dst stride rg m hi hdst (fun _ _ _ _ => False)
    noSimd noSimd420 noSimd_ok noSimd420_ok
  obtain ⟨out', e', hr'⟩ := c15_planar_decode ch' s i dst' stride' rg m hi hdst'
    (fun _ _ _ _ => False) noSimd noSimd420 noSimd_ok noSimd420_ok
  refine ⟨out, out', e, e', fun x y hx hy => ?_⟩
  have a := hr.2.1 x y hx hy
  have b := hr'.2.1 x y hx hy
  simp only [or_false] at a b
  exact ⟨_, _, _, a, b⟩

/-! ## C22, C23, C25 -/

/-- Two planar images of the same size show the same samples at every pixel. -/
def SameSamples (i : Planar) (s : Sampling) (j : Planar) (s' : Sampling) : Prop :=
  i.width = j.width ∧ i.height = j.height ∧
  ∀ x y, x < i.width → y < i.height →
    Planar.Y i x y = Planar.Y j x y ∧ Planar.U i s x y = Planar.U j s' x y ∧
    Planar.V i s x y = Planar.V j s' x y

/-- Decoding depends on the samples shown at the pixels only: not on the sampling, the strides,
the row padding, the previous destination contents or the vector code (C22, C23, C25 follow). -/
theorem planar_decode_samples_only (ch : Channels) (s s' : Sampling) (i j : Planar)
    (dst dst' : Buf) (stride stride' : Nat) (rg : YuvRange) (m : Matrix)
    (hi : GoodPlanar i s 256) (hj : GoodPlanar j s' 256) (hsame : SameSamples i s j s')
    (hdst : GoodDst dst.length stride i.width i.height ch.count)
    (hdst' : GoodDst dst'.length stride' i.width i.height ch.count)
    (hd hd' : RowHandler) (hd2 hd2' : RowHandler420)
    (h1 : hd.Ok 256 ch.count i.width (hdiv s) (ExactVec ch rg m))
    (h2 : hd2.Ok 256 ch.count i.width (ExactVec ch rg m))
    (h1' : hd'.Ok 256 ch.count i.width (hdiv s') (ExactVec ch rg m))
    (h2' : hd2'.Ok 256 ch.count i.width (ExactVec ch rg m)) :
    ∃ out out', yuvToRgbx x64 ch s hd hd2 i dst stride rg m = .ok out ∧
      yuvToRgbx x64 ch s' hd' hd2' j dst' stride' rg m = .ok out' ∧
      (∀ x y, x < i.width → y < i.height →
        pixelAt out stride ch.count x y = pixelAt out' stride' ch.count x y) ∧
      (dst = dst' → stride = stride' → out = out') := by
  obtain ⟨hw, hh, hs⟩ := hsame
  obtain ⟨out, e, hr⟩ := c15_planar_decode ch s i dst stride rg m hi hdst (ExactVec ch rg m)
    hd hd2 h1 h2
  rw [hw, hh] at hdst'
  rw [hw] at h1' h2'
  obtain ⟨out', e', hr'⟩ := c15_planar_decode ch s' j dst' stride' rg m hj hdst'
    (ExactVec ch rg m) hd' hd2' h1' h2'
  have hpix : ∀ x y, x < i.width → y < i.height →
      pixelAt out stride ch.count x y = pixelAt out' stride' ch.count x y := by
    intro x y hx hy
    have a : pixelAt out stride ch.count x y = planarPixel ch s i rg m x y := by
      rcases hr.2.1 x y hx hy with h | h <;> exact h
    have b : pixelAt out' stride' ch.count x y = planarPixel ch s' j rg m x y := by
      rcases hr'.2.1 x y (hw ▸ hx) (hh ▸ hy) with h | h <;> exact h
    obtain ⟨t1, t2, t3⟩ := hs x y hx hy
    rw [a, b]; unfold planarPixel; rw [t1, t2, t3]
  refine ⟨out, out', e, e', hpix, ?_⟩
  rintro rfl rfl
  have A : FrameSpec out dst stride i.width i.height ch.count
      (fun x y => pixelAt out stride ch.count x y) :=
    frameRel_eq ⟨hr.1, fun _ _ _ _ => rfl, hr.2.2⟩
  have B : FrameSpec out' dst stride i.width i.height ch.count
      (fun x y => pixelAt out stride ch.count x y) := by
    refine frameRel_eq ⟨hr'.1, fun x y hx hy => (hpix x y hx hy).symm, ?_⟩
    rw [hw, hh]; exact hr'.2.2
  exact frameSpec_unique A B

/-- C22: a 4:2:0 or 4:2:2 image decodes to the same bytes as the 4:4:4 image whose chroma planes
repeat each chroma sample over the pixels it covers. -/
theorem c22_subsampled_is_replicated (ch : Channels) (s : Sampling) (i j : Planar)
    (dst : Buf) (stride : Nat) (rg : YuvRange) (m : Matrix)
    (hi : GoodPlanar i s 256) (hj : GoodPlanar j .yuv444 256)
    (hw : j.width = i.width) (hh : j.height = i.height)
    (hY : ∀ x y, x < i.width → y < i.height → at' j.y j.yStride x y = at' i.y i.yStride x y)
    (hU : ∀ x y, x < i.width → y < i.height →
      at' j.u j.uStride x y = at' i.u i.uStride (x / hdiv s) (y / vdiv s))
    (hV : ∀ x y, x < i.width → y < i.height →
      at' j.v j.vStride x y = at' i.v i.vStride (x / hdiv s) (y / vdiv s))
    (hdst : GoodDst dst.length stride i.width i.height ch.count) :
    ∃ out, yuvToRgbx x64 ch s noSimd noSimd420 i dst stride rg m = .ok out ∧
      yuvToRgbx x64 ch .yuv444 noSimd noSimd420 j dst stride rg m = .ok out := by
  obtain ⟨out, out', e, e', _, h⟩ := planar_decode_samples_only ch s .yuv444 i j dst dst stride
    stride rg m hi hj ⟨hw.symm, hh.symm, fun x y hx hy => ⟨(hY x y hx hy).symm, by
      simp only [Planar.U, hdiv, vdiv, Nat.div_one]; exact (hU x y hx hy).symm, by
      simp only [Planar.V, hdiv, vdiv, Nat.div_one]; exact (hV x y hx hy).symm⟩⟩ hdst hdst
    noSimd noSimd noSimd420 noSimd420 noSimd_ok noSimd420_ok noSimd_ok
    noSimd420_ok
  exact ⟨out, e, by rw [h rfl rfl]; exact e'⟩

/-- C23: samples in the row padding, or after the last row, do not influence any pixel; nor do the
strides and the previous contents of the destination. -/
theorem c23_padding_irrelevant (ch : Channels) (s : Sampling) (i j : Planar)
    (dst dst' : Buf) (stride stride' : Nat) (rg : YuvRange) (m : Matrix)
    (hi : GoodPlanar i s 256) (hj : GoodPlanar j s 256) (hsame : SameSamples i s j s)
    (hdst : GoodDst dst.length stride i.width i.height ch.count)
    (hdst' : GoodDst dst'.length stride' i.width i.height ch.count) :
    ∃ out out', yuvToRgbx x64 ch s noSimd noSimd420 i dst stride rg m = .ok out ∧
      yuvToRgbx x64 ch s noSimd noSimd420 j dst' stride' rg m = .ok out' ∧
      ∀ x y, x < i.width → y < i.height →
        pixelAt out stride ch.count x y = pixelAt out' stride' ch.count x y := by
  obtain ⟨out, out', e, e', h, _⟩ := planar_decode_samples_only ch s s i j dst dst' stride
    stride' rg m hi hj hsame hdst hdst'
    noSimd noSimd noSimd420 noSimd420 noSimd_ok noSimd420_ok noSimd_ok
    noSimd420_ok
  exact ⟨out, out', e, e', h⟩

/-- C25: the result does not depend on the vector code, as long as that computes the scalar
pixels: any two handlers, completing any prefixes, give the bytes of the scalar code. -/
theorem c25_vector_prefix_irrelevant (ch : Channels) (s : Sampling) (i : Planar)
    (dst : Buf) (stride : Nat) (rg : YuvRange) (m : Matrix) (hi : GoodPlanar i s 256)
    (hdst : GoodDst dst.length stride i.width i.height ch.count)
    (hd : RowHandler) (hd2 : RowHandler420)
    (h1 : hd.Ok 256 ch.count i.width (hdiv s) (ExactVec ch rg m))
    (h2 : hd2.Ok 256 ch.count i.width (ExactVec ch rg m)) :
    yuvToRgbx x64 ch s hd hd2 i dst stride rg m =
      yuvToRgbx x64 ch s noSimd noSimd420 i dst stride rg m := by
  obtain ⟨out, out', e, e', _, h⟩ := planar_decode_samples_only ch s s i i dst dst stride
    stride rg m hi hi ⟨rfl, rfl, fun _ _ _ _ => ⟨rfl, rfl, rfl⟩⟩ hdst hdst
    hd noSimd hd2 noSimd420 h1 h2 noSimd_ok noSimd420_ok
  rw [e, e', h rfl rfl]

/-- A handler that completes the first two pixels of a row exactly: the contract is met by more
than the trivial handler. -/
def firstTwo (ch : Channels) (rg : YuvRange) (m : Matrix) (hd : Nat) : RowHandler :=
  fun y u v row =>
    .ok ((decodedPixel 13 8 ch rg m 255 (y.getD 0 0) (u.getD (0 / hd) 0) (v.getD (0 / hd) 0)
      ++ decodedPixel 13 8 ch rg m 255 (y.getD 1 0) (u.getD (1 / hd) 0) (v.getD (1 / hd) 0))
      ++ row.drop (2 * ch.count), 2)

theorem firstTwo_ok (ch : Channels) (rg : YuvRange) (m : Matrix) (w hd : Nat) (hw : 2 ≤ w)
    (hh : 2 % hd = 0) : (firstTwo ch rg m hd).Ok 256 ch.count w hd (ExactVec ch rg m) := by
  intro y u v row _ _ _ _ _ _ hrow
  have l0 := decodedPixel_length 13 8 ch rg m 255 (y.getD 0 0) (u.getD (0 / hd) 0)
    (v.getD (0 / hd) 0)
  have l1 := decodedPixel_length 13 8 ch rg m 255 (y.getD 1 0) (u.getD (1 / hd) 0)
    (v.getD (1 / hd) 0)
  have h2 : 2 * ch.count ≤ w * ch.count := Nat.mul_le_mul_right _ hw
  refine ⟨_, 2, rfl, hw, Or.inl hh, ?_, ?_, ?_⟩
  · simp only [List.length_append, l0, l1, List.length_drop]; omega
  · intro x y' hx hy'
    obtain rfl : y' = 0 := by omega
    obtain rfl | rfl : x = 0 ∨ x = 1 := by omega
    · simp only [pixelAt, ExactVec, Nat.zero_mul, Nat.add_zero, List.drop_zero]
      rw [List.append_assoc, List.take_append_of_le_length (by omega), List.take_of_length_le (by omega)]
    · simp only [pixelAt, ExactVec, Nat.zero_mul, Nat.one_mul, Nat.zero_add]
      rw [List.append_assoc, List.drop_append_of_le_length (by omega),
        List.drop_of_length_le (l := decodedPixel 13 8 ch rg m 255 (y.getD 0 0) _ _) (by omega),
        List.nil_append, List.take_append_of_le_length (by omega), List.take_of_length_le (by omega)]
  · intro i hi
    have hge : 2 * ch.count ≤ i := by
      rcases Nat.lt_or_ge i (2 * ch.count) with h | h
      · exfalso; apply hi
        refine ⟨i / ch.count, 0, i % ch.count, div_lt_of_lt_mul' h, by omega,
          Nat.mod_lt _ (count_pos ch), ?_⟩
        have := div_mod_split i ch.count
        omega
      · exact h
    rw [List.getElem?_append, List.length_append, l0, l1, if_neg (by omega), List.getElem?_drop]
    congr 1; omega

/-! ## C16: accepted but not written -/

/-- C16 fails (4:4:4): validation accepts a destination whose last row ends with the last pixel
(padded stride, no padding after the last row), the call returns `Ok`, and the last row of the
image is not written. -/
theorem c16_last_row_not_written :
    let i : Planar := ⟨[16, 81, 145, 9], 2, [128, 90, 9, 54], 2, [128, 240, 34, 110], 2, 2, 2⟩
    let dst := List.replicate 13 7
    GoodPlanar i .yuv444 256 ∧ checkRgba x64 dst.length 7 2 2 3 = .ok () ∧
    ∃ out, yuvToRgbx x64 .rgb .yuv444 noSimd noSimd420 i dst 7 .limited .bt601 = .ok out ∧
      (∀ x, x < 2 → pixelAt out 7 3 x 1 = [7, 7, 7]) ∧
      (∀ x, x < 2 → planarPixel .rgb .yuv444 i .limited .bt601 x 1 ≠ [7, 7, 7]) := by
  refine ⟨?_, by decide, ?_⟩
  · exact ⟨by decide, by decide, by unfold U32; decide, by unfold U32; decide,
      ⟨by unfold U32; decide, by decide, by unfold FullRows; decide, by decide⟩,
      ⟨by unfold U32; decide, by decide, by unfold FullRows; decide, by decide⟩,
      ⟨by unfold U32; decide, by decide, by unfold FullRows; decide, by decide⟩⟩
  · exact ⟨[0, 0, 0, 254, 0, 0, 7, 7, 7, 7, 7, 7, 7], by decide +kernel, by decide +kernel,
      by decide +kernel⟩

/-- C16 fails (4:2:0, odd height): with the same kind of destination the last image row is written
over the row before it. -/
theorem c16_wrong_row_written :
    let dst := List.replicate 31 7
    checkRgba x64 dst.length 11 3 3 3 = .ok () ∧
    ∃ out, yuvToRgbx x64 .rgb .yuv420 noSimd noSimd420 demo420 dst 11 .limited .bt601 = .ok out ∧
      (∀ x, x < 3 → pixelAt out 11 3 x 1 = planarPixel .rgb .yuv420 demo420 .limited .bt601 x 2) ∧
      (∀ x, x < 3 → pixelAt out 11 3 x 1 ≠ planarPixel .rgb .yuv420 demo420 .limited .bt601 x 1) ∧
      (∀ x, x < 3 → pixelAt out 11 3 x 2 = [7, 7, 7]) := by
  refine ⟨by decide, [0, 0, 0, 76, 76, 76, 255, 74, 74, 7, 7, 29, 255, 30, 105, 255, 106, 102, 101,
    255, 7, 7, 7, 7, 7, 7, 7, 7, 7, 7, 7], by decide +kernel, by decide +kernel, by decide +kernel,
    by decide +kernel⟩

/-- C16 fails: a one-row 4:2:0 image and a destination of exactly its pixels but a padded stride
are accepted, and the call panics. -/
theorem c16_one_row_panics :
    let i : Planar := ⟨[16, 81], 2, [128], 1, [128], 1, 2, 1⟩
    GoodPlanar i .yuv420 256 ∧ checkRgba x64 6 7 2 1 3 = .ok () ∧
    yuvToRgbx x64 .rgb .yuv420 noSimd noSimd420 i (List.replicate 6 7) 7 .limited .bt601
      = .panic := by
  refine ⟨?_, by decide, by decide +kernel⟩
  exact ⟨by decide, by decide, by unfold U32; decide, by unfold U32; decide,
      ⟨by unfold U32; decide, by decide, by unfold FullRows; decide, by decide⟩,
      ⟨by unfold U32; decide, by decide, by unfold FullRows; decide, by decide⟩,
      ⟨by unfold U32; decide, by decide, by unfold FullRows; decide, by decide⟩⟩

/-- C16, what holds: if the destination has `height` full rows (and less than one more), every
pixel is written.  Missing: destinations that end right after the last pixel, and destinations with
further rows, which validation also accepts. -/
theorem c16_all_written_partial (ch : Channels) (s : Sampling) (i : Planar) (rgba : Buf)
    (stride : Nat) (rg : YuvRange) (m : Matrix) (hi : GoodPlanar i s 256)
    (hdst : GoodDst rgba.length stride i.width i.height ch.count) :
    ∃ out, yuvToRgbx x64 ch s noSimd noSimd420 i rgba stride rg m = .ok out ∧
      ∀ x y, x < i.width → y < i.height →
        pixelAt out stride ch.count x y = planarPixel ch s i rg m x y := by
  obtain ⟨out, e, hr⟩ := c15_planar_decode ch s i rgba stride rg m hi hdst (fun _ _ _ _ => False)
    noSimd noSimd420 noSimd_ok noSimd420_ok
  refine ⟨out, e, fun x y hx hy => ?_⟩
  have := hr.2.1 x y hx hy
  simpa only [or_false] using this

end Verif
