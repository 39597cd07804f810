import Verif.Lemmas.NvDecode
import Verif.Props.PlanarDecode
/-!
# C17, C18: 8-bit semi-planar YCbCr to RGB
-/
namespace Verif
open Spec

/-- The pixel the specification asks for at `(x, y)`, precision `p`. -/
abbrev nvPixel (p : Nat) (o : NVOrder) (ch : Channels) (s : Sampling) (i : BiPlanar)
    (rg : YuvRange) (m : Matrix) (x y : Nat) : Buf :=
  decodedPixel p 8 ch rg m 255 (BiPlanar.Y i x y) (BiPlanar.U i s o x y) (BiPlanar.V i s o x y)

theorem nvCfg (md : Mode) : DecodeCfg (nvDecodePrecision md) 8 := by
  cases md
  · exact Or.inl ⟨rfl, rfl⟩
  · exact Or.inr (Or.inl ⟨rfl, Or.inl rfl⟩)
  · exact Or.inr (Or.inr ⟨rfl, Or.inl rfl, by decide⟩)

/-- C17: decoding a good 8-bit semi-planar image (NV12, NV21, NV16, NV61, NV24, NV42) into a good
destination succeeds, writes exactly the `width × height` pixels and nothing else, and every pixel
is the decoding of the luma sample at `(x, y)` and the chroma pair covering it — or, where the
vector code was responsible for the pixel, what the vector code guarantees (`R`). -/
theorem c17_nv_decode (md : Mode) (o : NVOrder) (ch : Channels) (s : Sampling) (i : BiPlanar)
    (rgba : Buf) (stride : Nat) (rg : YuvRange) (m : Matrix) (hi : GoodBiPlanar i s 256)
    (hdst : GoodDst rgba.length stride i.width i.height ch.count)
    (R : Nat → Nat → Nat → Buf → Prop) (hd : RowHandlerNV) (hd2 : RowHandlerNV420)
    (h1 : hd.Ok 256 ch.count i.width (hdiv s) o.uPos o.vPos R)
    (h2 : hd2.Ok 256 ch.count i.width o.uPos o.vPos R) :
    ∃ out, nvToRgbx x64 md o ch s hd hd2 i rgba stride rg m = .ok out ∧
      FrameRel out rgba stride i.width i.height ch.count (fun x y p =>
        p = nvPixel (nvDecodePrecision md) o ch s i rg m x y ∨
        R (BiPlanar.Y i x y) (BiPlanar.U i s o x y) (BiPlanar.V i s o x y) p) := by
  have hr := hi.rows
  have hcn := count_pos ch
  have hst : 0 < stride := Nat.lt_of_lt_of_le (Nat.mul_pos hr.wpos hcn) hdst.cols_le
  have p1 := putRow_ok (nvCfg md) ch rg m
  have p2 := putTwoRow_ok (nvCfg md) ch rg m
  unfold nvToRgbx nvToRgbxImpl
  rw [hdst.accepted hi.wpos hi.hpos hi.w32 hi.h32 hcn (count_le ch), hi.accepted]
  simp only [Outcome.bind_ok]
  have hU : ∀ x y, BiPlanar.U i s o x y
      = at' i.uv i.uvStride (2 * (x / hdiv s) + o.uPos) (y / vdiv s) := by
    intro x y; cases o <;> rfl
  have hV : ∀ x y, BiPlanar.V i s o x y
      = at' i.uv i.uvStride (2 * (x / hdiv s) + o.vPos) (y / vdiv s) := by
    intro x y; cases o <;> rfl
  unfold nvPixel BiPlanar.Y
  simp only [hU, hV]
  cases s with
  | yuv444 =>
    exact (nvDecode444_rel hr hcn p1 h1 hdst.cols_le hdst.full).spec hcn hst hdst.cols_le
      hdst.full.1
  | yuv422 =>
    exact (nvDecode422_rel hr hcn p1 h1 hdst.cols_le hdst.full).spec hcn hst hdst.cols_le
      hdst.full.1
  | yuv420 =>
    exact (nvDecode420_rel hr hcn p1 p2 h1 h2 hdst.cols_le hdst.full).spec hcn hst hdst.cols_le
      hdst.full.1

/-- A target without vector code meets the contract for every `R`. -/
theorem noSimdNV_ok {B cn w hd pu pv : Nat} {R : Nat → Nat → Nat → Buf → Prop} :
    noSimdNV.Ok B cn w hd pu pv R := by
  intro y uv row _ _ _ _ _
  refine ⟨row, 0, rfl, by omega, by simp, rfl, ?_, ?_⟩
  · intro x y hx; omega
  · intro i _; rfl
theorem noSimdNV420_ok {B cn w pu pv : Nat} {R : Nat → Nat → Nat → Buf → Prop} :
    noSimdNV420.Ok B cn w pu pv R := by
  intro y0 y1 uv row0 row1 _ _ _ _ _ _ _ _
  refine ⟨row0, row1, 0, rfl, ⟨by omega, by simp, rfl, ?_, ?_⟩, by omega, by simp, rfl, ?_, ?_⟩
  · intro x y hx; omega
  · intro i _; rfl
  · intro x y hx; omega
  · intro i _; rfl

/-- The vector code computes the same pixels as the scalar code. -/
def ExactVecP (p : Nat) (ch : Channels) (rg : YuvRange) (m : Matrix) (y u v : Nat) (px : Buf) :
    Prop := px = decodedPixel p 8 ch rg m 255 y u v

/-- C17 when the vector code is exact or absent: the destination is determined. -/
theorem c17_nv_decode_exact (md : Mode) (o : NVOrder) (ch : Channels) (s : Sampling) (i : BiPlanar)
    (rgba : Buf) (stride : Nat) (rg : YuvRange) (m : Matrix) (hi : GoodBiPlanar i s 256)
    (hdst : GoodDst rgba.length stride i.width i.height ch.count)
    (hd : RowHandlerNV) (hd2 : RowHandlerNV420)
    (h1 : hd.Ok 256 ch.count i.width (hdiv s) o.uPos o.vPos
      (ExactVecP (nvDecodePrecision md) ch rg m))
    (h2 : hd2.Ok 256 ch.count i.width o.uPos o.vPos (ExactVecP (nvDecodePrecision md) ch rg m)) :
    ∃ out, nvToRgbx x64 md o ch s hd hd2 i rgba stride rg m = .ok out ∧
      FrameSpec out rgba stride i.width i.height ch.count
        (nvPixel (nvDecodePrecision md) o ch s i rg m) := by
  obtain ⟨out, e, hr⟩ := c17_nv_decode md o ch s i rgba stride rg m hi hdst _ hd hd2 h1 h2
  refine ⟨out, e, frameRel_eq ⟨hr.1, fun x y hx hy => ?_, hr.2.2⟩⟩
  rcases hr.2.1 x y hx hy with h | h <;> exact h

/-- The hypotheses of C17 are met by a 3×3 NV12 image with a padded luma plane. -/
def demoNV12 : BiPlanar :=
  { y := demo420.y, yStride := 4, uv := [128, 128, 90, 240, 54, 34, 240, 110], uvStride := 4
    width := 3, height := 3 }

theorem demoNV12_good : GoodBiPlanar demoNV12 .yuv420 256 where
  wpos := by decide
  hpos := by decide
  w32 := by unfold U32; decide
  h32 := by unfold U32; decide
  y := demo420_good.y
  uvStride32 := by unfold U32; decide
  uvStride := by decide
  uvLen := by decide
  uvBound := by decide

example : nvToRgbx x64 .balanced .uv .rgb .yuv420 noSimdNV noSimdNV420 demoNV12
    (List.replicate 33 7) 11 .limited .bt601 = .ok
    [0, 0, 0, 76, 76, 76, 255, 74, 74, 7, 7,
     29, 29, 29, 226, 226, 226, 255, 29, 28, 7, 7,
     29, 255, 30, 105, 255, 106, 102, 101, 255, 7, 7] := by decide +kernel

/-! ## C18: layouts agree -/

/-- The planar image `j` and the semi-planar image `i` hold the same samples. -/
def SamePicture (i : BiPlanar) (o : NVOrder) (j : Planar) (s : Sampling) : Prop :=
  i.width = j.width ∧ i.height = j.height ∧
  (∀ x y, x < i.width → y < i.height → at' i.y i.yStride x y = at' j.y j.yStride x y) ∧
  (∀ cx cy, cx < cover i.width (hdiv s) → cy < cover i.height (vdiv s) →
    match o with
    | .uv => at' i.uv i.uvStride (2 * cx) cy = at' j.u j.uStride cx cy ∧
        at' i.uv i.uvStride (2 * cx + 1) cy = at' j.v j.vStride cx cy
    | .vu => at' i.uv i.uvStride (2 * cx) cy = at' j.v j.vStride cx cy ∧
        at' i.uv i.uvStride (2 * cx + 1) cy = at' j.u j.uStride cx cy)

/-- C18: a semi-planar image (UV or VU order) and the planar image with the same samples decode to
identical bytes in the default mode, at the same sampling. -/
theorem c18_nv_planar_agree (o : NVOrder) (ch : Channels) (s : Sampling) (i : BiPlanar) (j : Planar)
    (rgba : Buf) (stride : Nat) (rg : YuvRange) (m : Matrix) (hi : GoodBiPlanar i s 256)
    (hj : GoodPlanar j s 256) (hsame : SamePicture i o j s)
    (hdst : GoodDst rgba.length stride i.width i.height ch.count) :
    ∃ out, nvToRgbx x64 .balanced o ch s noSimdNV noSimdNV420 i rgba stride rg m = .ok out ∧
      yuvToRgbx x64 ch s noSimd noSimd420 j rgba stride rg m = .ok out := by
  obtain ⟨hw, hh, hY, hC⟩ := hsame
  obtain ⟨out, e, hr⟩ := c17_nv_decode_exact .balanced o ch s i rgba stride rg m hi hdst
    noSimdNV noSimdNV420 noSimdNV_ok noSimdNV420_ok
  rw [hw, hh] at hdst
  obtain ⟨out', e', hr'⟩ := c15_planar_decode_exact ch s j rgba stride rg m hj hdst
    noSimd noSimd420 noSimd_ok noSimd420_ok
  refine ⟨out, e, ?_⟩
  rw [e']
  congr 1
  refine frameSpec_unique hr' ?_
  rw [← hw, ← hh]
  refine ⟨hr.1, ?_, hr.2.2⟩
  intro x y c hx hy hc
  rw [hr.2.1 x y c hx hy hc]
  have cx : x / hdiv s < cover i.width (hdiv s) := by
    rw [cover_hdiv hi.wpos]; exact div_hdiv_lt hx
  have cy : y / vdiv s < cover i.height (vdiv s) := by
    rw [cover_vdiv hi.hpos]; exact div_vdiv_lt hy
  have h1 := hY x y hx hy
  have h2 := hC _ _ cx cy
  unfold nvPixel planarPixel BiPlanar.Y Planar.Y Planar.U Planar.V
  rw [h1]
  cases o
  · simp only [BiPlanar.U, BiPlanar.V, BiPlanar.C, Nat.add_zero] at h2 ⊢
    rw [h2.1, h2.2]; rfl
  · simp only [BiPlanar.U, BiPlanar.V, BiPlanar.C, Nat.add_zero] at h2 ⊢
    rw [h2.1, h2.2]; rfl

/-- The demonstration images hold the same samples. -/
example : SamePicture demoNV12 .uv demo420 .yuv420 := by
  refine ⟨rfl, rfl, fun x y _ _ => rfl, ?_⟩
  intro cx cy hcx hcy
  have h1 : cover demoNV12.width (hdiv .yuv420) = 2 := by decide
  have h2 : cover demoNV12.height (vdiv .yuv420) = 2 := by decide
  rw [h1] at hcx; rw [h2] at hcy
  obtain rfl | rfl : cx = 0 ∨ cx = 1 := by omega
  · obtain rfl | rfl : cy = 0 ∨ cy = 1 := by omega
    · decide
    · decide
  · obtain rfl | rfl : cy = 0 ∨ cy = 1 := by omega
    · decide
    · decide

/-- C18: swapping the two elements of every chroma pair and reading the image in the other order
(NV12 as NV21, …) gives identical bytes, in every mode. -/
theorem c18_nv21_is_swapped_nv12 (md : Mode) (ch : Channels) (s : Sampling) (i j : BiPlanar)
    (rgba : Buf) (stride : Nat) (rg : YuvRange) (m : Matrix) (hi : GoodBiPlanar i s 256)
    (hj : GoodBiPlanar j s 256) (hw : i.width = j.width) (hh : i.height = j.height)
    (hY : ∀ x y, x < i.width → y < i.height → at' i.y i.yStride x y = at' j.y j.yStride x y)
    (hC : ∀ cx cy, cx < cover i.width (hdiv s) → cy < cover i.height (vdiv s) →
      at' i.uv i.uvStride (2 * cx) cy = at' j.uv j.uvStride (2 * cx + 1) cy ∧
      at' i.uv i.uvStride (2 * cx + 1) cy = at' j.uv j.uvStride (2 * cx) cy)
    (hdst : GoodDst rgba.length stride i.width i.height ch.count) :
    ∃ out, nvToRgbx x64 md .uv ch s noSimdNV noSimdNV420 i rgba stride rg m = .ok out ∧
      nvToRgbx x64 md .vu ch s noSimdNV noSimdNV420 j rgba stride rg m = .ok out := by
  obtain ⟨out, e, hr⟩ := c17_nv_decode_exact md .uv ch s i rgba stride rg m hi hdst
    noSimdNV noSimdNV420 noSimdNV_ok noSimdNV420_ok
  rw [hw, hh] at hdst
  obtain ⟨out', e', hr'⟩ := c17_nv_decode_exact md .vu ch s j rgba stride rg m hj hdst
    noSimdNV noSimdNV420 noSimdNV_ok noSimdNV420_ok
  refine ⟨out, e, ?_⟩
  rw [e']
  congr 1
  refine frameSpec_unique hr' ?_
  rw [← hw, ← hh]
  refine ⟨hr.1, ?_, hr.2.2⟩
  intro x y c hx hy hc
  rw [hr.2.1 x y c hx hy hc]
  have cx : x / hdiv s < cover i.width (hdiv s) := by
    rw [cover_hdiv hi.wpos]; exact div_hdiv_lt hx
  have cy : y / vdiv s < cover i.height (vdiv s) := by
    rw [cover_vdiv hi.hpos]; exact div_vdiv_lt hy
  have h1 := hY x y hx hy
  have h2 := hC _ _ cx cy
  unfold nvPixel BiPlanar.Y
  simp only [BiPlanar.U, BiPlanar.V, BiPlanar.C, Nat.add_zero] at h2 ⊢
  rw [h1, h2.1, h2.2]

/-! ## C16 for the semi-planar decoder -/

/-- C16 fails (4:2:2): the last image row of an accepted destination without padding after its last
row is not written although the call returns `Ok`. -/
theorem c16_nv_last_row_not_written :
    let i : BiPlanar := ⟨[16, 81, 145, 9], 2, [128, 90, 9, 54], 2, 2, 2⟩
    let dst := List.replicate 13 7
    GoodBiPlanar i .yuv422 256 ∧ checkRgba x64 dst.length 7 2 2 3 = .ok () ∧
    ∃ out, nvToRgbx x64 .balanced .uv .rgb .yuv422 noSimdNV noSimdNV420 i dst 7 .limited .bt601
        = .ok out ∧
      (∀ x, x < 2 → pixelAt out 7 3 x 1 = [7, 7, 7]) ∧
      (∀ x, x < 2 → nvPixel 13 .uv .rgb .yuv422 i .limited .bt601 x 1 ≠ [7, 7, 7]) := by
  refine ⟨?_, by decide, ?_⟩
  · exact ⟨by decide, by decide, by unfold U32; decide, by unfold U32; decide,
      ⟨by unfold U32; decide, by decide, by unfold FullRows; decide, by decide⟩,
      by unfold U32; decide, by decide, by decide, by decide⟩
  · exact ⟨[0, 31, 0, 15, 107, 76, 7, 7, 7, 7, 7, 7, 7], by decide +kernel, by decide +kernel, by decide +kernel⟩

end Verif
