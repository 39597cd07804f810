import Verif.Props.PlanarEncode
import Verif.Props.NvDecode
/-!
# C20, C21: 8-bit RGB to semi-planar YCbCr
-/
namespace Verif
open Spec

/-- The chroma pair of a block in memory order: Cb first in the UV formats, Cr first in the VU
formats. -/
def pairOf : NVOrder → Nat → Nat → Buf
  | .uv, cb, cr => [cb, cr]
  | .vu, cb, cr => [cr, cb]

theorem pairOf_eq (o : NVOrder) (cb cr : Nat) : orderUV o cb cr = pairOf o cb cr := by
  cases o <;> rfl

/-- The encoded planes of a semi-planar image; chroma samples always average rounding to nearest. -/
structure NvEncodedAs (p : Nat) (o : NVOrder) (ch : Channels) (s : Sampling) (rg : YuvRange)
    (m : Matrix) (R : EncRel) (rgba : Buf) (stride : Nat) (i out : BiPlanar) : Prop where
  geometry : out.width = i.width ∧ out.height = i.height ∧ out.yStride = i.yStride ∧
    out.uvStride = i.uvStride
  y : FrameRel out.y i.y i.yStride i.width i.height 1 fun x y q =>
    q = [luma8 p ch rg m (pixelAt rgba stride ch.count x y)] ∨
    R.y (pixelAt rgba stride ch.count x y) (q.getD 0 0)
  uv : FrameRel out.uv i.uv i.uvStride (cover i.width (hdiv s)) (cover i.height (vdiv s)) 2
    fun cx cy q =>
    let blk := block rgba stride ch.count i.width i.height (hdiv s) (vdiv s) cx cy
    q = pairOf o (cb8 p ch rg m avgUp blk) (cr8 p ch rg m avgUp blk) ∨
    (R.u (lastColumn i.width i.height (hdiv s) (vdiv s) cx cy) blk (q.getD o.uPos 0) ∧ R.v (lastColumn i.width i.height (hdiv s) (vdiv s) cx cy) blk (q.getD o.vPos 0))

/-- C20 for NV12, NV21, NV16, NV61, NV24 and NV42: encoding a good RGB(A) buffer into a good 8-bit
semi-planar image succeeds, replaces exactly the luma samples and chroma pairs of the image and
nothing else. -/
theorem c20_nv_encode (md : Mode) (o : NVOrder) (ch : Channels) (s : Sampling) (i : BiPlanar)
    (rgba : Buf) (stride : Nat) (rg : YuvRange) (m : Matrix) (D : Nat) (hi : GoodBiPlanar i s D)
    (hsrc : GoodDst rgba.length stride i.width i.height ch.count) (hb : Bytes rgba)
    (R : EncRel) (hd : RowEncoderNV) (hd2 : RowEncoderNV420)
    (h1 : hd.Ok 256 ch.count i.width (hdiv s) o.uPos o.vPos R)
    (h2 : hd2.Ok 256 ch.count i.width o.uPos o.vPos R) :
    ∃ out, rgbxToNv x64 md o ch s hd hd2 i rgba stride rg m = .ok out ∧
      NvEncodedAs (encodePrecision md) o ch s rg m R rgba stride i out := by
  have hr := hi.rows
  have hcn := count_pos ch
  have hE := enc8_blocks (rnd := 1) (by omega) (encPrec md) ch rg m
  have fin : ∀ oc : Outcome (Buf × Buf),
      NvEncoded (enc8Fun 1 (encodePrecision md) ch rg m) R o s ch.count i rgba stride oc →
      ∃ out, (oc >>= fun x => pure { i with y := x.1, uv := x.2 }) = Outcome.ok out ∧
      NvEncodedAs (encodePrecision md) o ch s rg m R rgba stride i out := by
    intro oc ⟨y, uv, e, ly, luv⟩
    refine ⟨{ i with y, uv }, by rw [e]; rfl, ⟨rfl, rfl, rfl, rfl⟩, ?_, ?_⟩
    · unfold LumaOk at ly
      simp only [enc8_lumaAt] at ly
      exact ly
    · rw [cover_hdiv hi.wpos, cover_vdiv hi.hpos]
      unfold PairsOk at luv
      refine ⟨luv.1, fun cx cy hx hy => ?_, luv.2.2⟩
      have := luv.2.1 cx cy hx hy
      unfold PairIs at this
      simpa [linFun, cb8, cr8, EncFun.uv, pairOf_eq] using this
  unfold rgbxToNv rgbxToNvImpl
  rw [hsrc.accepted hi.wpos hi.hpos hi.w32 hi.h32 hcn (count_le ch), hi.accepted]
  simp only [Outcome.bind_ok]
  cases s with
  | yuv444 => exact fin _ (nvEncode444_ok hcn hE h1 hr hsrc.full hsrc.cols_le hb)
  | yuv422 => exact fin _ (nvEncode422_ok hcn hE h1 hr hsrc.full hsrc.cols_le hb)
  | yuv420 => exact fin _ (nvEncode420_ok hcn hE h1 h2 hr hsrc.full hsrc.cols_le hb (Or.inl rfl))

/-- A target without vector code meets the contract for every `R`. -/
theorem noEncNV_ok {B cn w pu pv : Nat} {s : Sampling} {R : EncRel} :
    noEncNV.Ok B cn w (hdiv s) pu pv R := by
  intro y uv rgba _ _ _ _
  have h0 : chromaDone (hdiv s) 0 = 0 := by cases s <;> rfl
  refine ⟨y, uv, 0, rfl, ⟨by omega, by simp, frameRel_none⟩, ?_⟩
  rw [h0]; exact frameRel_none
theorem noEncNV420_ok {B cn w pu pv : Nat} {R : EncRel} : noEncNV420.Ok B cn w pu pv R := by
  intro y0 y1 uv r0 r1 _ _ _ _ _ _ _
  exact ⟨y0, y1, uv, 0, rfl, ⟨by omega, by simp, frameRel_none⟩,
    ⟨by omega, by simp, frameRel_none⟩, frameRel_none⟩

/-- Both planes are determined by the pixels of the source. -/
structure NvSpec (p : Nat) (o : NVOrder) (ch : Channels) (s : Sampling) (rg : YuvRange)
    (m : Matrix) (rgba : Buf) (stride : Nat) (i out : BiPlanar) : Prop where
  geometry : out.width = i.width ∧ out.height = i.height ∧ out.yStride = i.yStride ∧
    out.uvStride = i.uvStride
  y : FrameSpec out.y i.y i.yStride i.width i.height 1 fun x y =>
    [luma8 p ch rg m (pixelAt rgba stride ch.count x y)]
  uv : FrameSpec out.uv i.uv i.uvStride (cover i.width (hdiv s)) (cover i.height (vdiv s)) 2
    fun cx cy =>
    let blk := block rgba stride ch.count i.width i.height (hdiv s) (vdiv s) cx cy
    pairOf o (cb8 p ch rg m avgUp blk) (cr8 p ch rg m avgUp blk)

/-- C20 (semi-planar) without vector code: both planes are determined. -/
theorem c20_nv_encode_exact (md : Mode) (o : NVOrder) (ch : Channels) (s : Sampling) (i : BiPlanar)
    (rgba : Buf) (stride : Nat) (rg : YuvRange) (m : Matrix) (D : Nat) (hi : GoodBiPlanar i s D)
    (hsrc : GoodDst rgba.length stride i.width i.height ch.count) (hb : Bytes rgba) :
    ∃ out, rgbxToNv x64 md o ch s noEncNV noEncNV420 i rgba stride rg m = .ok out ∧
      NvSpec (encodePrecision md) o ch s rg m rgba stride i out := by
  obtain ⟨out, e, h⟩ := c20_nv_encode md o ch s i rgba stride rg m D hi hsrc hb noRel noEncNV
    noEncNV420 noEncNV_ok noEncNV420_ok
  refine ⟨out, e, h.geometry, frameRel_eq ?_, frameRel_eq ?_⟩
  · exact ⟨h.y.1, fun x y hx hy => (h.y.2.1 x y hx hy).resolve_right id, h.y.2.2⟩
  · exact ⟨h.uv.1, fun x y hx hy => (h.uv.2.1 x y hx hy).resolve_right fun f => f.1, h.uv.2.2⟩

/-- The hypotheses are met by a 3×3 source and an NV12 image with a padded luma plane. -/
def demoDstNV : BiPlanar :=
  { y := List.replicate 13 7, yStride := 4, uv := List.replicate 8 7, uvStride := 4
    width := 3, height := 3 }

theorem demoDstNV_good : GoodBiPlanar demoDstNV .yuv420 256 where
  wpos := by decide
  hpos := by decide
  w32 := by unfold U32; decide
  h32 := by unfold U32; decide
  y := ⟨by unfold U32; decide, by decide, by unfold FullRows; decide, by decide⟩
  uvStride32 := by unfold U32; decide
  uvStride := by decide
  uvLen := by decide
  uvBound := by decide

example : rgbxToNv x64 .balanced .uv .rgb .yuv420 noEncNV noEncNV420 demoDstNV demoRgb 11 .limited
    .bt601 = .ok { demoDstNV with
      y := [81, 145, 41, 7, 235, 16, 126, 7, 128, 40, 202, 7, 7]
      uv := [100, 133, 184, 119, 121, 88, 23, 149] } := by decide +kernel

/-! ## C21: layouts agree -/

theorem frameSpec_pair {out dst : Buf} {st w h : Nat} {f : Nat → Nat → Buf}
    (hs : FrameSpec out dst st w h 2 f) {x y : Nat} (hx : x < w) (hy : y < h) {c : Nat} (hc : c < 2) :
    at' out st (2 * x + c) y = (f x y).getD c 0 := by
  have := hs.2.1 x y c hx hy hc
  unfold at'
  rw [List.getD_eq_getElem?_getD, Nat.mul_comm 2 x, this, List.getD_eq_getElem?_getD]

/-- C21: encoding the same RGB(A) buffer to a planar and to a semi-planar image of the same sampling
gives the same luma samples, and the same chroma samples except possibly those that cover the last
column of two rows in 4:2:0 at an odd width.  In particular the two layouts agree completely for
even widths and for 4:2:2 and 4:4:4. -/
theorem c21_nv_planar_agree_partial (md : Mode) (o : NVOrder) (ch : Channels) (s : Sampling)
    (i : BiPlanar) (j : Planar) (rgba : Buf) (stride : Nat) (rg : YuvRange) (m : Matrix) (D D' : Nat)
    (hi : GoodBiPlanar i s D) (hj : GoodPlanar j s D') (hw : i.width = j.width)
    (hh : i.height = j.height) (hsrc : GoodDst rgba.length stride i.width i.height ch.count)
    (hb : Bytes rgba) :
    ∃ nv pl, rgbxToNv x64 md o ch s noEncNV noEncNV420 i rgba stride rg m = .ok nv ∧
      rgbxToYuv x64 md ch s noEnc noEnc420 j rgba stride rg m = .ok pl ∧
      (∀ x y, x < i.width → y < i.height →
        at' nv.y i.yStride x y = at' pl.y j.yStride x y) ∧
      (∀ cx cy, cx < cover i.width (hdiv s) → cy < cover i.height (vdiv s) →
        lastColumn i.width i.height (hdiv s) (vdiv s) cx cy = false →
        [at' nv.uv i.uvStride (2 * cx) cy, at' nv.uv i.uvStride (2 * cx + 1) cy]
          = pairOf o (at' pl.u j.uStride cx cy) (at' pl.v j.vStride cx cy)) := by
  obtain ⟨nv, e1, h1⟩ := c20_nv_encode_exact md o ch s i rgba stride rg m D hi hsrc hb
  have hsrc' := hsrc
  rw [hw, hh] at hsrc'
  obtain ⟨pl, e2, h2⟩ := c20_planar_encode_exact md ch s j rgba stride rg m D' hj hsrc' hb
  refine ⟨nv, pl, e1, e2, fun x y hx hy => ?_, fun cx cy hx hy hl => ?_⟩
  · rw [frameSpec_at h1.y hx hy, frameSpec_at h2.y (hw ▸ hx) (hh ▸ hy)]
  · have a0 := frameSpec_pair h1.uv hx hy (c := 0) (by omega)
    have a1 := frameSpec_pair h1.uv hx hy (c := 1) (by omega)
    rw [Nat.add_zero] at a0
    rw [a0, a1, frameSpec_at h2.u (hw ▸ hx) (hh ▸ hy), frameSpec_at h2.v (hw ▸ hx) (hh ▸ hy),
      planarAvg, ← hw, ← hh, hl]
    cases o <;> rfl

/-- C21 fails at odd widths in 4:2:0: a 1×2 image whose two pixels differ by three in red gets Cr 128
in the planar layout and Cr 129 in the semi-planar one (BT.601 full range). -/
theorem c21_odd_width_differs :
    let rgba := [0, 0, 0, 3, 0, 0]
    let pl : Planar := ⟨[0, 0], 1, [0], 1, [0], 1, 1, 2⟩
    let nv : BiPlanar := ⟨[0, 0], 1, [0, 0], 2, 1, 2⟩
    ∃ a b, rgbxToYuv x64 .balanced .rgb .yuv420 noEnc noEnc420 pl rgba 3 .full .bt601 = .ok a ∧
      rgbxToNv x64 .balanced .uv .rgb .yuv420 noEncNV noEncNV420 nv rgba 3 .full .bt601 = .ok b ∧
      a.v ≠ [b.uv.getD 1 0] := by
  refine ⟨⟨[0, 1], 1, [128], 1, [128], 1, 1, 2⟩, ⟨[0, 1], 1, [128, 129], 2, 1, 2⟩, ?_, ?_, ?_⟩ <;>
    decide +kernel

/-- C21: NV21 (NV61, NV42) is NV12 (NV16, NV24) with the two elements of every pair exchanged. -/
theorem c21_nv21_is_swapped_nv12 (md : Mode) (ch : Channels) (s : Sampling) (i : BiPlanar)
    (rgba : Buf) (stride : Nat) (rg : YuvRange) (m : Matrix) (D : Nat) (hi : GoodBiPlanar i s D)
    (hsrc : GoodDst rgba.length stride i.width i.height ch.count) (hb : Bytes rgba) :
    ∃ a b, rgbxToNv x64 md .uv ch s noEncNV noEncNV420 i rgba stride rg m = .ok a ∧
      rgbxToNv x64 md .vu ch s noEncNV noEncNV420 i rgba stride rg m = .ok b ∧
      a.y = b.y ∧
      ∀ cx cy, cx < cover i.width (hdiv s) → cy < cover i.height (vdiv s) →
        at' a.uv i.uvStride (2 * cx) cy = at' b.uv i.uvStride (2 * cx + 1) cy ∧
        at' a.uv i.uvStride (2 * cx + 1) cy = at' b.uv i.uvStride (2 * cx) cy := by
  obtain ⟨a, e1, h1⟩ := c20_nv_encode_exact md .uv ch s i rgba stride rg m D hi hsrc hb
  obtain ⟨b, e2, h2⟩ := c20_nv_encode_exact md .vu ch s i rgba stride rg m D hi hsrc hb
  refine ⟨a, b, e1, e2, frameSpec_unique h1.y h2.y, fun cx cy hx hy => ?_⟩
  have a0 := frameSpec_pair h1.uv hx hy (c := 0) (by omega)
  have a1 := frameSpec_pair h1.uv hx hy (c := 1) (by omega)
  have b0 := frameSpec_pair h2.uv hx hy (c := 0) (by omega)
  have b1 := frameSpec_pair h2.uv hx hy (c := 1) (by omega)
  rw [Nat.add_zero] at a0 b0
  rw [a0, a1, b0, b1]
  exact ⟨rfl, rfl⟩

end Verif
