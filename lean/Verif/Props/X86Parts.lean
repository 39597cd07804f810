import Verif.Lemmas.X86Parts
import Verif.Props.X86Encode
import Verif.Props.X86NvEncode
/-!
# Encoded frames, for any values of the samples

Shared by the professional and the fast mode (C96 – C99).
-/
namespace Verif
open Spec X86

/-- All three planes of a planar image hold the given values: luma of its pixel, chroma of the pixels a
sample covers (and whether these are the last column of two rows of odd width).  Nothing else is
written. -/
structure EncodedBy (Y : Buf → Nat) (U V : Bool → List Buf → Nat) (cn : Nat) (s : Sampling) (rgba : Buf)
    (stride : Nat) (i out : Planar) : Prop where
  geometry : out.width = i.width ∧ out.height = i.height ∧ out.yStride = i.yStride ∧
    out.uStride = i.uStride ∧ out.vStride = i.vStride
  y : FrameSpec out.y i.y i.yStride i.width i.height 1 fun x y => [Y (pixelAt rgba stride cn x y)]
  u : FrameSpec out.u i.u i.uStride (cover i.width (hdiv s)) (cover i.height (vdiv s)) 1 fun cx cy =>
    [U (lastColumn i.width i.height (hdiv s) (vdiv s) cx cy)
      (block rgba stride cn i.width i.height (hdiv s) (vdiv s) cx cy)]
  v : FrameSpec out.v i.v i.vStride (cover i.width (hdiv s)) (cover i.height (vdiv s)) 1 fun cx cy =>
    [V (lastColumn i.width i.height (hdiv s) (vdiv s) cx cy)
      (block rgba stride cn i.width i.height (hdiv s) (vdiv s) cx cy)]

/-- Both planes of a semi-planar image hold the given values. -/
structure NvEncodedBy (Y : Buf → Nat) (U V : Bool → List Buf → Nat) (o : NVOrder) (cn : Nat)
    (s : Sampling) (rgba : Buf) (stride : Nat) (i out : BiPlanar) : Prop where
  geometry : out.width = i.width ∧ out.height = i.height ∧ out.yStride = i.yStride ∧
    out.uvStride = i.uvStride
  y : FrameSpec out.y i.y i.yStride i.width i.height 1 fun x y => [Y (pixelAt rgba stride cn x y)]
  uv : FrameSpec out.uv i.uv i.uvStride (cover i.width (hdiv s)) (cover i.height (vdiv s)) 2
    fun cx cy =>
    let last := lastColumn i.width i.height (hdiv s) (vdiv s) cx cy
    let blk := block rgba stride cn i.width i.height (hdiv s) (vdiv s) cx cy
    pairOf o (U last blk) (V last blk)

theorem block_same {cn : Nat} {rgba rgba' : Buf} {stride stride' w h : Nat}
    (hsame : ∀ x y, x < w → y < h → pixelAt rgba stride cn x y = pixelAt rgba' stride' cn x y)
    (hd vd cx cy : Nat) :
    block rgba stride cn w h hd vd cx cy = block rgba' stride' cn w h hd vd cx cy := by
  unfold block
  refine List.flatMap_congr fun y hy => List.map_congr_left fun x hx => ?_
  exact hsame x y (blockCols_lt hx) (blockCols_lt hy)

/-- The encoded image is determined by the pixels of the source. -/
theorem EncodedBy.unique {Y : Buf → Nat} {U V : Bool → List Buf → Nat} {cn : Nat} {s : Sampling}
    {rgba rgba' : Buf} {stride stride' : Nat} {i out out' : Planar}
    (hsame : ∀ x y, x < i.width → y < i.height →
      pixelAt rgba stride cn x y = pixelAt rgba' stride' cn x y)
    (h : EncodedBy Y U V cn s rgba stride i out)
    (h' : EncodedBy Y U V cn s rgba' stride' i out') : out' = out := by
  obtain ⟨g1, g2, g3, g4, g5⟩ := h.geometry
  obtain ⟨g1', g2', g3', g4', g5'⟩ := h'.geometry
  refine planar_ext (g1'.trans g1.symm) (g2'.trans g2.symm) (g3'.trans g3.symm)
    (g4'.trans g4.symm) (g5'.trans g5.symm) ?_ ?_ ?_
  · refine frameSpec_unique h'.y ⟨h.y.1, fun x y c hx hy hc => ?_, h.y.2.2⟩
    rw [h.y.2.1 x y c hx hy hc]
    simp only [hsame x y hx hy]
  · refine frameSpec_unique h'.u ?_
    have := h.u
    simp only [block_same hsame] at this
    exact this
  · refine frameSpec_unique h'.v ?_
    have := h.v
    simp only [block_same hsame] at this
    exact this

theorem NvEncodedBy.unique {Y : Buf → Nat} {U V : Bool → List Buf → Nat} {o : NVOrder} {cn : Nat}
    {s : Sampling} {rgba rgba' : Buf} {stride stride' : Nat} {i out out' : BiPlanar}
    (hsame : ∀ x y, x < i.width → y < i.height →
      pixelAt rgba stride cn x y = pixelAt rgba' stride' cn x y)
    (h : NvEncodedBy Y U V o cn s rgba stride i out)
    (h' : NvEncodedBy Y U V o cn s rgba' stride' i out') : out' = out := by
  obtain ⟨g1, g2, g3, g4⟩ := h.geometry
  obtain ⟨g1', g2', g3', g4'⟩ := h'.geometry
  refine biPlanar_ext (g1'.trans g1.symm) (g2'.trans g2.symm) (g3'.trans g3.symm)
    (g4'.trans g4.symm) ?_ ?_
  · refine frameSpec_unique h'.y ⟨h.y.1, fun x y c hx hy hc => ?_, h.y.2.2⟩
    rw [h.y.2.1 x y c hx hy hc]
    simp only [hsame x y hx hy]
  · refine frameSpec_unique h'.uv ?_
    have := h.uv
    simp only [block_same hsame] at this
    exact this

/-- Cb and Cr of an encoded pair. -/
theorem NvEncodedBy.parts {Y : Buf → Nat} {U V : Bool → List Buf → Nat} {o : NVOrder} {cn : Nat}
    {s : Sampling} {rgba : Buf} {stride : Nat} {i out : BiPlanar}
    (h : NvEncodedBy Y U V o cn s rgba stride i out) {cx cy : Nat}
    (hx : cx < cover i.width (hdiv s)) (hy : cy < cover i.height (vdiv s)) :
    let last := lastColumn i.width i.height (hdiv s) (vdiv s) cx cy
    let blk := block rgba stride cn i.width i.height (hdiv s) (vdiv s) cx cy
    at' out.uv i.uvStride (2 * cx + o.uPos) cy = U last blk ∧
    at' out.uv i.uvStride (2 * cx + o.vPos) cy = V last blk := by
  intro last blk
  rw [frameSpec_pair h.uv hx hy (c := o.uPos) (by cases o <;> decide),
    frameSpec_pair h.uv hx hy (c := o.vPos) (by cases o <;> decide)]
  cases o <;> exact ⟨rfl, rfl⟩

/-- A planar and a semi-planar image with the same values show the same picture. -/
theorem samePicture_by {Y : Buf → Nat} {U V : Bool → List Buf → Nat} {o : NVOrder} {cn : Nat}
    {s : Sampling} {rgba : Buf} {stride : Nat} {i nv : BiPlanar} {j pl : Planar} (hw : i.width = j.width)
    (hh : i.height = j.height) (h1 : NvEncodedBy Y U V o cn s rgba stride i nv)
    (h2 : EncodedBy Y U V cn s rgba stride j pl) : SamePicture nv o pl s := by
  obtain ⟨g1, g2, g3, g4⟩ := h1.geometry
  obtain ⟨k1, k2, k3, k4, k5⟩ := h2.geometry
  refine ⟨?_, ?_, ?_, ?_⟩
  · rw [g1, k1, hw]
  · rw [g2, k2, hh]
  · intro x y hx hy
    rw [g1] at hx
    rw [g2] at hy
    rw [g3, k3, frameSpec_at h1.y hx hy, frameSpec_at h2.y (hw ▸ hx) (hh ▸ hy)]
  · intro cx cy hx hy
    rw [g1] at hx
    rw [g2] at hy
    obtain ⟨p1, p2⟩ := h1.parts hx hy
    rw [g4, k4, k5, frameSpec_at h2.u (hw ▸ hx) (hh ▸ hy), frameSpec_at h2.v (hw ▸ hx) (hh ▸ hy),
      ← hw, ← hh]
    cases o
    · exact ⟨p1, p2⟩
    · exact ⟨p2, p1⟩

/-- NV21 is NV12 with exchanged pairs. -/
theorem swapped_by {Y : Buf → Nat} {U V : Bool → List Buf → Nat} {cn : Nat}
    {s : Sampling} {rgba : Buf} {stride : Nat} {i a b : BiPlanar}
    (h1 : NvEncodedBy Y U V .uv cn s rgba stride i a)
    (h2 : NvEncodedBy Y U V .vu cn s rgba stride i b) :
    a.y = b.y ∧ ∀ cx cy, cx < cover i.width (hdiv s) → cy < cover i.height (vdiv s) →
        at' a.uv i.uvStride (2 * cx) cy = at' b.uv i.uvStride (2 * cx + 1) cy ∧
        at' a.uv i.uvStride (2 * cx + 1) cy = at' b.uv i.uvStride (2 * cx) cy := by
  refine ⟨frameSpec_unique h1.y h2.y, fun cx cy hx hy => ?_⟩
  obtain ⟨a1, a2⟩ := h1.parts hx hy
  obtain ⟨b1, b2⟩ := h2.parts hx hy
  exact ⟨a1.trans b1.symm, a2.trans b2.symm⟩

/-- The scalar planar encoders. -/
theorem scalar_encodedBy (md : Mode) (ch : Channels) (s : Sampling) (i : Planar) (rgba : Buf)
    (stride : Nat) (rg : YuvRange) (m : Matrix) (D : Nat) (hi : GoodPlanar i s D)
    (hsrc : GoodDst rgba.length stride i.width i.height ch.count) (hb : Bytes rgba) :
    ∃ out, rgbxToYuv x64 md ch s noEnc noEnc420 i rgba stride rg m = .ok out ∧
      EncodedBy (luma8 (encodePrecision md) ch rg m)
        (fun last l => cb8 (encodePrecision md) ch rg m (if last then avgDown else avgUp) l)
        (fun last l => cr8 (encodePrecision md) ch rg m (if last then avgDown else avgUp) l) ch.count s
        rgba stride i out := by
  obtain ⟨out, e, h⟩ := c20_planar_encode_exact md ch s i rgba stride rg m D hi hsrc hb
  exact ⟨out, e, h.geometry, h.y, h.u, h.v⟩

/-- The scalar semi-planar encoders. -/
theorem scalar_nvEncodedBy (md : Mode) (o : NVOrder) (ch : Channels) (s : Sampling) (i : BiPlanar)
    (rgba : Buf) (stride : Nat) (rg : YuvRange) (m : Matrix) (D : Nat) (hi : GoodBiPlanar i s D)
    (hsrc : GoodDst rgba.length stride i.width i.height ch.count) (hb : Bytes rgba) :
    ∃ out, rgbxToNv x64 md o ch s noEncNV noEncNV420 i rgba stride rg m = .ok out ∧
      NvEncodedBy (luma8 (encodePrecision md) ch rg m)
        (fun _ l => cb8 (encodePrecision md) ch rg m avgUp l)
        (fun _ l => cr8 (encodePrecision md) ch rg m avgUp l) o ch.count s rgba stride i out := by
  obtain ⟨out, e, h⟩ := c20_nv_encode_exact md o ch s i rgba stride rg m D hi hsrc hb
  exact ⟨out, e, h.geometry, h.y, h.uv⟩

section
variable {C : Type} {P : Part C} {ch : Channels} {A : Vals} {R : C → (Nat → Buf) → Prop}

theorem part_encode (hP : PartOk P ch A R) (md : Mode) (s : Sampling) (i : Planar)
    (rgba : Buf) (stride : Nat) (rg : YuvRange) (m : Matrix) (D : Nat) (hi : GoodPlanar i s D)
    (hsrc : GoodDst rgba.length stride i.width i.height ch.count) (hb : Bytes rgba) :
    ∃ out, P.toYuv md ch s i rgba stride rg m = .ok out ∧
      EncodedBy A.y (A.cb s) (A.cr s) ch.count s rgba stride i out := by
  have hr := hi.rows
  have hcn := count_pos ch
  have fin : ∀ o : Outcome (Buf × Buf × Buf),
      Encoded (valsFun A s) (vecRel (valsFun A s)) s ch.count i rgba stride o →
      ∃ out, (o >>= fun x => pure { i with y := x.1, u := x.2.1, v := x.2.2 }) = Outcome.ok out ∧
      EncodedBy A.y (A.cb s) (A.cr s) ch.count s rgba stride i out := by
    intro o ⟨y, u, v, e, ly, lu, lv⟩
    refine ⟨{ i with y, u, v }, by rw [e]; rfl, ⟨rfl, rfl, rfl, rfl, rfl⟩, ?_, ?_, ?_⟩
    · refine frame_samples hi.y.full hi.y.cols_le ⟨ly.1, fun x y hx hy => ?_, ly.2.2⟩
      have ey : (valsFun A s).lumaAt s rgba stride ch.count x y
          = A.y (pixelAt rgba stride ch.count x y) := by
        unfold EncFun.lumaAt; split <;> rfl
      rcases ly.2.1 x y hx hy with h | h
      · exact .inl (by rw [h, ey])
      · exact .inr h
    · refine frame_samples hi.u.full hi.u.cols_le ?_
      rw [cover_hdiv hi.wpos, cover_vdiv hi.hpos]
      exact ⟨lu.1, fun x y hx hy => lu.2.1 x y hx hy, lu.2.2⟩
    · refine frame_samples hi.v.full hi.v.cols_le ?_
      rw [cover_hdiv hi.wpos, cover_vdiv hi.hpos]
      exact ⟨lv.1, fun x y hx hy => lv.2.1 x y hx hy, lv.2.2⟩
  have hE := vecBlocks_ok 256 ch.count (valsFun A s)
  have h1 := Part.rowEncoder_ok hP s hi.wpos
  have f1 := P.rowEncoder_finishes s ch.count i.width
  unfold Part.toYuv rgbxToYuv rgbxToYuvImpl
  rw [hsrc.accepted hi.wpos hi.hpos hi.w32 hi.h32 hcn (count_le ch), hi.accepted]
  simp only [Outcome.bind_ok]
  cases s with
  | yuv444 =>
    rw [encode444_fin _ (vecBlocks ch.count (valsFun A .yuv444)) f1]
    exact fin _ (encode444_ok hcn hE h1 hr hsrc.full hsrc.cols_le hb)
  | yuv422 =>
    rw [encode422_fin _ (vecBlocks ch.count (valsFun A .yuv422)) f1]
    exact fin _ (encode422_ok hcn hE h1 hr hsrc.full hsrc.cols_le hb (Or.inl rfl))
  | yuv420 =>
    have h2 := Part.rowEncoder420_ok hP hi.wpos
    have f2 := P.rowEncoder420_finishes ch.count i.width
    rw [encode420_fin _ (vecBlocks ch.count (valsFun A .yuv420)) f1 f2]
    exact fin _ (encode420_ok hcn hE h1 h2 hr hsrc.full hsrc.cols_le hb)

theorem part_nv_encode (hP : PartOk P ch A R) (md : Mode) (o : NVOrder) (s : Sampling) (i : BiPlanar)
    (rgba : Buf) (stride : Nat) (rg : YuvRange) (m : Matrix) (D : Nat) (hi : GoodBiPlanar i s D)
    (hsrc : GoodDst rgba.length stride i.width i.height ch.count) (hb : Bytes rgba) :
    ∃ out, P.toNv md o ch s i rgba stride rg m = .ok out ∧
      NvEncodedBy A.y (A.cb s) (A.cr s) o ch.count s rgba stride i out := by
  have hr := hi.rows
  have hcn := count_pos ch
  have fin : ∀ oc : Outcome (Buf × Buf),
      NvEncoded (valsFun A s) (vecRel (valsFun A s)) o s ch.count i rgba stride oc →
      ∃ out, (oc >>= fun x => pure { i with y := x.1, uv := x.2 }) = Outcome.ok out ∧
      NvEncodedBy A.y (A.cb s) (A.cr s) o ch.count s rgba stride i out := by
    intro oc ⟨y, uv, e, ly, luv⟩
    refine ⟨{ i with y, uv }, by rw [e]; rfl, ⟨rfl, rfl, rfl, rfl⟩, ?_, frameRel_eq ?_⟩
    · refine frame_samples hi.y.full hi.y.cols_le ⟨ly.1, fun x y hx hy => ?_, ly.2.2⟩
      have ey : (valsFun A s).lumaAt s rgba stride ch.count x y
          = A.y (pixelAt rgba stride ch.count x y) := by
        unfold EncFun.lumaAt; split <;> rfl
      rcases ly.2.1 x y hx hy with h | h
      · exact .inl (by rw [h, ey])
      · exact .inr h
    · rw [cover_hdiv hi.wpos, cover_vdiv hi.hpos]
      refine ⟨luv.1, fun x y hx hy => ?_, luv.2.2⟩
      rcases luv.2.1 x y hx hy with h | ⟨h1, h2⟩
      · rw [h]; exact pairOf_eq ..
      · refine pairOf_of_parts ?_ h1 h2
        have l1 := hi.uvLen
        have l2 := hi.uvStride
        rw [cover_hdiv hi.wpos] at l2
        rw [cover_vdiv hi.hpos] at l1
        have l3 : y * i.uvStride + i.uvStride ≤ i.uv.length := by
          rw [l1, ← Nat.succ_mul, Nat.mul_comm]
          exact Nat.mul_le_mul_left _ hy
        have l4 := luv.1
        unfold pixelAt
        rw [List.length_take, List.length_drop, l4]
        have : y * i.uvStride = i.uvStride * y := Nat.mul_comm ..
        omega
  have hE := vecBlocks_ok 256 ch.count (valsFun A s)
  have h1 := Part.rowEncoderNv_ok hP o s hi.wpos
  have f1 := P.rowEncoderNv_finishes o s ch.count i.width
  unfold Part.toNv rgbxToNv rgbxToNvImpl
  rw [hsrc.accepted hi.wpos hi.hpos hi.w32 hi.h32 hcn (count_le ch), hi.accepted]
  simp only [Outcome.bind_ok]
  cases s with
  | yuv444 =>
    rw [nvEncode444_fin _ (vecBlocks ch.count (valsFun A .yuv444)) f1]
    exact fin _ (nvEncode444_ok hcn hE h1 hr hsrc.full hsrc.cols_le hb)
  | yuv422 =>
    rw [nvEncode422_fin _ (vecBlocks ch.count (valsFun A .yuv422)) f1]
    exact fin _ (nvEncode422_ok hcn hE h1 hr hsrc.full hsrc.cols_le hb)
  | yuv420 =>
    have h2 := Part.rowEncoderNv420_ok hP o hi.wpos
    have f2 := P.rowEncoderNv420_finishes o ch.count i.width
    rw [nvEncode420_fin _ (vecBlocks ch.count (valsFun A .yuv420)) _ f1 f2]
    exact fin _ (nvEncode420_ok hcn hE h1 h2 hr hsrc.full hsrc.cols_le hb (Or.inl rfl))

end

end Verif
