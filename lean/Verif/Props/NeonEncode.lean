import Verif.Lemmas.NeonEncodeVals
import Verif.Props.X86Fast
/-!
# C109–C112: the 8-bit encoders on 64-bit ARM processors with NEON

`rdm` says whether the processor has the rounding multiply-accumulate instructions.
-/
namespace Verif
open Spec X86 Neon

/-! ## What two images have in common -/

/-- The samples of two planar images of the same layout differ by at most `e` in luma and `E` in chroma. -/
def PlanarNear (e E : Nat) (s : Sampling) (i out out' : Planar) : Prop :=
  (∀ x y, x < i.width → y < i.height →
    at' out.y i.yStride x y ≤ at' out'.y i.yStride x y + e ∧
    at' out'.y i.yStride x y ≤ at' out.y i.yStride x y + e) ∧
  (∀ cx cy, cx < cover i.width (hdiv s) → cy < cover i.height (vdiv s) →
    (at' out.u i.uStride cx cy ≤ at' out'.u i.uStride cx cy + E ∧
      at' out'.u i.uStride cx cy ≤ at' out.u i.uStride cx cy + E) ∧
    (at' out.v i.vStride cx cy ≤ at' out'.v i.vStride cx cy + E ∧
      at' out'.v i.vStride cx cy ≤ at' out.v i.vStride cx cy + E))

/-- The same for semi-planar images. -/
def NvNear (e E : Nat) (s : Sampling) (i out out' : BiPlanar) : Prop :=
  (∀ x y, x < i.width → y < i.height →
    at' out.y i.yStride x y ≤ at' out'.y i.yStride x y + e ∧
    at' out'.y i.yStride x y ≤ at' out.y i.yStride x y + e) ∧
  (∀ cx cy, cx < cover i.width (hdiv s) → cy < cover i.height (vdiv s) → ∀ k, k < 2 →
    at' out.uv i.uvStride (2 * cx + k) cy ≤ at' out'.uv i.uvStride (2 * cx + k) cy + E ∧
      at' out'.uv i.uvStride (2 * cx + k) cy ≤ at' out.uv i.uvStride (2 * cx + k) cy + E)

/-- Luma is within `e` of the exact ITU-R luma of its pixel, chroma within `E` of the exact chroma of the
exact mean of the pixels it covers. -/
def PlanarExact (e E : Rat) (ch : Channels) (rg : YuvRange) (m : Matrix) (s : Sampling) (rgba : Buf)
    (stride : Nat) (out : Planar) : Prop :=
  (∀ x y, x < out.width → y < out.height →
    let px := pixelAt rgba stride ch.count x y
    |(at' out.y out.yStride x y : Rat) - exactY 8 rg m (red ch px) (green ch px) (blue ch px)| ≤ e) ∧
  (∀ cx cy, cx < cover out.width (hdiv s) → cy < cover out.height (vdiv s) →
    let blk := block rgba stride ch.count out.width out.height (hdiv s) (vdiv s) cx cy
    let r := mean (blk.map (red ch))
    let g := mean (blk.map (green ch))
    let b := mean (blk.map (blue ch))
    |(at' out.u out.uStride cx cy : Rat) - exactCb 8 rg m r g b| ≤ E ∧
    |(at' out.v out.vStride cx cy : Rat) - exactCr 8 rg m r g b| ≤ E)

/-- The same for semi-planar images. -/
def NvExact (e E : Rat) (o : NVOrder) (ch : Channels) (rg : YuvRange) (m : Matrix) (s : Sampling)
    (rgba : Buf) (stride : Nat) (out : BiPlanar) : Prop :=
  (∀ x y, x < out.width → y < out.height →
    let px := pixelAt rgba stride ch.count x y
    |(at' out.y out.yStride x y : Rat) - exactY 8 rg m (red ch px) (green ch px) (blue ch px)| ≤ e) ∧
  (∀ cx cy, cx < cover out.width (hdiv s) → cy < cover out.height (vdiv s) →
    let blk := block rgba stride ch.count out.width out.height (hdiv s) (vdiv s) cx cy
    let r := mean (blk.map (red ch))
    let g := mean (blk.map (green ch))
    let b := mean (blk.map (blue ch))
    |(at' out.uv out.uvStride (2 * cx + o.uPos) cy : Rat) - exactCb 8 rg m r g b| ≤ E ∧
    |(at' out.uv out.uvStride (2 * cx + o.vPos) cy : Rat) - exactCr 8 rg m r g b| ≤ E)

/-- The shape of a chroma block as it occurs with a subsampling. -/
structure Shape (s : Sampling) (last : Bool) (n : Nat) : Prop extends BlockShape s last n where
  one : s ≠ .yuv420 → n ≤ 2 ∧ last = false

section
variable {Y Y' : Buf → Nat} {U V U' V' : Bool → List Buf → Nat} {ch : Channels} {s : Sampling}
  {rgba : Buf} {stride : Nat}

theorem shape_of {w hh : Nat} (hw : 0 < w) (hh0 : 0 < hh) {cx cy : Nat} (hx : cx < cover w (hdiv s))
    (hy : cy < cover hh (vdiv s)) :
    Shape s (lastColumn w hh (hdiv s) (vdiv s) cx cy)
      (block rgba stride ch.count w hh (hdiv s) (vdiv s) cx cy).length :=
  ⟨block_shape hw hh0 hx hy, fun hs => block_one_row hs⟩

theorem near_by {e E : Nat} {i out out' : Planar} {D : Nat} (hi : GoodPlanar i s D) (hb : Bytes rgba)
    (h : EncodedBy Y U V ch.count s rgba stride i out)
    (h' : EncodedBy Y' U' V' ch.count s rgba stride i out')
    (hY : ∀ px : Buf, (∀ a ∈ px, a < 256) → Y px ≤ Y' px + e ∧ Y' px ≤ Y px + e)
    (hC : ∀ last l, Shape s last l.length → (∀ px ∈ l, ∀ a ∈ px, a < 256) →
      (U last l ≤ U' last l + E ∧ U' last l ≤ U last l + E) ∧
      (V last l ≤ V' last l + E ∧ V' last l ≤ V last l + E)) : PlanarNear e E s i out out' := by
  constructor
  · intro x y hx hy
    rw [frameSpec_at h.y hx hy, frameSpec_at h'.y hx hy]
    exact hY _ (mem_pixelAt hb)
  · intro cx cy hx hy
    rw [frameSpec_at h.u hx hy, frameSpec_at h'.u hx hy, frameSpec_at h.v hx hy, frameSpec_at h'.v hx hy]
    exact hC _ _ (shape_of hi.wpos hi.hpos hx hy) (mem_block hb)

theorem nvNear_by {e E : Nat} {o : NVOrder} {i out out' : BiPlanar} {D : Nat} (hi : GoodBiPlanar i s D)
    (hb : Bytes rgba) (h : NvEncodedBy Y U V o ch.count s rgba stride i out)
    (h' : NvEncodedBy Y' U' V' o ch.count s rgba stride i out')
    (hY : ∀ px : Buf, (∀ a ∈ px, a < 256) → Y px ≤ Y' px + e ∧ Y' px ≤ Y px + e)
    (hC : ∀ last l, Shape s last l.length → (∀ px ∈ l, ∀ a ∈ px, a < 256) →
      (U last l ≤ U' last l + E ∧ U' last l ≤ U last l + E) ∧
      (V last l ≤ V' last l + E ∧ V' last l ≤ V last l + E)) : NvNear e E s i out out' := by
  constructor
  · intro x y hx hy
    rw [frameSpec_at h.y hx hy, frameSpec_at h'.y hx hy]
    exact hY _ (mem_pixelAt hb)
  · intro cx cy hx hy k hk
    obtain ⟨a1, a2⟩ := h.parts hx hy
    obtain ⟨b1, b2⟩ := h'.parts hx hy
    have : k = o.uPos ∨ k = o.vPos := by cases o <;> simp only [NVOrder.uPos, NVOrder.vPos] <;> omega
    have c := hC _ _ (shape_of (ch := ch) (rgba := rgba) (stride := stride) hi.wpos hi.hpos hx hy)
      (mem_block hb)
    rcases this with rfl | rfl
    · rw [a1, b1]; exact c.1
    · rw [a2, b2]; exact c.2

theorem exact_by {e E : Rat} {rg : YuvRange} {m : Matrix} {i out : Planar} {D : Nat}
    (hi : GoodPlanar i s D) (hb : Bytes rgba) (h : EncodedBy Y U V ch.count s rgba stride i out)
    (hY : ∀ px : Buf, (∀ a ∈ px, a < 256) →
      |(Y px : Rat) - exactY 8 rg m (red ch px) (green ch px) (blue ch px)| ≤ e)
    (hC : ∀ last l, Shape s last l.length → (∀ px ∈ l, ∀ a ∈ px, a < 256) →
      |(U last l : Rat) - exactCb 8 rg m (mean (l.map (red ch))) (mean (l.map (green ch)))
        (mean (l.map (blue ch)))| ≤ E ∧
      |(V last l : Rat) - exactCr 8 rg m (mean (l.map (red ch))) (mean (l.map (green ch)))
        (mean (l.map (blue ch)))| ≤ E) : PlanarExact e E ch rg m s rgba stride out := by
  obtain ⟨g1, g2, g3, g4, g5⟩ := h.geometry
  unfold PlanarExact
  rw [g1, g2, g3, g4, g5]
  constructor
  · intro x y hx hy px
    rw [frameSpec_at h.y hx hy]
    exact hY _ (mem_pixelAt hb)
  · intro cx cy hx hy
    rw [frameSpec_at h.u hx hy, frameSpec_at h.v hx hy]
    exact hC _ _ (shape_of hi.wpos hi.hpos hx hy) (mem_block hb)

theorem nvExact_by {e E : Rat} {o : NVOrder} {rg : YuvRange} {m : Matrix} {i out : BiPlanar} {D : Nat}
    (hi : GoodBiPlanar i s D) (hb : Bytes rgba) (h : NvEncodedBy Y U V o ch.count s rgba stride i out)
    (hY : ∀ px : Buf, (∀ a ∈ px, a < 256) →
      |(Y px : Rat) - exactY 8 rg m (red ch px) (green ch px) (blue ch px)| ≤ e)
    (hC : ∀ last l, Shape s last l.length → (∀ px ∈ l, ∀ a ∈ px, a < 256) →
      |(U last l : Rat) - exactCb 8 rg m (mean (l.map (red ch))) (mean (l.map (green ch)))
        (mean (l.map (blue ch)))| ≤ E ∧
      |(V last l : Rat) - exactCr 8 rg m (mean (l.map (red ch))) (mean (l.map (green ch)))
        (mean (l.map (blue ch)))| ≤ E) : NvExact e E o ch rg m s rgba stride out := by
  obtain ⟨g1, g2, g3, g4⟩ := h.geometry
  unfold NvExact
  rw [g1, g2, g3, g4]
  constructor
  · intro x y hx hy px
    rw [frameSpec_at h.y hx hy]
    exact hY _ (mem_pixelAt hb)
  · intro cx cy hx hy
    obtain ⟨a1, a2⟩ := h.parts hx hy
    rw [a1, a2]
    exact hC _ _ (shape_of hi.wpos hi.hpos hx hy) (mem_block hb)
end

/-! ## C109: the balanced mode -/

/-- C109: on a processor with NEON, with or without RDM, the planar encoder returns normally, fills all
three planes with the stated values and leaves their padding alone. -/
theorem c109_neon_encode (rdm : Bool) (ch : Channels) (s : Sampling) (i : Planar) (rgba : Buf)
    (stride : Nat) (rg : YuvRange) (m : Matrix) (D : Nat) (hi : GoodPlanar i s D)
    (hsrc : GoodDst rgba.length stride i.width i.height ch.count) (hb : Bytes rgba) :
    ∃ out, rgbxToYuvNeon rdm ch s i rgba stride rg m = .ok out ∧
      EncodedBy (neonVals rdm ch rg m).y ((neonVals rdm ch rg m).cb s) ((neonVals rdm ch rg m).cr s)
        ch.count s rgba stride i out := by
  unfold rgbxToYuvNeon
  cases rdm
  · simp only [Bool.false_eq_true, if_false]
    exact part_encode (bal_ok rg m ch) .balanced s i rgba stride rg m D hi hsrc hb
  · simp only [if_true]
    exact rows_encode .balanced s i rgba stride rg m D
      (rowEncoder2_ok (rdm16_ok rg m true ch) (rdm8_ok rg m ch) s hi.wpos) (rowEncoder2_finishes _ _ _ _ _)
      (rowEncoder2x420_ok (rdm16_ok rg m false ch) (rdm8_ok rg m ch) hi.wpos)
      (rowEncoder2x420_finishes _ _ _ _) hi hsrc hb

/-- C109, semi-planar. -/
theorem c109_neon_nv_encode (rdm : Bool) (o : NVOrder) (ch : Channels) (s : Sampling) (i : BiPlanar)
    (rgba : Buf) (stride : Nat) (rg : YuvRange) (m : Matrix) (D : Nat) (hi : GoodBiPlanar i s D)
    (hsrc : GoodDst rgba.length stride i.width i.height ch.count) (hb : Bytes rgba) :
    ∃ out, rgbxToNvNeon rdm o ch s i rgba stride rg m = .ok out ∧
      NvEncodedBy (neonVals rdm ch rg m).y ((neonVals rdm ch rg m).cb s) ((neonVals rdm ch rg m).cr s)
        o ch.count s rgba stride i out := by
  unfold rgbxToNvNeon
  cases rdm
  · simp only [Bool.false_eq_true, if_false]
    exact rows_nv_encode .balanced o s i rgba stride rg m D
      (Part.rowEncoderNv_ok (balU_ok rg m ch) o s hi.wpos) (Part.rowEncoderNv_finishes _ _ _ _ _)
      (fun _ => Part.rowEncoderNv420_ok (bal_ok rg m ch) o hi.wpos)
      (Part.rowEncoderNv420_finishes _ _ _ _) hi hsrc hb
  · simp only [if_true]
    exact rows_nv_encode .balanced o s i rgba stride rg m D
      (rowEncoderNv2_ok (rdm16_ok rg m false ch) (rdm8_ok rg m ch) o s hi.wpos)
      (rowEncoderNv2_finishes _ _ _ _ _ _)
      (fun _ => Part.rowEncoderNv420_ok (rdm16_ok rg m false ch) o hi.wpos)
      (Part.rowEncoderNv420_finishes _ _ _ _) hi hsrc hb

/-- C109: the encoded planes depend on the source pixels only. -/
theorem c109_source_pixels_only (rdm : Bool) (ch : Channels) (s : Sampling) (i : Planar)
    (rgba rgba' : Buf) (stride stride' : Nat) (rg : YuvRange) (m : Matrix) (D : Nat)
    (hi : GoodPlanar i s D) (hsrc : GoodDst rgba.length stride i.width i.height ch.count)
    (hsrc' : GoodDst rgba'.length stride' i.width i.height ch.count)
    (hb : Bytes rgba) (hb' : Bytes rgba')
    (hsame : ∀ x y, x < i.width → y < i.height →
      pixelAt rgba stride ch.count x y = pixelAt rgba' stride' ch.count x y) :
    ∃ out, rgbxToYuvNeon rdm ch s i rgba stride rg m = .ok out ∧
      rgbxToYuvNeon rdm ch s i rgba' stride' rg m = .ok out := by
  obtain ⟨out, e, h⟩ := c109_neon_encode rdm ch s i rgba stride rg m D hi hsrc hb
  obtain ⟨out', e', h'⟩ := c109_neon_encode rdm ch s i rgba' stride' rg m D hi hsrc' hb'
  exact ⟨out, e, by rw [e', EncodedBy.unique hsame h h']⟩

/-- C109: the planar and the semi-planar encoder give the same picture. -/
theorem c109_nv_planar_agree (rdm : Bool) (o : NVOrder) (ch : Channels) (s : Sampling)
    (i : BiPlanar) (j : Planar) (rgba : Buf) (stride : Nat) (rg : YuvRange) (m : Matrix) (D D' : Nat)
    (hi : GoodBiPlanar i s D) (hj : GoodPlanar j s D') (hw : i.width = j.width)
    (hh : i.height = j.height) (hsrc : GoodDst rgba.length stride i.width i.height ch.count)
    (hb : Bytes rgba) :
    ∃ nv pl, rgbxToNvNeon rdm o ch s i rgba stride rg m = .ok nv ∧
      rgbxToYuvNeon rdm ch s j rgba stride rg m = .ok pl ∧ SamePicture nv o pl s := by
  obtain ⟨nv, e1, h1⟩ := c109_neon_nv_encode rdm o ch s i rgba stride rg m D hi hsrc hb
  have hsrc' := hsrc
  rw [hw, hh] at hsrc'
  obtain ⟨pl, e2, h2⟩ := c109_neon_encode rdm ch s j rgba stride rg m D' hj hsrc' hb
  exact ⟨nv, pl, e1, e2, samePicture_by hw hh h1 h2⟩

/-- C109: NV21 (NV61, NV42) is NV12 (NV16, NV24) with the elements of every pair exchanged. -/
theorem c109_nv21_is_swapped_nv12 (rdm : Bool) (ch : Channels) (s : Sampling) (i : BiPlanar)
    (rgba : Buf) (stride : Nat) (rg : YuvRange) (m : Matrix) (D : Nat) (hi : GoodBiPlanar i s D)
    (hsrc : GoodDst rgba.length stride i.width i.height ch.count) (hb : Bytes rgba) :
    ∃ a b, rgbxToNvNeon rdm .uv ch s i rgba stride rg m = .ok a ∧
      rgbxToNvNeon rdm .vu ch s i rgba stride rg m = .ok b ∧
      a.y = b.y ∧
      ∀ cx cy, cx < cover i.width (hdiv s) → cy < cover i.height (vdiv s) →
        at' a.uv i.uvStride (2 * cx) cy = at' b.uv i.uvStride (2 * cx + 1) cy ∧
        at' a.uv i.uvStride (2 * cx + 1) cy = at' b.uv i.uvStride (2 * cx) cy := by
  obtain ⟨a, e1, h1⟩ := c109_neon_nv_encode rdm .uv ch s i rgba stride rg m D hi hsrc hb
  obtain ⟨b, e2, h2⟩ := c109_neon_nv_encode rdm .vu ch s i rgba stride rg m D hi hsrc hb
  exact ⟨a, b, e1, e2, swapped_by h1 h2⟩

/-! ## C110: agreement and accuracy of the balanced mode -/

/-- Largest difference of luma from the portable encoder. -/
def neonGapY (rdm : Bool) : Nat := if rdm then 1 else 0
/-- Largest difference of chroma. -/
def neonGapC (rdm : Bool) (s : Sampling) : Nat := if rdm ∨ s = .yuv420 then 1 else 0

theorem same_of {n : Nat} {avg avg' : List Nat → Nat} (h : ∀ l : List Nat, l.length = n → avg l = avg' l)
    {q : Nat} {ch : Channels} {rg : YuvRange} {m : Matrix} {l : List Buf} (hl : l.length = n) :
    cb8 q ch rg m avg l = cb8 q ch rg m avg' l ∧ cr8 q ch rg m avg l = cr8 q ch rg m avg' l := by
  unfold cb8 cr8
  rw [h (l.map (red ch)) (by simpa using hl), h (l.map (green ch)) (by simpa using hl),
    h (l.map (blue ch)) (by simpa using hl)]
  exact ⟨rfl, rfl⟩

theorem neon_luma_near (rdm : Bool) (ch : Channels) (rg : YuvRange) (m : Matrix) (px : Buf)
    (hb : ∀ a ∈ px, a < 256) :
    (neonVals rdm ch rg m).y px ≤ luma8 13 ch rg m px + neonGapY rdm ∧
      luma8 13 ch rg m px ≤ (neonVals rdm ch rg m).y px + neonGapY rdm := by
  cases rdm
  · exact ⟨le_rfl, le_rfl⟩
  · have := rdmLuma_scalar ch rg m hb
    unfold neonGapY
    simp only [if_true]
    omega

theorem neon_chroma_near (rdm : Bool) (ch : Channels) (rg : YuvRange) (m : Matrix) {s : Sampling}
    {avg : Bool → List Nat → Nat}
    (ha : ∀ last n, BlockShape s last n → MeanPair n (avg last) balMean ∧ RdmNear n (avg last))
    (hf : avg false = avgUp) (last : Bool) (l : List Buf) (hl : Shape s last l.length)
    (hb : ∀ px ∈ l, ∀ a ∈ px, a < 256) :
    let U' := cb8 13 ch rg m (avg last) l
    let V' := cr8 13 ch rg m (avg last) l
    ((neonVals rdm ch rg m).cb s last l ≤ U' + neonGapC rdm s ∧
      U' ≤ (neonVals rdm ch rg m).cb s last l + neonGapC rdm s) ∧
    ((neonVals rdm ch rg m).cr s last l ≤ V' + neonGapC rdm s ∧
      V' ≤ (neonVals rdm ch rg m).cr s last l + neonGapC rdm s) := by
  intro U' V'
  obtain ⟨h1, h2⟩ := ha _ _ hl.toBlockShape
  cases rdm
  · obtain ⟨e1, e2⟩ := bal_chroma ch rg m hl.toBlockShape
    rw [e1, e2]
    by_cases hs : s = .yuv420
    · have hE : neonGapC false s = 1 := by unfold neonGapC; simp [hs]
      rw [hE]
      exact chroma_step (.inr (.inl rfl)) ch rg m hb h1
    · obtain ⟨n2, rfl⟩ := hl.one hs
      obtain ⟨c1, c2⟩ := same_of (q := 13) (ch := ch) (rg := rg) (m := m) (avg := avgUp) (avg' := balMean)
        (fun l' h' => (balMean_up hl.len h').2 n2) (l := l) rfl
      simp only [U', V', hf]
      rw [c1, c2]
      omega
  · have hE : neonGapC true s = 1 := by unfold neonGapC; simp
    rw [hE]
    exact rdmChroma_scalar ch rg m hl.toBlockShape hb h2

/-- C110: without RDM the planar encoder stores what the portable one does, but for 4:2:0 chroma, which
may differ by one.  With RDM luma and chroma differ by at most one. -/
theorem c110_portable_agreement (rdm : Bool) (ch : Channels) (s : Sampling) (i : Planar) (rgba : Buf)
    (stride : Nat) (rg : YuvRange) (m : Matrix) (D : Nat) (hi : GoodPlanar i s D)
    (hsrc : GoodDst rgba.length stride i.width i.height ch.count) (hb : Bytes rgba) :
    ∃ out out', rgbxToYuvNeon rdm ch s i rgba stride rg m = .ok out ∧
      rgbxToYuv x64 .balanced ch s noEnc noEnc420 i rgba stride rg m = .ok out' ∧
      PlanarNear (if rdm then 1 else 0) (if rdm ∨ s = .yuv420 then 1 else 0) s i out out' := by
  obtain ⟨out, e, h⟩ := c109_neon_encode rdm ch s i rgba stride rg m D hi hsrc hb
  obtain ⟨out', e', h'⟩ := scalar_encodedBy .balanced ch s i rgba stride rg m D hi hsrc hb
  exact ⟨out, out', e, e', near_by hi hb h h' (neon_luma_near rdm ch rg m)
    (neon_chroma_near rdm ch rg m (avg := avgOf) (fun _ _ h => ⟨(pair_bal h).1, (rdmNear h).1⟩) rfl)⟩

/-- C110, semi-planar. -/
theorem c110_nv_portable_agreement (rdm : Bool) (o : NVOrder) (ch : Channels) (s : Sampling) (i : BiPlanar)
    (rgba : Buf) (stride : Nat) (rg : YuvRange) (m : Matrix) (D : Nat) (hi : GoodBiPlanar i s D)
    (hsrc : GoodDst rgba.length stride i.width i.height ch.count) (hb : Bytes rgba) :
    ∃ out out', rgbxToNvNeon rdm o ch s i rgba stride rg m = .ok out ∧
      rgbxToNv x64 .balanced o ch s noEncNV noEncNV420 i rgba stride rg m = .ok out' ∧
      NvNear (if rdm then 1 else 0) (if rdm ∨ s = .yuv420 then 1 else 0) s i out out' := by
  obtain ⟨out, e, h⟩ := c109_neon_nv_encode rdm o ch s i rgba stride rg m D hi hsrc hb
  obtain ⟨out', e', h'⟩ := scalar_nvEncodedBy .balanced o ch s i rgba stride rg m D hi hsrc hb
  exact ⟨out, out', e, e', nvNear_by hi hb h h' (neon_luma_near rdm ch rg m)
    (neon_chroma_near rdm ch rg m (avg := fun _ => avgUp) (fun _ _ h => ⟨(pair_bal h).2, (rdmNear h).2⟩) rfl)⟩

theorem bal_luma_exact (ch : Channels) (rg : YuvRange) (m : Matrix) (px : Buf) (hb : ∀ a ∈ px, a < 256) :
    |((neonVals false ch rg m).y px : Rat) - exactY 8 rg m (red ch px) (green ch px) (blue ch px)|
      ≤ 55 / 100 := by
  obtain ⟨h1, h2, h3⟩ := comps_lt (by omega) ch hb
  exact (low8_encode (p := 13) (Or.inl rfl) rg m h1 h2 h3).2.1

theorem prof_luma_exact (ch : Channels) (rg : YuvRange) (m : Matrix) (px : Buf) (hb : ∀ a ∈ px, a < 256) :
    |((neonProfVals ch rg m).y px : Rat) - exactY 8 rg m (red ch px) (green ch px) (blue ch px)|
      ≤ 55 / 100 := by
  obtain ⟨h1, h2, h3⟩ := comps_lt (by omega) ch hb
  exact (low8_encode (p := 15) (Or.inr rfl) rg m h1 h2 h3).2.1

/-- The bound of subsampled chroma with an average rounded up. -/
theorem shape_bound {s : Sampling} {last : Bool} {n : Nat} (hl : Shape s last n) {a b : Rat} (hab : a ≤ b) :
    (if n = 1 then a else b) ≤ (if s = .yuv444 then a else b) := by
  by_cases hs : s = .yuv444
  · rw [if_pos hs, if_pos (hl.full hs).1]
  · rw [if_neg hs]; split
    · exact hab
    · exact le_rfl

theorem neon_luma_exact (rdm : Bool) (ch : Channels) (rg : YuvRange) (m : Matrix) (px : Buf)
    (hb : ∀ a ∈ px, a < 256) :
    |((neonVals rdm ch rg m).y px : Rat) - exactY 8 rg m (red ch px) (green ch px) (blue ch px)|
      ≤ if rdm then 118 / 100 else 55 / 100 := by
  cases rdm
  · exact bal_luma_exact ch rg m px hb
  · exact rdmLuma_exact ch rg m hb

theorem neon_chroma_exact (rdm : Bool) (ch : Channels) (rg : YuvRange) (m : Matrix) {s : Sampling}
    (last : Bool) (l : List Buf) (hl : Shape s last l.length) (hb : ∀ px ∈ l, ∀ a ∈ px, a < 256) :
    let E : Rat := if rdm then 93 / 100 else if s = .yuv444 then 55 / 100 else 105 / 100
    |((neonVals rdm ch rg m).cb s last l : Rat) - exactCb 8 rg m (mean (l.map (red ch)))
      (mean (l.map (green ch))) (mean (l.map (blue ch)))| ≤ E ∧
    |((neonVals rdm ch rg m).cr s last l : Rat) - exactCr 8 rg m (mean (l.map (red ch)))
      (mean (l.map (green ch))) (mean (l.map (blue ch)))| ≤ E := by
  intro E
  cases rdm
  · obtain ⟨e1, e2⟩ := bal_chroma ch rg m hl.toBlockShape
    rw [e1, e2]
    have h := chroma_mean_exact (q := 13) (.inl rfl) ch rg m hb (meanNear_bal hl.len)
    have hE := shape_bound hl (a := 55 / 100) (b := 105 / 100) (by norm_num)
    exact ⟨h.1.trans hE, h.2.trans hE⟩
  · exact rdmChroma_exact ch rg m hl.toBlockShape hb

/-- C110 against the standard, planar.  Without RDM the bounds are those of the portable encoder (0.55
code values in luma and unsubsampled chroma, 1.05 in subsampled chroma).  With RDM they are 1.18 in luma
and 0.93 in chroma of whatever subsampling. -/
theorem c110_accuracy (rdm : Bool) (ch : Channels) (s : Sampling) (i : Planar) (rgba : Buf)
    (stride : Nat) (rg : YuvRange) (m : Matrix) (D : Nat) (hi : GoodPlanar i s D)
    (hsrc : GoodDst rgba.length stride i.width i.height ch.count) (hb : Bytes rgba) :
    ∃ out, rgbxToYuvNeon rdm ch s i rgba stride rg m = .ok out ∧
      PlanarExact (if rdm then 118 / 100 else 55 / 100)
        (if rdm then 93 / 100 else if s = .yuv444 then 55 / 100 else 105 / 100) ch rg m s rgba stride out := by
  obtain ⟨out, e, h⟩ := c109_neon_encode rdm ch s i rgba stride rg m D hi hsrc hb
  exact ⟨out, e, exact_by hi hb h (neon_luma_exact rdm ch rg m) (neon_chroma_exact rdm ch rg m)⟩

/-- C110 against the standard, semi-planar. -/
theorem c110_nv_accuracy (rdm : Bool) (o : NVOrder) (ch : Channels) (s : Sampling) (i : BiPlanar) (rgba : Buf)
    (stride : Nat) (rg : YuvRange) (m : Matrix) (D : Nat) (hi : GoodBiPlanar i s D)
    (hsrc : GoodDst rgba.length stride i.width i.height ch.count) (hb : Bytes rgba) :
    ∃ out, rgbxToNvNeon rdm o ch s i rgba stride rg m = .ok out ∧
      NvExact (if rdm then 118 / 100 else 55 / 100)
        (if rdm then 93 / 100 else if s = .yuv444 then 55 / 100 else 105 / 100) o ch rg m s rgba stride
        out := by
  obtain ⟨out, e, h⟩ := c109_neon_nv_encode rdm o ch s i rgba stride rg m D hi hsrc hb
  exact ⟨out, e, nvExact_by hi hb h (neon_luma_exact rdm ch rg m) (neon_chroma_exact rdm ch rg m)⟩

/-- C110: in limited range luma stays within 16 … 235 and chroma within 16 … 240. -/
theorem c110_nominal_range (rdm : Bool) (ch : Channels) (s : Sampling) (i : Planar) (rgba : Buf)
    (stride : Nat) (m : Matrix) (D : Nat) (hi : GoodPlanar i s D)
    (hsrc : GoodDst rgba.length stride i.width i.height ch.count) (hb : Bytes rgba) :
    ∃ out, rgbxToYuvNeon rdm ch s i rgba stride .limited m = .ok out ∧
      (∀ x y, x < i.width → y < i.height → 16 ≤ at' out.y i.yStride x y ∧ at' out.y i.yStride x y ≤ 235) ∧
      (∀ cx cy, cx < cover i.width (hdiv s) → cy < cover i.height (vdiv s) →
        (16 ≤ at' out.u i.uStride cx cy ∧ at' out.u i.uStride cx cy ≤ 240) ∧
        (16 ≤ at' out.v i.vStride cx cy ∧ at' out.v i.vStride cx cy ≤ 240)) := by
  obtain ⟨out, e, h⟩ := c109_neon_encode rdm ch s i rgba stride .limited m D hi hsrc hb
  refine ⟨out, e, fun x y hx hy => ?_, fun cx cy hx hy => ?_⟩
  · rw [frameSpec_at h.y hx hy]
    exact (neon_nominal rdm (s := s) (last := false) ch m).1 _ (mem_pixelAt hb)
  · rw [frameSpec_at h.u hx hy, frameSpec_at h.v hx hy]
    exact (neon_nominal rdm ch m).2 _ (shape_of hi.wpos hi.hpos hx hy).toBlockShape (mem_block hb)

/-- The hypotheses of C109–C112 are met. -/
example : GoodBiPlanar demoDstNV .yuv420 256 ∧ GoodPlanar demoDst420 .yuv420 256 ∧
    demoDstNV.width = demoDst420.width ∧ demoDstNV.height = demoDst420.height ∧
    GoodDst demoRgb.length 11 3 3 3 ∧ Bytes demoRgb :=
  ⟨demoDstNV_good, demoDst420_good, rfl, rfl, ⟨by unfold U32; decide, by decide, by
    unfold FullRows; decide, by decide⟩, by unfold Bytes; decide⟩

theorem demoRgb_src : GoodDst demoRgb.length 11 3 3 3 ∧ Bytes demoRgb :=
  ⟨⟨by unfold U32; decide, by decide, by unfold FullRows; decide, by decide⟩, by unfold Bytes; decide⟩

/-- Processors with and without RDM do differ: luma of a pixel of the 3×3 demonstration image. -/
theorem c110_rdm_differs :
    ∃ out out', rgbxToYuvNeon true .rgb .yuv420 demoDst420 demoRgb 11 .limited .bt601 = .ok out ∧
      rgbxToYuvNeon false .rgb .yuv420 demoDst420 demoRgb 11 .limited .bt601 = .ok out' ∧
      at' out.y 4 1 0 = 144 ∧ at' out'.y 4 1 0 = 145 := by
  obtain ⟨out, e, h⟩ := c109_neon_encode true .rgb .yuv420 demoDst420 demoRgb 11 .limited .bt601 256
    demoDst420_good demoRgb_src.1 demoRgb_src.2
  obtain ⟨out', e', h'⟩ := c109_neon_encode false .rgb .yuv420 demoDst420 demoRgb 11 .limited .bt601 256
    demoDst420_good demoRgb_src.1 demoRgb_src.2
  refine ⟨out, out', e, e', ?_, ?_⟩
  · exact (frameSpec_at h.y (x := 1) (y := 0) (by decide) (by decide)).trans (by decide +kernel)
  · exact (frameSpec_at h'.y (x := 1) (y := 0) (by decide) (by decide)).trans (by decide +kernel)

/-! ## C111: the professional mode -/

/-- C111: the planar encoder returns normally, fills all three planes with the stated values and leaves
their padding alone. -/
theorem c111_prof_encode (ch : Channels) (s : Sampling) (i : Planar) (rgba : Buf)
    (stride : Nat) (rg : YuvRange) (m : Matrix) (D : Nat) (hi : GoodPlanar i s D)
    (hsrc : GoodDst rgba.length stride i.width i.height ch.count) (hb : Bytes rgba) :
    ∃ out, rgbxToYuvProfNeon ch s i rgba stride rg m = .ok out ∧
      EncodedBy (neonProfVals ch rg m).y ((neonProfVals ch rg m).cb s) ((neonProfVals ch rg m).cr s)
        ch.count s rgba stride i out :=
  rows_encode .professional s i rgba stride rg m D
    (Part.rowEncoder_ok (prof_ok rg m false ch) s hi.wpos) (Part.rowEncoder_finishes _ _ _ _)
    (Part.rowEncoder420_ok (prof_ok rg m true ch) hi.wpos) (Part.rowEncoder420_finishes _ _ _) hi hsrc hb

/-- C111, semi-planar.  Missing: NV21 with 4:2:0 (`c111_nv21_is_nv12`, `c111_nv21_order_wrong`). -/
theorem c111_prof_nv_encode_partial (o : NVOrder) (ch : Channels) (s : Sampling)
    (ho : o = .uv ∨ s ≠ .yuv420) (i : BiPlanar)
    (rgba : Buf) (stride : Nat) (rg : YuvRange) (m : Matrix) (D : Nat) (hi : GoodBiPlanar i s D)
    (hsrc : GoodDst rgba.length stride i.width i.height ch.count) (hb : Bytes rgba) :
    ∃ out, rgbxToNvProfNeon o ch s i rgba stride rg m = .ok out ∧
      NvEncodedBy (neonProfVals ch rg m).y ((neonProfVals ch rg m).cb s) ((neonProfVals ch rg m).cr s)
        o ch.count s rgba stride i out := by
  refine rows_nv_encode .professional o s i rgba stride rg m D
    (Part.rowEncoderNv_ok (prof_ok rg m false ch) o s hi.wpos) (Part.rowEncoderNv_finishes _ _ _ _ _)
    (fun hs => ?_) (Part.rowEncoderNv420_finishes _ _ _ _) hi hsrc hb
  obtain rfl : o = .uv := ho.resolve_right fun h => h hs
  exact Part.rowEncoderNv420_ok (prof_ok rg m true ch) .uv hi.wpos

theorem nvEncDoubledRow_order {f2 : RowEncoderNV420} {w : Nat} (h : FinishesNv2 f2 w) (b : Bool) (cn : Nat)
    (E : PixelBlocks) (o o' : NVOrder) :
    nvEncDoubledRow b w cn o E f2 = nvEncDoubledRow b w cn o' E f2 := by
  funext y0 y1 uv rgba0 rgba1
  unfold nvEncDoubledRow
  cases hh : f2 y0 y1 uv rgba0 rgba1 with
  | ok r =>
    obtain ⟨a, b, c, cx⟩ := r
    obtain rfl : cx = w := h _ _ _ _ _ _ hh
    simp only [Outcome.bind_ok, if_true]
  | err e => rfl
  | panic => rfl

/-- C111 violated: a 4:2:0 image of even height becomes NV12 although NV21 is asked for. -/
theorem c111_nv21_is_nv12 (ch : Channels) (i : BiPlanar) (hh : i.height % 2 = 0) (rgba : Buf)
    (stride : Nat) (rg : YuvRange) (m : Matrix) :
    rgbxToNvProfNeon .vu ch .yuv420 i rgba stride rg m
      = rgbxToNvProfNeon .uv ch .yuv420 i rgba stride rg m := by
  unfold rgbxToNvProfNeon rgbxToNv rgbxToNvImpl nvEncode420
  simp only [if_pos hh]
  rw [nvEncDoubledRow_order (Part.rowEncoderNv420_finishes _ _ _ _) _ _ _ .vu .uv]

/-- A 2×2 image. -/
def demoNv2 : BiPlanar :=
  { y := List.replicate 4 7, yStride := 2, uv := List.replicate 2 7, uvStride := 2, width := 2, height := 2 }

theorem demoNv2_good : GoodBiPlanar demoNv2 .yuv420 256 where
  wpos := by decide
  hpos := by decide
  w32 := by unfold U32; decide
  h32 := by unfold U32; decide
  y := ⟨by unfold U32; decide, by decide, by unfold FullRows; decide, by decide⟩
  uvStride32 := by unfold U32; decide
  uvStride := by decide
  uvLen := by decide
  uvBound := by decide

/-- Four red pixels. -/
def demoRed : Buf := [255, 0, 0, 255, 0, 0, 255, 0, 0, 255, 0, 0]

/-- C111 violated, concretely: of red the NV21 encoder stores Cb 90, Cr 240 in this order; the portable
encoder stores 240, 90. -/
theorem c111_nv21_order_wrong :
    ∃ out out', rgbxToNvProfNeon .vu .rgb .yuv420 demoNv2 demoRed 6 .limited .bt601 = .ok out ∧
      rgbxToNv x64 .professional .vu .rgb .yuv420 noEncNV noEncNV420 demoNv2 demoRed 6 .limited .bt601
        = .ok out' ∧ out.uv = [90, 240] ∧ out'.uv = [240, 90] := by
  have hsrc : GoodDst demoRed.length 6 2 2 3 :=
    ⟨by unfold U32; decide, by decide, by unfold FullRows; decide, by decide⟩
  have hb : Bytes demoRed := by unfold Bytes; decide
  obtain ⟨out, e, h⟩ := c111_prof_nv_encode_partial .uv .rgb .yuv420 (.inl rfl) demoNv2 demoRed 6 .limited
    .bt601 256 demoNv2_good hsrc hb
  have pair : ∀ {l : List Nat}, l.length = 2 → ∀ {a b : Nat}, l.getD 0 0 = a → l.getD 1 0 = b →
      l = [a, b] := by
    intro l hl a b h1 h2
    match l, hl with
    | [x, y], _ =>
      obtain rfl : x = a := h1
      obtain rfl : y = b := h2
      rfl
  refine ⟨out, { demoNv2 with y := [81, 81, 81, 81], uv := [240, 90] }, ?_, by decide +kernel, ?_, rfl⟩
  · rw [c111_nv21_is_nv12 _ _ rfl]; exact e
  · obtain ⟨a1, a2⟩ := h.parts (cx := 0) (cy := 0) (by decide) (by decide)
    exact pair h.uv.1 (a1.trans (by decide +kernel)) (a2.trans (by decide +kernel))

theorem prof_chroma_near (ch : Channels) (rg : YuvRange) (m : Matrix) {s : Sampling}
    {avg : Bool → List Nat → Nat} (ha : ∀ last n, BlockShape s last n → MeanPair n (avg last) fastMean)
    (hf : avg false = avgUp) (last : Bool) (l : List Buf) (hl : Shape s last l.length)
    (hb : ∀ px ∈ l, ∀ a ∈ px, a < 256) :
    let U' := cb8 15 ch rg m (avg last) l
    let V' := cr8 15 ch rg m (avg last) l
    let E := if s = .yuv420 then 1 else 0
    ((neonProfVals ch rg m).cb s last l ≤ U' + E ∧ U' ≤ (neonProfVals ch rg m).cb s last l + E) ∧
    ((neonProfVals ch rg m).cr s last l ≤ V' + E ∧ V' ≤ (neonProfVals ch rg m).cr s last l + E) := by
  intro U' V' E
  obtain ⟨e1, e2⟩ := prof_chroma ch rg m hl.toBlockShape
  rw [e1, e2]
  by_cases hs : s = .yuv420
  · have hE : E = 1 := if_pos hs
    rw [hE]
    exact chroma_step (.inr (.inr rfl)) ch rg m hb (ha _ _ hl.toBlockShape)
  · obtain ⟨n2, rfl⟩ := hl.one hs
    obtain ⟨c1, c2⟩ := same_of (q := 15) (ch := ch) (rg := rg) (m := m) (avg := avgUp) (avg' := fastMean)
      (fun l' h' => (fastMean_up hl.len h').2 n2) (l := l) rfl
    simp only [U', V', hf]
    rw [c1, c2]
    omega

/-- C111: planes are those of the portable encoder, but for 4:2:0 chroma, which may differ by one. -/
theorem c111_portable_agreement (ch : Channels) (s : Sampling) (i : Planar) (rgba : Buf)
    (stride : Nat) (rg : YuvRange) (m : Matrix) (D : Nat) (hi : GoodPlanar i s D)
    (hsrc : GoodDst rgba.length stride i.width i.height ch.count) (hb : Bytes rgba) :
    ∃ out out', rgbxToYuvProfNeon ch s i rgba stride rg m = .ok out ∧
      rgbxToYuv x64 .professional ch s noEnc noEnc420 i rgba stride rg m = .ok out' ∧
      PlanarNear 0 (if s = .yuv420 then 1 else 0) s i out out' := by
  obtain ⟨out, e, h⟩ := c111_prof_encode ch s i rgba stride rg m D hi hsrc hb
  obtain ⟨out', e', h'⟩ := scalar_encodedBy .professional ch s i rgba stride rg m D hi hsrc hb
  exact ⟨out, out', e, e', near_by hi hb h h' (fun _ _ => ⟨le_rfl, le_rfl⟩)
    (prof_chroma_near ch rg m (avg := avgOf) (fun _ _ h => (pair_prof h).1) rfl)⟩

/-- C111, semi-planar.  Missing: NV21 with 4:2:0 (`c111_nv21_order_wrong`). -/
theorem c111_nv_portable_agreement_partial (o : NVOrder) (ch : Channels) (s : Sampling)
    (ho : o = .uv ∨ s ≠ .yuv420) (i : BiPlanar)
    (rgba : Buf) (stride : Nat) (rg : YuvRange) (m : Matrix) (D : Nat) (hi : GoodBiPlanar i s D)
    (hsrc : GoodDst rgba.length stride i.width i.height ch.count) (hb : Bytes rgba) :
    ∃ out out', rgbxToNvProfNeon o ch s i rgba stride rg m = .ok out ∧
      rgbxToNv x64 .professional o ch s noEncNV noEncNV420 i rgba stride rg m = .ok out' ∧
      NvNear 0 (if s = .yuv420 then 1 else 0) s i out out' := by
  obtain ⟨out, e, h⟩ := c111_prof_nv_encode_partial o ch s ho i rgba stride rg m D hi hsrc hb
  obtain ⟨out', e', h'⟩ := scalar_nvEncodedBy .professional o ch s i rgba stride rg m D hi hsrc hb
  exact ⟨out, out', e, e', nvNear_by hi hb h h' (fun _ _ => ⟨le_rfl, le_rfl⟩)
    (prof_chroma_near ch rg m (avg := fun _ => avgUp) (fun _ _ h => (pair_prof h).2) rfl)⟩

/-- C111 against the standard: luma and unsubsampled chroma are within 0.55 code values, subsampled chroma
is within 1.05. -/
theorem c111_accuracy (ch : Channels) (s : Sampling) (i : Planar) (rgba : Buf)
    (stride : Nat) (rg : YuvRange) (m : Matrix) (D : Nat) (hi : GoodPlanar i s D)
    (hsrc : GoodDst rgba.length stride i.width i.height ch.count) (hb : Bytes rgba) :
    ∃ out, rgbxToYuvProfNeon ch s i rgba stride rg m = .ok out ∧
      PlanarExact (55 / 100) (if s = .yuv444 then 55 / 100 else 105 / 100) ch rg m s rgba stride out := by
  obtain ⟨out, e, h⟩ := c111_prof_encode ch s i rgba stride rg m D hi hsrc hb
  refine ⟨out, e, exact_by hi hb h (prof_luma_exact ch rg m) fun last l hl hb => ?_⟩
  obtain ⟨e1, e2⟩ := prof_chroma ch rg m hl.toBlockShape
  rw [e1, e2]
  have h := chroma_mean_exact (q := 15) (.inr rfl) ch rg m hb (meanNear_fast hl.len)
  have hE := shape_bound hl (a := 55 / 100) (b := 105 / 100) (by norm_num)
  exact ⟨h.1.trans hE, h.2.trans hE⟩

/-! ## C112: the fast mode -/

/-- C112: the planar encoder returns normally, fills all three planes with the stated values and leaves
their padding alone. -/
theorem c112_fast_encode (ch : Channels) (s : Sampling) (i : Planar) (rgba : Buf)
    (stride : Nat) (rg : YuvRange) (m : Matrix) (D : Nat) (hi : GoodPlanar i s D)
    (hsrc : GoodDst rgba.length stride i.width i.height ch.count) (hb : Bytes rgba) :
    ∃ out, rgbxToYuvFastNeon ch s i rgba stride rg m = .ok out ∧
      EncodedBy (neonFastVals ch rg m).y ((neonFastVals ch rg m).cb s) ((neonFastVals ch rg m).cr s)
        ch.count s rgba stride i out :=
  part_encode (fast_ok rg m ch) .fast s i rgba stride rg m D hi hsrc hb

/-- C112, semi-planar. -/
theorem c112_fast_nv_encode (o : NVOrder) (ch : Channels) (s : Sampling) (i : BiPlanar)
    (rgba : Buf) (stride : Nat) (rg : YuvRange) (m : Matrix) (D : Nat) (hi : GoodBiPlanar i s D)
    (hsrc : GoodDst rgba.length stride i.width i.height ch.count) (hb : Bytes rgba) :
    ∃ out, rgbxToNvFastNeon o ch s i rgba stride rg m = .ok out ∧
      NvEncodedBy (neonFastVals ch rg m).y ((neonFastVals ch rg m).cb s) ((neonFastVals ch rg m).cr s)
        o ch.count s rgba stride i out :=
  part_nv_encode (fast_ok rg m ch) .fast o s i rgba stride rg m D hi hsrc hb

/-- C112: the planar and the semi-planar encoder give the same picture. -/
theorem c112_nv_planar_agree (o : NVOrder) (ch : Channels) (s : Sampling)
    (i : BiPlanar) (j : Planar) (rgba : Buf) (stride : Nat) (rg : YuvRange) (m : Matrix) (D D' : Nat)
    (hi : GoodBiPlanar i s D) (hj : GoodPlanar j s D') (hw : i.width = j.width)
    (hh : i.height = j.height) (hsrc : GoodDst rgba.length stride i.width i.height ch.count)
    (hb : Bytes rgba) :
    ∃ nv pl, rgbxToNvFastNeon o ch s i rgba stride rg m = .ok nv ∧
      rgbxToYuvFastNeon ch s j rgba stride rg m = .ok pl ∧ SamePicture nv o pl s := by
  obtain ⟨nv, e1, h1⟩ := c112_fast_nv_encode o ch s i rgba stride rg m D hi hsrc hb
  have hsrc' := hsrc
  rw [hw, hh] at hsrc'
  obtain ⟨pl, e2, h2⟩ := c112_fast_encode ch s j rgba stride rg m D' hj hsrc' hb
  exact ⟨nv, pl, e1, e2, samePicture_by hw hh h1 h2⟩

theorem fast_chroma_near (ch : Channels) (rg : YuvRange) (m : Matrix) {s : Sampling}
    {avg : Bool → List Nat → Nat} (ha : ∀ last n, BlockShape s last n → MeanPair n downMean (avg last))
    (hf : avg false = avgUp) (last : Bool) (l : List Buf) (hl : Shape s last l.length)
    (hb : ∀ px ∈ l, ∀ a ∈ px, a < 256) :
    let U' := cb8 7 ch rg m (avg last) l
    let V' := cr8 7 ch rg m (avg last) l
    let E := if s = .yuv444 then 0 else 1
    ((neonFastVals ch rg m).cb s last l ≤ U' + E ∧ U' ≤ (neonFastVals ch rg m).cb s last l + E) ∧
    ((neonFastVals ch rg m).cr s last l ≤ V' + E ∧ V' ≤ (neonFastVals ch rg m).cr s last l + E) := by
  intro U' V' E
  obtain ⟨e1, e2⟩ := fast_chroma ch rg m hl.toBlockShape hb
  rw [e1, e2]
  by_cases hs : s = .yuv444
  · have hE : E = 0 := if_pos hs
    obtain ⟨n2, rfl⟩ := hl.one (by rw [hs]; decide)
    have n1 := (hl.full hs).1
    obtain ⟨c1, c2⟩ := same_of (q := 7) (ch := ch) (rg := rg) (m := m) (avg := avgUp) (avg' := downMean)
      (n := 1) (fun l' h' => by
        obtain ⟨a, rfl⟩ := List.length_eq_one_iff.1 h'
        exact Verif.avgUp_one) n1
    simp only [U', V', hf]
    rw [hE, c1, c2]
    exact ⟨⟨le_rfl, le_rfl⟩, le_rfl, le_rfl⟩
  · have hE : E = 1 := if_neg hs
    rw [hE]
    have := chroma_step (.inl rfl) ch rg m hb (ha _ _ hl.toBlockShape)
    exact ⟨this.1.symm, this.2.symm⟩

/-- C112: luma and unsubsampled chroma are those of the portable encoder, subsampled chroma may differ by
one.  Missing: luma of BT.2020 in full range (`c112_bt2020_white`), where the portable byte wraps. -/
theorem c112_portable_agreement_partial (ch : Channels) (s : Sampling) (i : Planar) (rgba : Buf)
    (stride : Nat) (rg : YuvRange) (m : Matrix) (hx : ¬(m = .bt2020 ∧ rg = .full)) (D : Nat)
    (hi : GoodPlanar i s D)
    (hsrc : GoodDst rgba.length stride i.width i.height ch.count) (hb : Bytes rgba) :
    ∃ out out', rgbxToYuvFastNeon ch s i rgba stride rg m = .ok out ∧
      rgbxToYuv x64 .fast ch s noEnc noEnc420 i rgba stride rg m = .ok out' ∧
      PlanarNear 0 (if s = .yuv444 then 0 else 1) s i out out' := by
  obtain ⟨out, e, h⟩ := c112_fast_encode ch s i rgba stride rg m D hi hsrc hb
  obtain ⟨out', e', h'⟩ := scalar_encodedBy .fast ch s i rgba stride rg m D hi hsrc hb
  exact ⟨out, out', e, e', near_by hi hb h h'
    (fun px hp => ⟨(neonFast_luma_scalar hx hp).le, (neonFast_luma_scalar hx hp).ge⟩)
    (fast_chroma_near ch rg m (avg := avgOf) (fun _ _ h => (pair_down h).1) rfl)⟩

/-- C112, semi-planar.  Missing: luma of BT.2020 in full range. -/
theorem c112_nv_portable_agreement_partial (o : NVOrder) (ch : Channels) (s : Sampling) (i : BiPlanar)
    (rgba : Buf) (stride : Nat) (rg : YuvRange) (m : Matrix) (hx : ¬(m = .bt2020 ∧ rg = .full)) (D : Nat)
    (hi : GoodBiPlanar i s D)
    (hsrc : GoodDst rgba.length stride i.width i.height ch.count) (hb : Bytes rgba) :
    ∃ out out', rgbxToNvFastNeon o ch s i rgba stride rg m = .ok out ∧
      rgbxToNv x64 .fast o ch s noEncNV noEncNV420 i rgba stride rg m = .ok out' ∧
      NvNear 0 (if s = .yuv444 then 0 else 1) s i out out' := by
  obtain ⟨out, e, h⟩ := c112_fast_nv_encode o ch s i rgba stride rg m D hi hsrc hb
  obtain ⟨out', e', h'⟩ := scalar_nvEncodedBy .fast o ch s i rgba stride rg m D hi hsrc hb
  exact ⟨out, out', e, e', nvNear_by hi hb h h'
    (fun px hp => ⟨(neonFast_luma_scalar hx hp).le, (neonFast_luma_scalar hx hp).ge⟩)
    (fast_chroma_near ch rg m (avg := fun _ => avgUp) (fun _ _ h => (pair_down h).2) rfl)⟩

theorem fast_chroma_exact (ch : Channels) (rg : YuvRange) (m : Matrix) {s : Sampling}
    (last : Bool) (l : List Buf) (hl : Shape s last l.length) (hb : ∀ px ∈ l, ∀ a ∈ px, a < 256) :
    let E : Rat := if s = .yuv444 then 7 / 2 else 4
    |((neonFastVals ch rg m).cb s last l : Rat) - exactCb 8 rg m (mean (l.map (red ch)))
      (mean (l.map (green ch))) (mean (l.map (blue ch)))| ≤ E ∧
    |((neonFastVals ch rg m).cr s last l : Rat) - exactCr 8 rg m (mean (l.map (red ch)))
      (mean (l.map (green ch))) (mean (l.map (blue ch)))| ≤ E := by
  intro E
  obtain ⟨e1, e2⟩ := fast_chroma ch rg m hl.toBlockShape hb
  rw [e1, e2]
  have h := fastChroma_exact ch rg m hb (meanNear_down hl.len)
  have hE := shape_bound hl (a := 7 / 2) (b := 4) (by norm_num)
  exact ⟨h.1.trans hE, h.2.trans hE⟩

/-- C112 against the standard: luma is within 3.5 code values for every matrix and range — also BT.2020 in
full range, which the portable and the x86 encoders get wrong (C24, C99) — chroma within 3.5 without
subsampling and within 4 with it. -/
theorem c112_accuracy (ch : Channels) (s : Sampling) (i : Planar) (rgba : Buf)
    (stride : Nat) (rg : YuvRange) (m : Matrix) (D : Nat) (hi : GoodPlanar i s D)
    (hsrc : GoodDst rgba.length stride i.width i.height ch.count) (hb : Bytes rgba) :
    ∃ out, rgbxToYuvFastNeon ch s i rgba stride rg m = .ok out ∧
      PlanarExact (7 / 2) (if s = .yuv444 then 7 / 2 else 4) ch rg m s rgba stride out := by
  obtain ⟨out, e, h⟩ := c112_fast_encode ch s i rgba stride rg m D hi hsrc hb
  exact ⟨out, e, exact_by hi hb h (fun px hp => neonFast_luma_exact ch rg m hp) (fast_chroma_exact ch rg m)⟩

/-- C112 against the standard, semi-planar. -/
theorem c112_nv_accuracy (o : NVOrder) (ch : Channels) (s : Sampling) (i : BiPlanar) (rgba : Buf)
    (stride : Nat) (rg : YuvRange) (m : Matrix) (D : Nat) (hi : GoodBiPlanar i s D)
    (hsrc : GoodDst rgba.length stride i.width i.height ch.count) (hb : Bytes rgba) :
    ∃ out, rgbxToNvFastNeon o ch s i rgba stride rg m = .ok out ∧
      NvExact (7 / 2) (if s = .yuv444 then 7 / 2 else 4) o ch rg m s rgba stride out := by
  obtain ⟨out, e, h⟩ := c112_fast_nv_encode o ch s i rgba stride rg m D hi hsrc hb
  exact ⟨out, e, nvExact_by hi hb h (fun px hp => neonFast_luma_exact ch rg m hp)
    (fast_chroma_exact ch rg m)⟩

/-- C112: the portable encoder does differ.  White in BT.2020 and full range has luma 255 with NEON and 1
without. -/
theorem c112_bt2020_white :
    ∃ out out', rgbxToYuvFastNeon .rgb .yuv420 demoDst420 (List.replicate 33 255) 11 .full .bt2020 = .ok out ∧
      rgbxToYuv x64 .fast .rgb .yuv420 noEnc noEnc420 demoDst420 (List.replicate 33 255) 11 .full .bt2020
        = .ok out' ∧ at' out.y 4 0 0 = 255 ∧ at' out'.y 4 0 0 = 1 := by
  have hsrc : GoodDst (List.replicate 33 255).length 11 3 3 3 :=
    ⟨by unfold U32; decide, by decide, by unfold FullRows; decide, by decide⟩
  have hb : Bytes (List.replicate 33 255) := by unfold Bytes; decide
  obtain ⟨out, e, h⟩ := c112_fast_encode .rgb .yuv420 demoDst420 (List.replicate 33 255) 11 .full .bt2020 256
    demoDst420_good hsrc hb
  obtain ⟨out', e', h'⟩ := scalar_encodedBy .fast .rgb .yuv420 demoDst420 (List.replicate 33 255) 11 .full
    .bt2020 256 demoDst420_good hsrc hb
  refine ⟨out, out', e, e', ?_, ?_⟩
  · exact (frameSpec_at h.y (x := 0) (y := 0) (by decide) (by decide)).trans (by decide +kernel)
  · exact (frameSpec_at h'.y (x := 0) (y := 0) (by decide) (by decide)).trans (by decide +kernel)

end Verif
