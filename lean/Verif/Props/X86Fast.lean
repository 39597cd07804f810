import Verif.Lemmas.FastEncode
import Verif.Props.X86Parts
/-!
# C98, C99: the fast mode of the 8-bit encoders on x86 processors
-/
namespace Verif
open Spec X86

/-! ## C98 -/

/-- Luma of a pixel in the fast mode. -/
def fastLumaOn (cpu : Cpu) (ch : Channels) (rg : YuvRange) (m : Matrix) (px : Buf) : Nat :=
  if cpu = .plain then luma8 7 ch rg m px else (fastVals ch rg m).y px
/-- Cb of the pixels a chroma sample covers, fast mode, planar encoder. -/
def fastCbOn (cpu : Cpu) (s : Sampling) (ch : Channels) (rg : YuvRange) (m : Matrix) (last : Bool)
    (l : List Buf) : Nat :=
  if cpu = .plain then cb8 7 ch rg m (if last then avgDown else avgUp) l else (fastVals ch rg m).cb s last l
/-- Cr. -/
def fastCrOn (cpu : Cpu) (s : Sampling) (ch : Channels) (rg : YuvRange) (m : Matrix) (last : Bool)
    (l : List Buf) : Nat :=
  if cpu = .plain then cr8 7 ch rg m (if last then avgDown else avgUp) l else (fastVals ch rg m).cr s last l
/-- Cb, semi-planar encoder. -/
def fastNvCbOn (cpu : Cpu) (s : Sampling) (ch : Channels) (rg : YuvRange) (m : Matrix) (last : Bool)
    (l : List Buf) : Nat :=
  if cpu = .plain then cb8 7 ch rg m avgUp l else (fastVals ch rg m).cb s last l
/-- Cr, semi-planar encoder. -/
def fastNvCrOn (cpu : Cpu) (s : Sampling) (ch : Channels) (rg : YuvRange) (m : Matrix) (last : Bool)
    (l : List Buf) : Nat :=
  if cpu = .plain then cr8 7 ch rg m avgUp l else (fastVals ch rg m).cr s last l

/-- C98, planar: in the fast mode, on every class of x86 processor, encoding a good RGB(A) buffer
into a good 8-bit planar image succeeds — no load or store leaves its slice or scratch buffer — and
writes exactly the samples of the image, each the value the definitions above give. -/
theorem c98_fast_encode (cpu : Cpu) (ch : Channels) (s : Sampling) (i : Planar) (rgba : Buf)
    (stride : Nat) (rg : YuvRange) (m : Matrix) (D : Nat) (hi : GoodPlanar i s D)
    (hsrc : GoodDst rgba.length stride i.width i.height ch.count) (hb : Bytes rgba) :
    ∃ out, rgbxToYuvFastOn cpu ch s i rgba stride rg m = .ok out ∧
      EncodedBy (fastLumaOn cpu ch rg m) (fastCbOn cpu s ch rg m) (fastCrOn cpu s ch rg m) ch.count s rgba stride
        i out := by
  cases cpu
  · exact part_encode (avx2Fast_ok ch rg m) .fast s i rgba stride rg m D hi hsrc hb
  · exact part_encode (sseFast_ok ch rg m) .fast s i rgba stride rg m D hi hsrc hb
  · exact scalar_encodedBy .fast ch s i rgba stride rg m D hi hsrc hb

/-- C98, semi-planar. -/
theorem c98_fast_nv_encode (cpu : Cpu) (o : NVOrder) (ch : Channels) (s : Sampling) (i : BiPlanar)
    (rgba : Buf) (stride : Nat) (rg : YuvRange) (m : Matrix) (D : Nat) (hi : GoodBiPlanar i s D)
    (hsrc : GoodDst rgba.length stride i.width i.height ch.count) (hb : Bytes rgba) :
    ∃ out, rgbxToNvFastOn cpu o ch s i rgba stride rg m = .ok out ∧
      NvEncodedBy (fastLumaOn cpu ch rg m) (fastNvCbOn cpu s ch rg m) (fastNvCrOn cpu s ch rg m) o ch.count s rgba
        stride i out := by
  cases cpu
  · exact part_nv_encode (avx2Fast_ok ch rg m) .fast o s i rgba stride rg m D hi hsrc hb
  · exact part_nv_encode (sseFast_ok ch rg m) .fast o s i rgba stride rg m D hi hsrc hb
  · exact scalar_nvEncodedBy .fast o ch s i rgba stride rg m D hi hsrc hb

/-- C98: the encoded planes depend on the source pixels only. -/
theorem c98_source_pixels_only (cpu : Cpu) (ch : Channels) (s : Sampling) (i : Planar)
    (rgba rgba' : Buf) (stride stride' : Nat) (rg : YuvRange) (m : Matrix) (D : Nat)
    (hi : GoodPlanar i s D) (hsrc : GoodDst rgba.length stride i.width i.height ch.count)
    (hsrc' : GoodDst rgba'.length stride' i.width i.height ch.count)
    (hb : Bytes rgba) (hb' : Bytes rgba')
    (hsame : ∀ x y, x < i.width → y < i.height →
      pixelAt rgba stride ch.count x y = pixelAt rgba' stride' ch.count x y) :
    ∃ out, rgbxToYuvFastOn cpu ch s i rgba stride rg m = .ok out ∧
      rgbxToYuvFastOn cpu ch s i rgba' stride' rg m = .ok out := by
  obtain ⟨out, e, h⟩ := c98_fast_encode cpu ch s i rgba stride rg m D hi hsrc hb
  obtain ⟨out', e', h'⟩ := c98_fast_encode cpu ch s i rgba' stride' rg m D hi hsrc' hb'
  exact ⟨out, e, by rw [e', EncodedBy.unique hsame h h']⟩

/-- C98: AVX2 and SSE4.1 encode every image to the same bytes, planar … -/
theorem c98_avx2_sse_equal (ch : Channels) (s : Sampling) (i : Planar) (rgba : Buf)
    (stride : Nat) (rg : YuvRange) (m : Matrix) (D : Nat) (hi : GoodPlanar i s D)
    (hsrc : GoodDst rgba.length stride i.width i.height ch.count) (hb : Bytes rgba) :
    ∃ out, rgbxToYuvFastOn .avx2 ch s i rgba stride rg m = .ok out ∧
      rgbxToYuvFastOn .sse41 ch s i rgba stride rg m = .ok out := by
  obtain ⟨out, e, h⟩ := c98_fast_encode .avx2 ch s i rgba stride rg m D hi hsrc hb
  obtain ⟨out', e', h'⟩ := c98_fast_encode .sse41 ch s i rgba stride rg m D hi hsrc hb
  exact ⟨out, e, by rw [e', EncodedBy.unique (fun _ _ _ _ => rfl) h h']⟩

/-- … and semi-planar. -/
theorem c98_nv_avx2_sse_equal (o : NVOrder) (ch : Channels) (s : Sampling) (i : BiPlanar) (rgba : Buf)
    (stride : Nat) (rg : YuvRange) (m : Matrix) (D : Nat) (hi : GoodBiPlanar i s D)
    (hsrc : GoodDst rgba.length stride i.width i.height ch.count) (hb : Bytes rgba) :
    ∃ out, rgbxToNvFastOn .avx2 o ch s i rgba stride rg m = .ok out ∧
      rgbxToNvFastOn .sse41 o ch s i rgba stride rg m = .ok out := by
  obtain ⟨out, e, h⟩ := c98_fast_nv_encode .avx2 o ch s i rgba stride rg m D hi hsrc hb
  obtain ⟨out', e', h'⟩ := c98_fast_nv_encode .sse41 o ch s i rgba stride rg m D hi hsrc hb
  exact ⟨out, e, by rw [e', NvEncodedBy.unique (fun _ _ _ _ => rfl) h h']⟩

/-- C98: with vector extensions — on whichever processors — the planar and the semi-planar encoder give
the same picture. -/
theorem c98_nv_planar_agree (cpu cpu' : Cpu) (hc : cpu ≠ .plain) (hc' : cpu' ≠ .plain) (o : NVOrder)
    (ch : Channels) (s : Sampling)
    (i : BiPlanar) (j : Planar) (rgba : Buf) (stride : Nat) (rg : YuvRange) (m : Matrix) (D D' : Nat)
    (hi : GoodBiPlanar i s D) (hj : GoodPlanar j s D') (hw : i.width = j.width)
    (hh : i.height = j.height) (hsrc : GoodDst rgba.length stride i.width i.height ch.count)
    (hb : Bytes rgba) :
    ∃ nv pl, rgbxToNvFastOn cpu o ch s i rgba stride rg m = .ok nv ∧
      rgbxToYuvFastOn cpu' ch s j rgba stride rg m = .ok pl ∧ SamePicture nv o pl s := by
  obtain ⟨nv, e1, h1⟩ := c98_fast_nv_encode cpu o ch s i rgba stride rg m D hi hsrc hb
  have hsrc' := hsrc
  rw [hw, hh] at hsrc'
  obtain ⟨pl, e2, h2⟩ := c98_fast_encode cpu' ch s j rgba stride rg m D' hj hsrc' hb
  refine ⟨nv, pl, e1, e2, samePicture_by hw hh h1 ?_⟩
  have eu : fastCbOn cpu' s ch rg m = fastNvCbOn cpu s ch rg m := by
    funext a b; unfold fastCbOn fastNvCbOn; rw [if_neg hc, if_neg hc']
  have ev : fastCrOn cpu' s ch rg m = fastNvCrOn cpu s ch rg m := by
    funext a b; unfold fastCrOn fastNvCrOn; rw [if_neg hc, if_neg hc']
  have ey : fastLumaOn cpu' ch rg m = fastLumaOn cpu ch rg m := by
    funext a; unfold fastLumaOn; rw [if_neg hc, if_neg hc']
  rw [eu, ev, ey] at h2
  exact h2

/-- C98: on every processor NV21 (NV61, NV42) is NV12 (NV16, NV24) with the elements of every pair
exchanged. -/
theorem c98_nv21_is_swapped_nv12 (cpu : Cpu) (ch : Channels) (s : Sampling) (i : BiPlanar)
    (rgba : Buf) (stride : Nat) (rg : YuvRange) (m : Matrix) (D : Nat) (hi : GoodBiPlanar i s D)
    (hsrc : GoodDst rgba.length stride i.width i.height ch.count) (hb : Bytes rgba) :
    ∃ a b, rgbxToNvFastOn cpu .uv ch s i rgba stride rg m = .ok a ∧
      rgbxToNvFastOn cpu .vu ch s i rgba stride rg m = .ok b ∧
      a.y = b.y ∧
      ∀ cx cy, cx < cover i.width (hdiv s) → cy < cover i.height (vdiv s) →
        at' a.uv i.uvStride (2 * cx) cy = at' b.uv i.uvStride (2 * cx + 1) cy ∧
        at' a.uv i.uvStride (2 * cx + 1) cy = at' b.uv i.uvStride (2 * cx) cy := by
  obtain ⟨a, e1, h1⟩ := c98_fast_nv_encode cpu .uv ch s i rgba stride rg m D hi hsrc hb
  obtain ⟨b, e2, h2⟩ := c98_fast_nv_encode cpu .vu ch s i rgba stride rg m D hi hsrc hb
  exact ⟨a, b, e1, e2, swapped_by h1 h2⟩

/-! ## C99 -/

theorem fastLumaOn_close (cpu cpu' : Cpu) (ch : Channels) (rg : YuvRange) (m : Matrix) {px : Buf}
    (hb : ∀ a ∈ px, a < 256) :
    fastLumaOn cpu ch rg m px ≤ fastLumaOn cpu' ch rg m px + 1 ∧
    (¬(m = .bt2020 ∧ rg = .full) → fastLumaOn cpu ch rg m px = luma8 7 ch rg m px) := by
  have h := fast_luma_close ch rg m hb
  unfold fastLumaOn
  refine ⟨by split <;> split <;> omega, fun hx => ?_⟩
  have := fast_luma (ch := ch) hx hb
  split
  · rfl
  · exact this

theorem fastOn_close (cpu cpu' : Cpu) {s : Sampling} {last : Bool} (ch : Channels) (rg : YuvRange)
    (m : Matrix) {l : List Buf} (hl : BlockShape s last l.length)
    (hb : ∀ px ∈ l, ∀ a ∈ px, a < 256) :
    (fastCbOn cpu s ch rg m last l ≤ fastCbOn cpu' s ch rg m last l + 1 ∧
    fastCrOn cpu s ch rg m last l ≤ fastCrOn cpu' s ch rg m last l + 1) ∧
    (l.length ≤ 2 → last = false → fastCbOn cpu s ch rg m last l = fastCbOn cpu' s ch rg m last l ∧
      fastCrOn cpu s ch rg m last l = fastCrOn cpu' s ch rg m last l) := by
  obtain ⟨h, h'⟩ := fastChroma_scalar ch rg m hl hb (scalarMean_planar hl)
  unfold fastCbOn fastCrOn
  generalize cb8 7 ch rg m (if last then avgDown else avgUp) l = a at *
  generalize cr8 7 ch rg m (if last then avgDown else avgUp) l = b at *
  refine ⟨⟨by split <;> split <;> omega, by split <;> split <;> omega⟩, fun h2 hf => ?_⟩
  obtain ⟨e1, e2⟩ := h' h2 hf
  rw [e1, e2]
  simp only [ite_self, and_self]

theorem fastNvOn_close (cpu cpu' : Cpu) {s : Sampling} {last : Bool} (ch : Channels) (rg : YuvRange)
    (m : Matrix) {l : List Buf} (hl : BlockShape s last l.length)
    (hb : ∀ px ∈ l, ∀ a ∈ px, a < 256) :
    (fastNvCbOn cpu s ch rg m last l ≤ fastNvCbOn cpu' s ch rg m last l + 1 ∧
    fastNvCrOn cpu s ch rg m last l ≤ fastNvCrOn cpu' s ch rg m last l + 1) ∧
    (l.length ≤ 2 → last = false → fastNvCbOn cpu s ch rg m last l = fastNvCbOn cpu' s ch rg m last l ∧
      fastNvCrOn cpu s ch rg m last l = fastNvCrOn cpu' s ch rg m last l) := by
  obtain ⟨h, h'⟩ := fastChroma_scalar ch rg m hl hb (scalarMean_nv hl)
  unfold fastNvCbOn fastNvCrOn
  generalize cb8 7 ch rg m avgUp l = a at *
  generalize cr8 7 ch rg m avgUp l = b at *
  refine ⟨⟨by split <;> split <;> omega, by split <;> split <;> omega⟩, fun h2 hf => ?_⟩
  obtain ⟨e1, e2⟩ := h' h2 hf
  rw [e1, e2]
  simp only [ite_self, and_self]

theorem block_one_row {s : Sampling} (hs : s ≠ .yuv420) {w h cx cy : Nat} {buf : Buf} {stride cn : Nat} :
    (block buf stride cn w h (hdiv s) (vdiv s) cx cy).length ≤ 2 ∧
    lastColumn w h (hdiv s) (vdiv s) cx cy = false := by
  have le : ∀ n d c, (blockCols n d c).length ≤ d := by
    intro n d c
    unfold blockCols
    exact le_trans (List.length_filter_le _ _) (by simp)
  have hv : vdiv s = 1 := by cases s <;> first | rfl | exact absurd rfl hs
  have hh : hdiv s ≤ 2 := by cases s <;> decide
  have l1 := le w (hdiv s) cx
  have l2 := le h (vdiv s) cy
  constructor
  · rw [block_length]
    rw [hv] at l2 ⊢
    exact Nat.mul_le_mul l2 (l1.trans hh)
  · simp [lastColumn, hv]

/-- C99, planar: two processors of whatever class write the same areas.  Luma and chroma differ by at
most one; luma is the same but for BT.2020 in full range, chroma is the same unless two rows share it. -/
theorem c99_cpu_agreement (cpu cpu' : Cpu) (ch : Channels) (s : Sampling) (i : Planar) (rgba : Buf)
    (stride : Nat) (rg : YuvRange) (m : Matrix) (D : Nat) (hi : GoodPlanar i s D)
    (hsrc : GoodDst rgba.length stride i.width i.height ch.count) (hb : Bytes rgba) :
    ∃ out out', rgbxToYuvFastOn cpu ch s i rgba stride rg m = .ok out ∧
      rgbxToYuvFastOn cpu' ch s i rgba stride rg m = .ok out' ∧
      (∀ x y, x < i.width → y < i.height →
        (at' out.y i.yStride x y ≤ at' out'.y i.yStride x y + 1 ∧
          at' out'.y i.yStride x y ≤ at' out.y i.yStride x y + 1) ∧
        (¬(m = .bt2020 ∧ rg = .full) → at' out.y i.yStride x y = at' out'.y i.yStride x y)) ∧
      (∀ cx cy, cx < cover i.width (hdiv s) → cy < cover i.height (vdiv s) →
        let E := if s = .yuv420 then 1 else 0
        (at' out.u i.uStride cx cy ≤ at' out'.u i.uStride cx cy + E ∧
          at' out'.u i.uStride cx cy ≤ at' out.u i.uStride cx cy + E) ∧
        (at' out.v i.vStride cx cy ≤ at' out'.v i.vStride cx cy + E ∧
          at' out'.v i.vStride cx cy ≤ at' out.v i.vStride cx cy + E)) := by
  obtain ⟨out, e, h⟩ := c98_fast_encode cpu ch s i rgba stride rg m D hi hsrc hb
  obtain ⟨out', e', h'⟩ := c98_fast_encode cpu' ch s i rgba stride rg m D hi hsrc hb
  refine ⟨out, out', e, e', fun x y hx hy => ?_, fun cx cy hx hy => ?_⟩
  · rw [frameSpec_at h.y hx hy, frameSpec_at h'.y hx hy]
    have c1 := fastLumaOn_close cpu cpu' ch rg m (mem_pixelAt hb (stride := stride)
        (cn := ch.count) (x := x) (y := y))
    have c2 := fastLumaOn_close cpu' cpu ch rg m (mem_pixelAt hb (stride := stride)
        (cn := ch.count) (x := x) (y := y))
    exact ⟨⟨c1.1, c2.1⟩, fun hx => (c1.2 hx).trans (c2.2 hx).symm⟩
  · intro E
    rw [frameSpec_at h.u hx hy, frameSpec_at h'.u hx hy, frameSpec_at h.v hx hy,
      frameSpec_at h'.v hx hy]
    have bs := block_shape hi.wpos hi.hpos hx hy (buf := rgba) (stride := stride) (cn := ch.count)
    have c1 := fastOn_close cpu cpu' ch rg m bs (mem_block hb)
    have c2 := fastOn_close cpu' cpu ch rg m bs (mem_block hb)
    by_cases hs : s = .yuv420
    · have hE : E = 1 := if_pos hs
      rw [hE]
      exact ⟨⟨c1.1.1, c2.1.1⟩, c1.1.2, c2.1.2⟩
    · have hE : E = 0 := if_neg hs
      obtain ⟨b1, b2⟩ := block_one_row hs (w := i.width) (h := i.height) (cx := cx) (cy := cy) (buf := rgba) (stride := stride)
        (cn := ch.count)
      obtain ⟨e1, e2⟩ := c1.2 b1 b2
      rw [hE, e1, e2]
      exact ⟨⟨le_rfl, le_rfl⟩, le_rfl, le_rfl⟩

/-- C99, semi-planar. -/
theorem c99_nv_cpu_agreement (cpu cpu' : Cpu) (o : NVOrder) (ch : Channels) (s : Sampling) (i : BiPlanar)
    (rgba : Buf) (stride : Nat) (rg : YuvRange) (m : Matrix) (D : Nat) (hi : GoodBiPlanar i s D)
    (hsrc : GoodDst rgba.length stride i.width i.height ch.count) (hb : Bytes rgba) :
    ∃ out out', rgbxToNvFastOn cpu o ch s i rgba stride rg m = .ok out ∧
      rgbxToNvFastOn cpu' o ch s i rgba stride rg m = .ok out' ∧
      (∀ x y, x < i.width → y < i.height →
        (at' out.y i.yStride x y ≤ at' out'.y i.yStride x y + 1 ∧
          at' out'.y i.yStride x y ≤ at' out.y i.yStride x y + 1) ∧
        (¬(m = .bt2020 ∧ rg = .full) → at' out.y i.yStride x y = at' out'.y i.yStride x y)) ∧
      (∀ cx cy, cx < cover i.width (hdiv s) → cy < cover i.height (vdiv s) → ∀ k, k < 2 →
        let E := if s = .yuv420 then 1 else 0
        at' out.uv i.uvStride (2 * cx + k) cy ≤ at' out'.uv i.uvStride (2 * cx + k) cy + E ∧
          at' out'.uv i.uvStride (2 * cx + k) cy ≤ at' out.uv i.uvStride (2 * cx + k) cy + E) := by
  obtain ⟨out, e, h⟩ := c98_fast_nv_encode cpu o ch s i rgba stride rg m D hi hsrc hb
  obtain ⟨out', e', h'⟩ := c98_fast_nv_encode cpu' o ch s i rgba stride rg m D hi hsrc hb
  refine ⟨out, out', e, e', fun x y hx hy => ?_, fun cx cy hx hy k hk => ?_⟩
  · rw [frameSpec_at h.y hx hy, frameSpec_at h'.y hx hy]
    have c1 := fastLumaOn_close cpu cpu' ch rg m (mem_pixelAt hb (stride := stride)
        (cn := ch.count) (x := x) (y := y))
    have c2 := fastLumaOn_close cpu' cpu ch rg m (mem_pixelAt hb (stride := stride)
        (cn := ch.count) (x := x) (y := y))
    exact ⟨⟨c1.1, c2.1⟩, fun hx => (c1.2 hx).trans (c2.2 hx).symm⟩
  · intro E
    have bs := block_shape hi.wpos hi.hpos hx hy (buf := rgba) (stride := stride) (cn := ch.count)
    have c1 := fastNvOn_close cpu cpu' ch rg m bs (mem_block hb)
    have c2 := fastNvOn_close cpu' cpu ch rg m bs (mem_block hb)
    obtain ⟨a1, a2⟩ := h.parts hx hy
    obtain ⟨b1, b2⟩ := h'.parts hx hy
    have : k = o.uPos ∨ k = o.vPos := by cases o <;> simp only [NVOrder.uPos, NVOrder.vPos] <;> omega
    by_cases hs : s = .yuv420
    · have hE : E = 1 := if_pos hs
      rw [hE]
      rcases this with rfl | rfl
      · rw [a1, b1]; exact ⟨c1.1.1, c2.1.1⟩
      · rw [a2, b2]; exact ⟨c1.1.2, c2.1.2⟩
    · have hE : E = 0 := if_neg hs
      obtain ⟨d1, d2⟩ := block_one_row hs (w := i.width) (h := i.height) (cx := cx) (cy := cy) (buf := rgba) (stride := stride)
        (cn := ch.count)
      obtain ⟨e1, e2⟩ := c1.2 d1 d2
      rw [hE]
      rcases this with rfl | rfl
      · rw [a1, b1, e1]; exact ⟨le_rfl, le_rfl⟩
      · rw [a2, b2, e2]; exact ⟨le_rfl, le_rfl⟩

theorem fastOn_exact (cpu : Cpu) {w hh : Nat} (hw : 0 < w) (hh0 : 0 < hh) {s : Sampling}
    {cx cy : Nat} (hx : cx < cover w (hdiv s)) (hy : cy < cover hh (vdiv s)) (ch : Channels)
    (rg : YuvRange) (m : Matrix) {buf : Buf} (hb : Bytes buf) {stride : Nat} :
    let l := block buf stride ch.count w hh (hdiv s) (vdiv s) cx cy
    let last := lastColumn w hh (hdiv s) (vdiv s) cx cy
    let E : Rat := if s = .yuv444 then 7 / 2 else 4
    let r := mean (l.map (red ch))
    let g := mean (l.map (green ch))
    let b := mean (l.map (blue ch))
    |(fastCbOn cpu s ch rg m last l : Rat) - exactCb 8 rg m r g b| ≤ E ∧
    |(fastCrOn cpu s ch rg m last l : Rat) - exactCr 8 rg m r g b| ≤ E := by
  intro l last E r g b
  have bs : BlockShape s last l.length := block_shape hw hh0 hx hy
  have hE : (if l.length = 1 then 7 / 2 else 4 : Rat) ≤ E := by
    by_cases hs : s = .yuv444
    · simp only [E, if_pos hs, (bs.full hs).1, if_true]; exact le_rfl
    · simp only [E, if_neg hs]; split <;> norm_num
  have key : ∀ avg, MeanNear l.length avg →
      |(cb8 7 ch rg m avg l : Rat) - exactCb 8 rg m r g b| ≤ E ∧
      |(cr8 7 ch rg m avg l : Rat) - exactCr 8 rg m r g b| ≤ E := fun avg h =>
    have := fastChroma_exact ch rg m (mem_block hb) h
    ⟨this.1.trans hE, this.2.trans hE⟩
  unfold fastCbOn fastCrOn
  split
  · obtain ⟨a1, a2⟩ := planarAvg_close hw hh0 hx hy (buf := buf) (stride := stride) (cn := ch.count)
    refine key _ ⟨a1, fun h1 a => ?_, 0, fun l' hl' => ?_⟩
    · have hlast : last = false := by
        cases hc : last
        · rfl
        · have := bs.last2 hc; omega
      rw [hlast]; exact Verif.avgUp_one
    · rw [add_zero]; exact a2 l' hl'
  · obtain ⟨e1, e2⟩ := fast_cb bs (mem_block hb) ch rg m
    rw [e1, e2]
    exact key _ (meanNear_fast bs.len)

/-- C99 against the standard: on every processor luma is within 3.5 code values of the exact ITU-R luma
of its pixel, chroma within 3.5 without subsampling and within 4 of the exact chroma of the exact mean of
the pixels it covers.  Missing: luma of BT.2020 in full range (`c99_bt2020_white_black`). -/
theorem c99_cpu_accuracy_partial (cpu : Cpu) (ch : Channels) (s : Sampling) (i : Planar) (rgba : Buf)
    (stride : Nat) (rg : YuvRange) (m : Matrix) (D : Nat) (hi : GoodPlanar i s D)
    (hsrc : GoodDst rgba.length stride i.width i.height ch.count) (hb : Bytes rgba) :
    ∃ out, rgbxToYuvFastOn cpu ch s i rgba stride rg m = .ok out ∧
      (¬(m = .bt2020 ∧ rg = .full) → ∀ x y, x < i.width → y < i.height →
        let px := pixelAt rgba stride ch.count x y
        |(at' out.y i.yStride x y : Rat) - exactY 8 rg m (red ch px) (green ch px) (blue ch px)|
          ≤ 7 / 2) ∧
      (∀ cx cy, cx < cover i.width (hdiv s) → cy < cover i.height (vdiv s) →
        let blk := block rgba stride ch.count i.width i.height (hdiv s) (vdiv s) cx cy
        let r := mean (blk.map (red ch))
        let g := mean (blk.map (green ch))
        let b := mean (blk.map (blue ch))
        let E : Rat := if s = .yuv444 then 7 / 2 else 4
        |(at' out.u i.uStride cx cy : Rat) - exactCb 8 rg m r g b| ≤ E ∧
        |(at' out.v i.vStride cx cy : Rat) - exactCr 8 rg m r g b| ≤ E) := by
  obtain ⟨out, e, h⟩ := c98_fast_encode cpu ch s i rgba stride rg m D hi hsrc hb
  refine ⟨out, e, fun hm x y hx hy => ?_, fun cx cy hx hy => ?_⟩
  · intro px
    have hp : ∀ a ∈ px, a < 256 := mem_pixelAt hb
    rw [frameSpec_at h.y hx hy, (fastLumaOn_close cpu cpu ch rg m hp).2 hm]
    exact fastLuma_exact hm hp
  · rw [frameSpec_at h.u hx hy, frameSpec_at h.v hx hy]
    exact fastOn_exact cpu hi.wpos hi.hpos hx hy ch rg m hb

/-- C99: where the sum of BT.2020 in full range passes 16 bits — the brightest pixels, white among them —
the vector code stores luma 0 (the sum has become negative), the scalar code 0 or 1 (the byte has wrapped). -/
theorem c99_bt2020_wraps (cpu : Cpu) (ch : Channels) (s : Sampling) (i : Planar) (rgba : Buf)
    (stride : Nat) (D : Nat) (hi : GoodPlanar i s D)
    (hsrc : GoodDst rgba.length stride i.width i.height ch.count) (hb : Bytes rgba) :
    ∃ out, rgbxToYuvFastOn cpu ch s i rgba stride .full .bt2020 = .ok out ∧
      ∀ x y, x < i.width → y < i.height →
        let px := pixelAt rgba stride ch.count x y
        let S := 34 * red ch px + 87 * green ch px + 8 * blue ch px + 63
        at' out.y i.yStride x y = if S < 32768 then S / 128
          else if cpu = .plain ∧ 32896 ≤ S then 1 else 0 := by
  obtain ⟨out, e, h⟩ := c98_fast_encode cpu ch s i rgba stride .full .bt2020 D hi hsrc hb
  refine ⟨out, e, fun x y hx hy => ?_⟩
  intro px S
  obtain ⟨e1, e2⟩ := fast_luma2020 ch (px := px) (mem_pixelAt hb)
  rw [frameSpec_at h.y hx hy]
  unfold fastLumaOn
  change (if cpu = Cpu.plain then luma8 7 ch .full .bt2020 px else (fastVals ch .full .bt2020).y px) = _
  rw [e1, e2]
  by_cases hc : cpu = .plain
  · simp only [hc, if_true, true_and]
    by_cases h1 : S < 32768
    · simp only [S] at h1 ⊢; simp only [h1, if_true]
    · by_cases h2 : S < 32896
      · have h3 : ¬ 32896 ≤ S := by omega
        simp only [S] at h1 h2 h3 ⊢
        simp only [h1, h2, h3, if_true, if_false]
      · have h3 : 32896 ≤ S := by omega
        simp only [S] at h1 h2 h3 ⊢
        simp only [h1, h2, h3, if_true, if_false]
  · simp only [hc, if_false, false_and]
    rfl

/-- The hypotheses of C98 and C99 are met. -/
example : GoodBiPlanar demoDstNV .yuv420 256 ∧ GoodPlanar demoDst420 .yuv420 256 ∧
    demoDstNV.width = demoDst420.width ∧ demoDstNV.height = demoDst420.height ∧
    GoodDst demoRgb.length 11 3 3 3 ∧ Bytes demoRgb :=
  ⟨demoDstNV_good, demoDst420_good, rfl, rfl, ⟨by unfold U32; decide, by decide, by
    unfold FullRows; decide, by decide⟩, by unfold Bytes; decide⟩

/-- C99 violated: a white image of BT.2020 in full range becomes black, luma 0 with vector extensions and
1 without; it should be 255. -/
theorem c99_bt2020_white_black (cpu : Cpu) :
    ∃ out, rgbxToYuvFastOn cpu .rgb .yuv420 demoDst420 (List.replicate 33 255) 11 .full .bt2020 = .ok out ∧
      at' out.y demoDst420.yStride 0 0 = (if cpu = .plain then 1 else 0) ∧
      exactY 8 .full .bt2020 255 255 255 = 255 := by
  have hsrc : GoodDst (List.replicate 33 255).length 11 3 3 3 :=
    ⟨by unfold U32; decide, by decide, by unfold FullRows; decide, by decide⟩
  have hb : Bytes (List.replicate 33 255) := by unfold Bytes; decide
  obtain ⟨out, e, h⟩ := c99_bt2020_wraps cpu .rgb .yuv420 demoDst420 (List.replicate 33 255) 11 256
    demoDst420_good hsrc hb
  refine ⟨out, e, (h 0 0 (by decide) (by decide)).trans ?_, ?_⟩
  · cases cpu <;> decide +kernel
  · rw [exactY_eq]
    norm_num [offY, fwdYR, fwdYG, fwdYB, gainY, kr, kg, kb, maxV]

end Verif
