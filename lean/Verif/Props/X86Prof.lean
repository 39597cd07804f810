import Verif.Lemmas.ProfEncode
import Verif.Props.X86Parts
/-!
# C96, C97: the professional mode of the 8-bit encoders on x86 processors
-/
namespace Verif
open Spec X86

/-! ## C96 -/

/-- Cb of the pixels a chroma sample covers, professional mode, planar encoder. -/
def profCbOn (cpu : Cpu) (s : Sampling) (ch : Channels) (rg : YuvRange) (m : Matrix) (last : Bool)
    (l : List Buf) : Nat :=
  if cpu = .plain then cb8 15 ch rg m (if last then avgDown else avgUp) l else (profVals ch rg m).cb s last l
/-- Cr. -/
def profCrOn (cpu : Cpu) (s : Sampling) (ch : Channels) (rg : YuvRange) (m : Matrix) (last : Bool)
    (l : List Buf) : Nat :=
  if cpu = .plain then cr8 15 ch rg m (if last then avgDown else avgUp) l else (profVals ch rg m).cr s last l
/-- Cb, semi-planar encoder. -/
def profNvCbOn (cpu : Cpu) (s : Sampling) (ch : Channels) (rg : YuvRange) (m : Matrix) (last : Bool)
    (l : List Buf) : Nat :=
  if cpu = .plain then cb8 15 ch rg m avgUp l else (profVals ch rg m).cb s last l
/-- Cr, semi-planar encoder. -/
def profNvCrOn (cpu : Cpu) (s : Sampling) (ch : Channels) (rg : YuvRange) (m : Matrix) (last : Bool)
    (l : List Buf) : Nat :=
  if cpu = .plain then cr8 15 ch rg m avgUp l else (profVals ch rg m).cr s last l

/-- C96, planar: in the professional mode, on every class of x86 processor, encoding a good RGB(A) buffer
into a good 8-bit planar image succeeds — no load or store leaves its slice or scratch buffer — and
writes exactly the samples of the image.  Luma is the same on every processor. -/
theorem c96_prof_encode (cpu : Cpu) (ch : Channels) (s : Sampling) (i : Planar) (rgba : Buf)
    (stride : Nat) (rg : YuvRange) (m : Matrix) (D : Nat) (hi : GoodPlanar i s D)
    (hsrc : GoodDst rgba.length stride i.width i.height ch.count) (hb : Bytes rgba) :
    ∃ out, rgbxToYuvProfOn cpu ch s i rgba stride rg m = .ok out ∧
      EncodedBy (luma8 15 ch rg m) (profCbOn cpu s ch rg m) (profCrOn cpu s ch rg m) ch.count s rgba stride
        i out := by
  cases cpu
  · exact part_encode (avx2Prof_ok ch rg m) .professional s i rgba stride rg m D hi hsrc hb
  · exact part_encode (sseProf_ok ch rg m) .professional s i rgba stride rg m D hi hsrc hb
  · exact scalar_encodedBy .professional ch s i rgba stride rg m D hi hsrc hb

/-- C96, semi-planar. -/
theorem c96_prof_nv_encode (cpu : Cpu) (o : NVOrder) (ch : Channels) (s : Sampling) (i : BiPlanar)
    (rgba : Buf) (stride : Nat) (rg : YuvRange) (m : Matrix) (D : Nat) (hi : GoodBiPlanar i s D)
    (hsrc : GoodDst rgba.length stride i.width i.height ch.count) (hb : Bytes rgba) :
    ∃ out, rgbxToNvProfOn cpu o ch s i rgba stride rg m = .ok out ∧
      NvEncodedBy (luma8 15 ch rg m) (profNvCbOn cpu s ch rg m) (profNvCrOn cpu s ch rg m) o ch.count s rgba
        stride i out := by
  cases cpu
  · exact part_nv_encode (avx2Prof_ok ch rg m) .professional o s i rgba stride rg m D hi hsrc hb
  · exact part_nv_encode (sseProf_ok ch rg m) .professional o s i rgba stride rg m D hi hsrc hb
  · exact scalar_nvEncodedBy .professional o ch s i rgba stride rg m D hi hsrc hb

/-- C96: the encoded planes depend on the source pixels only. -/
theorem c96_source_pixels_only (cpu : Cpu) (ch : Channels) (s : Sampling) (i : Planar)
    (rgba rgba' : Buf) (stride stride' : Nat) (rg : YuvRange) (m : Matrix) (D : Nat)
    (hi : GoodPlanar i s D) (hsrc : GoodDst rgba.length stride i.width i.height ch.count)
    (hsrc' : GoodDst rgba'.length stride' i.width i.height ch.count)
    (hb : Bytes rgba) (hb' : Bytes rgba')
    (hsame : ∀ x y, x < i.width → y < i.height →
      pixelAt rgba stride ch.count x y = pixelAt rgba' stride' ch.count x y) :
    ∃ out, rgbxToYuvProfOn cpu ch s i rgba stride rg m = .ok out ∧
      rgbxToYuvProfOn cpu ch s i rgba' stride' rg m = .ok out := by
  obtain ⟨out, e, h⟩ := c96_prof_encode cpu ch s i rgba stride rg m D hi hsrc hb
  obtain ⟨out', e', h'⟩ := c96_prof_encode cpu ch s i rgba' stride' rg m D hi hsrc' hb'
  exact ⟨out, e, by rw [e', EncodedBy.unique hsame h h']⟩

/-- C96: AVX2 and SSE4.1 encode every image to the same bytes, planar … -/
theorem c96_avx2_sse_equal (ch : Channels) (s : Sampling) (i : Planar) (rgba : Buf)
    (stride : Nat) (rg : YuvRange) (m : Matrix) (D : Nat) (hi : GoodPlanar i s D)
    (hsrc : GoodDst rgba.length stride i.width i.height ch.count) (hb : Bytes rgba) :
    ∃ out, rgbxToYuvProfOn .avx2 ch s i rgba stride rg m = .ok out ∧
      rgbxToYuvProfOn .sse41 ch s i rgba stride rg m = .ok out := by
  obtain ⟨out, e, h⟩ := c96_prof_encode .avx2 ch s i rgba stride rg m D hi hsrc hb
  obtain ⟨out', e', h'⟩ := c96_prof_encode .sse41 ch s i rgba stride rg m D hi hsrc hb
  exact ⟨out, e, by rw [e', EncodedBy.unique (fun _ _ _ _ => rfl) h h']⟩

/-- … and semi-planar. -/
theorem c96_nv_avx2_sse_equal (o : NVOrder) (ch : Channels) (s : Sampling) (i : BiPlanar) (rgba : Buf)
    (stride : Nat) (rg : YuvRange) (m : Matrix) (D : Nat) (hi : GoodBiPlanar i s D)
    (hsrc : GoodDst rgba.length stride i.width i.height ch.count) (hb : Bytes rgba) :
    ∃ out, rgbxToNvProfOn .avx2 o ch s i rgba stride rg m = .ok out ∧
      rgbxToNvProfOn .sse41 o ch s i rgba stride rg m = .ok out := by
  obtain ⟨out, e, h⟩ := c96_prof_nv_encode .avx2 o ch s i rgba stride rg m D hi hsrc hb
  obtain ⟨out', e', h'⟩ := c96_prof_nv_encode .sse41 o ch s i rgba stride rg m D hi hsrc hb
  exact ⟨out, e, by rw [e', NvEncodedBy.unique (fun _ _ _ _ => rfl) h h']⟩

/-- C96: with vector extensions — on whichever processors — the planar and the semi-planar encoder give
the same picture. -/
theorem c96_nv_planar_agree (cpu cpu' : Cpu) (hc : cpu ≠ .plain) (hc' : cpu' ≠ .plain) (o : NVOrder)
    (ch : Channels) (s : Sampling)
    (i : BiPlanar) (j : Planar) (rgba : Buf) (stride : Nat) (rg : YuvRange) (m : Matrix) (D D' : Nat)
    (hi : GoodBiPlanar i s D) (hj : GoodPlanar j s D') (hw : i.width = j.width)
    (hh : i.height = j.height) (hsrc : GoodDst rgba.length stride i.width i.height ch.count)
    (hb : Bytes rgba) :
    ∃ nv pl, rgbxToNvProfOn cpu o ch s i rgba stride rg m = .ok nv ∧
      rgbxToYuvProfOn cpu' ch s j rgba stride rg m = .ok pl ∧ SamePicture nv o pl s := by
  obtain ⟨nv, e1, h1⟩ := c96_prof_nv_encode cpu o ch s i rgba stride rg m D hi hsrc hb
  have hsrc' := hsrc
  rw [hw, hh] at hsrc'
  obtain ⟨pl, e2, h2⟩ := c96_prof_encode cpu' ch s j rgba stride rg m D' hj hsrc' hb
  refine ⟨nv, pl, e1, e2, samePicture_by hw hh h1 ?_⟩
  have eu : profCbOn cpu' s ch rg m = profNvCbOn cpu s ch rg m := by
    funext a b; unfold profCbOn profNvCbOn; rw [if_neg hc, if_neg hc']
  have ev : profCrOn cpu' s ch rg m = profNvCrOn cpu s ch rg m := by
    funext a b; unfold profCrOn profNvCrOn; rw [if_neg hc, if_neg hc']
  rw [eu, ev] at h2
  exact h2

/-- C96: on every processor NV21 (NV61, NV42) is NV12 (NV16, NV24) with the elements of every pair
exchanged. -/
theorem c96_nv21_is_swapped_nv12 (cpu : Cpu) (ch : Channels) (s : Sampling) (i : BiPlanar)
    (rgba : Buf) (stride : Nat) (rg : YuvRange) (m : Matrix) (D : Nat) (hi : GoodBiPlanar i s D)
    (hsrc : GoodDst rgba.length stride i.width i.height ch.count) (hb : Bytes rgba) :
    ∃ a b, rgbxToNvProfOn cpu .uv ch s i rgba stride rg m = .ok a ∧
      rgbxToNvProfOn cpu .vu ch s i rgba stride rg m = .ok b ∧
      a.y = b.y ∧
      ∀ cx cy, cx < cover i.width (hdiv s) → cy < cover i.height (vdiv s) →
        at' a.uv i.uvStride (2 * cx) cy = at' b.uv i.uvStride (2 * cx + 1) cy ∧
        at' a.uv i.uvStride (2 * cx + 1) cy = at' b.uv i.uvStride (2 * cx) cy := by
  obtain ⟨a, e1, h1⟩ := c96_prof_nv_encode cpu .uv ch s i rgba stride rg m D hi hsrc hb
  obtain ⟨b, e2, h2⟩ := c96_prof_nv_encode cpu .vu ch s i rgba stride rg m D hi hsrc hb
  exact ⟨a, b, e1, e2, swapped_by h1 h2⟩

/-! ## C97 -/

theorem profOn_close (cpu cpu' : Cpu) {s : Sampling} {last : Bool} (ch : Channels) (rg : YuvRange)
    (m : Matrix) {l : List Buf} (hl : BlockShape s last l.length)
    (hb : ∀ px ∈ l, ∀ a ∈ px, a < 256) :
    let E := if s = .yuv444 then 0 else 1
    profCbOn cpu s ch rg m last l ≤ profCbOn cpu' s ch rg m last l + E ∧
    profCrOn cpu s ch rg m last l ≤ profCrOn cpu' s ch rg m last l + E := by
  intro E
  have h := profChroma_scalar ch rg m hl hb (avgNear_planar hl)
  unfold profCbOn profCrOn
  dsimp only at h
  generalize cb8 15 ch rg m (if last then avgDown else avgUp) l = a at *
  generalize cr8 15 ch rg m (if last then avgDown else avgUp) l = b at *
  constructor
  · split <;> split <;> omega
  · split <;> split <;> omega

theorem profNvOn_close (cpu cpu' : Cpu) {s : Sampling} {last : Bool} (ch : Channels) (rg : YuvRange)
    (m : Matrix) {l : List Buf} (hl : BlockShape s last l.length)
    (hb : ∀ px ∈ l, ∀ a ∈ px, a < 256) :
    let E := if s = .yuv444 then 0 else 1
    profNvCbOn cpu s ch rg m last l ≤ profNvCbOn cpu' s ch rg m last l + E ∧
    profNvCrOn cpu s ch rg m last l ≤ profNvCrOn cpu' s ch rg m last l + E := by
  intro E
  have h := profChroma_scalar ch rg m hl hb (avgNear_nv hl)
  unfold profNvCbOn profNvCrOn
  dsimp only at h
  generalize cb8 15 ch rg m avgUp l = a at *
  generalize cr8 15 ch rg m avgUp l = b at *
  constructor
  · split <;> split <;> omega
  · split <;> split <;> omega

/-- C97, planar: two processors of whatever class store the same luma and write the same areas; without
subsampling they store the same chroma, with subsampling chroma that differs by at most one. -/
theorem c97_cpu_agreement (cpu cpu' : Cpu) (ch : Channels) (s : Sampling) (i : Planar) (rgba : Buf)
    (stride : Nat) (rg : YuvRange) (m : Matrix) (D : Nat) (hi : GoodPlanar i s D)
    (hsrc : GoodDst rgba.length stride i.width i.height ch.count) (hb : Bytes rgba) :
    ∃ out out', rgbxToYuvProfOn cpu ch s i rgba stride rg m = .ok out ∧
      rgbxToYuvProfOn cpu' ch s i rgba stride rg m = .ok out' ∧ out.y = out'.y ∧
      (s = .yuv444 → out = out') ∧
      (∀ cx cy, cx < cover i.width (hdiv s) → cy < cover i.height (vdiv s) →
        (at' out.u i.uStride cx cy ≤ at' out'.u i.uStride cx cy + 1 ∧
          at' out'.u i.uStride cx cy ≤ at' out.u i.uStride cx cy + 1) ∧
        (at' out.v i.vStride cx cy ≤ at' out'.v i.vStride cx cy + 1 ∧
          at' out'.v i.vStride cx cy ≤ at' out.v i.vStride cx cy + 1)) := by
  obtain ⟨out, e, h⟩ := c96_prof_encode cpu ch s i rgba stride rg m D hi hsrc hb
  obtain ⟨out', e', h'⟩ := c96_prof_encode cpu' ch s i rgba stride rg m D hi hsrc hb
  refine ⟨out, out', e, e', frameSpec_unique h.y h'.y, ?_, fun cx cy hx hy => ?_⟩
  · intro hs
    obtain ⟨g1, g2, g3, g4, g5⟩ := h.geometry
    obtain ⟨g1', g2', g3', g4', g5'⟩ := h'.geometry
    refine planar_ext (g1.trans g1'.symm) (g2.trans g2'.symm) (g3.trans g3'.symm)
      (g4.trans g4'.symm) (g5.trans g5'.symm) (frameSpec_unique h.y h'.y)
      (frameSpec_unique h.u ⟨h'.u.1, fun x y c hx hy hc => ?_, h'.u.2.2⟩)
      (frameSpec_unique h.v ⟨h'.v.1, fun x y c hx hy hc => ?_, h'.v.2.2⟩)
    all_goals
      have bs := block_shape hi.wpos hi.hpos hx hy (buf := rgba) (stride := stride) (cn := ch.count)
      have c1 := profOn_close cpu cpu' ch rg m bs (mem_block hb)
      have c2 := profOn_close cpu' cpu ch rg m bs (mem_block hb)
      simp only [if_pos hs, Nat.add_zero] at c1 c2
    · rw [h'.u.2.1 x y c hx hy hc]; simp only [le_antisymm c1.1 c2.1]
    · rw [h'.v.2.1 x y c hx hy hc]; simp only [le_antisymm c1.2 c2.2]
  · rw [frameSpec_at h.u hx hy, frameSpec_at h'.u hx hy, frameSpec_at h.v hx hy,
      frameSpec_at h'.v hx hy]
    have bs := block_shape hi.wpos hi.hpos hx hy (buf := rgba) (stride := stride) (cn := ch.count)
    have c1 := profOn_close cpu cpu' ch rg m bs (mem_block hb)
    have c2 := profOn_close cpu' cpu ch rg m bs (mem_block hb)
    have hE : (if s = .yuv444 then 0 else 1) ≤ 1 := by split <;> omega
    dsimp only at c1 c2
    omega

/-- C97, semi-planar. -/
theorem c97_nv_cpu_agreement (cpu cpu' : Cpu) (o : NVOrder) (ch : Channels) (s : Sampling) (i : BiPlanar)
    (rgba : Buf) (stride : Nat) (rg : YuvRange) (m : Matrix) (D : Nat) (hi : GoodBiPlanar i s D)
    (hsrc : GoodDst rgba.length stride i.width i.height ch.count) (hb : Bytes rgba) :
    ∃ out out', rgbxToNvProfOn cpu o ch s i rgba stride rg m = .ok out ∧
      rgbxToNvProfOn cpu' o ch s i rgba stride rg m = .ok out' ∧ out.y = out'.y ∧
      (∀ cx cy, cx < cover i.width (hdiv s) → cy < cover i.height (vdiv s) → ∀ k, k < 2 →
        let E := if s = .yuv444 then 0 else 1
        at' out.uv i.uvStride (2 * cx + k) cy ≤ at' out'.uv i.uvStride (2 * cx + k) cy + E ∧
          at' out'.uv i.uvStride (2 * cx + k) cy ≤ at' out.uv i.uvStride (2 * cx + k) cy + E) := by
  obtain ⟨out, e, h⟩ := c96_prof_nv_encode cpu o ch s i rgba stride rg m D hi hsrc hb
  obtain ⟨out', e', h'⟩ := c96_prof_nv_encode cpu' o ch s i rgba stride rg m D hi hsrc hb
  refine ⟨out, out', e, e', frameSpec_unique h.y h'.y, fun cx cy hx hy k hk => ?_⟩
  intro E
  have bs := block_shape hi.wpos hi.hpos hx hy (buf := rgba) (stride := stride) (cn := ch.count)
  have c1 := profNvOn_close cpu cpu' ch rg m bs (mem_block hb)
  have c2 := profNvOn_close cpu' cpu ch rg m bs (mem_block hb)
  obtain ⟨a1, a2⟩ := h.parts hx hy
  obtain ⟨b1, b2⟩ := h'.parts hx hy
  have : k = o.uPos ∨ k = o.vPos := by cases o <;> simp only [NVOrder.uPos, NVOrder.vPos] <;> omega
  rcases this with rfl | rfl
  · rw [a1, b1]; exact ⟨c1.1, c2.1⟩
  · rw [a2, b2]; exact ⟨c1.2, c2.2⟩

theorem profOn_exact (cpu : Cpu) {w hh : Nat} (hw : 0 < w) (hh0 : 0 < hh) {s : Sampling}
    {cx cy : Nat} (hx : cx < cover w (hdiv s)) (hy : cy < cover hh (vdiv s)) (ch : Channels)
    (rg : YuvRange) (m : Matrix) {buf : Buf} (hb : Bytes buf) {stride : Nat} :
    let l := block buf stride ch.count w hh (hdiv s) (vdiv s) cx cy
    let last := lastColumn w hh (hdiv s) (vdiv s) cx cy
    let E : Rat := if s = .yuv444 then 55 / 100 else if cpu = .plain then 105 / 100 else 77 / 100
    let r := mean (l.map (red ch))
    let g := mean (l.map (green ch))
    let b := mean (l.map (blue ch))
    |(profCbOn cpu s ch rg m last l : Rat) - exactCb 8 rg m r g b| ≤ E ∧
    |(profCrOn cpu s ch rg m last l : Rat) - exactCr 8 rg m r g b| ≤ E := by
  intro l last E r g b
  have bs : BlockShape s last l.length := block_shape hw hh0 hx hy
  have hv := profChroma_exact ch rg m bs (mem_block hb)
  by_cases hs : s = .yuv444
  · have hE : E = 55 / 100 := if_pos hs
    have hc := profChroma_scalar ch rg m bs (mem_block hb) (avgNear_planar bs)
    simp only [if_pos hs, Nat.add_zero] at hv hc
    unfold profCbOn profCrOn
    rw [hE]
    split
    · rw [le_antisymm hc.1.2 hc.1.1, le_antisymm hc.2.2 hc.2.1]; exact hv
    · exact hv
  · simp only [if_neg hs] at hv
    unfold profCbOn profCrOn
    simp only [E, if_neg hs]
    split
    · obtain ⟨a1, a2⟩ := planarAvg_close hw hh0 hx hy (buf := buf) (stride := stride) (cn := ch.count)
      exact chroma8_close (p := 15) (Or.inr rfl) ch rg m (mem_block hb) a1 a2
    · exact hv

/-- C97 against the standard: on every processor luma is within 0.55 code values of the exact ITU-R luma
of its pixel; chroma is within 0.55 code values of the exact chroma without subsampling, within 0.77
of the exact chroma of the exact mean of the pixels it covers with vector extensions, 1.05 without. -/
theorem c97_cpu_accuracy (cpu : Cpu) (ch : Channels) (s : Sampling) (i : Planar) (rgba : Buf)
    (stride : Nat) (rg : YuvRange) (m : Matrix) (D : Nat) (hi : GoodPlanar i s D)
    (hsrc : GoodDst rgba.length stride i.width i.height ch.count) (hb : Bytes rgba) :
    ∃ out, rgbxToYuvProfOn cpu ch s i rgba stride rg m = .ok out ∧
      (∀ x y, x < i.width → y < i.height →
        let px := pixelAt rgba stride ch.count x y
        |(at' out.y i.yStride x y : Rat) - exactY 8 rg m (red ch px) (green ch px) (blue ch px)|
          ≤ 55 / 100) ∧
      (∀ cx cy, cx < cover i.width (hdiv s) → cy < cover i.height (vdiv s) →
        let blk := block rgba stride ch.count i.width i.height (hdiv s) (vdiv s) cx cy
        let r := mean (blk.map (red ch))
        let g := mean (blk.map (green ch))
        let b := mean (blk.map (blue ch))
        let E : Rat := if s = .yuv444 then 55 / 100 else if cpu = .plain then 105 / 100 else 77 / 100
        |(at' out.u i.uStride cx cy : Rat) - exactCb 8 rg m r g b| ≤ E ∧
        |(at' out.v i.vStride cx cy : Rat) - exactCr 8 rg m r g b| ≤ E) := by
  obtain ⟨out, e, h⟩ := c96_prof_encode cpu ch s i rgba stride rg m D hi hsrc hb
  refine ⟨out, e, fun x y hx hy => ?_, fun cx cy hx hy => ?_⟩
  · intro px
    rw [frameSpec_at h.y hx hy]
    obtain ⟨r1, g1, b1⟩ := comps_lt (by omega) ch (mem_pixelAt hb (stride := stride)
        (cn := ch.count) (x := x) (y := y))
    exact (low8_encode (p := 15) (Or.inr rfl) rg m r1 g1 b1).2.1
  · rw [frameSpec_at h.u hx hy, frameSpec_at h.v hx hy]
    exact profOn_exact cpu hi.wpos hi.hpos hx hy ch rg m hb

/-- C97: in the limited range every processor keeps to the nominal ranges 16…235 and 16…240 — which the
vector code of the balanced mode does not (C61). -/
theorem c97_nominal_range (cpu : Cpu) (ch : Channels) (s : Sampling) (i : Planar) (rgba : Buf)
    (stride : Nat) (m : Matrix) (D : Nat) (hi : GoodPlanar i s D)
    (hsrc : GoodDst rgba.length stride i.width i.height ch.count) (hb : Bytes rgba) :
    ∃ out, rgbxToYuvProfOn cpu ch s i rgba stride .limited m = .ok out ∧
      (∀ x y, x < i.width → y < i.height → 16 ≤ at' out.y i.yStride x y ∧ at' out.y i.yStride x y ≤ 235) ∧
      (∀ cx cy, cx < cover i.width (hdiv s) → cy < cover i.height (vdiv s) →
        (16 ≤ at' out.u i.uStride cx cy ∧ at' out.u i.uStride cx cy ≤ 240) ∧
        (16 ≤ at' out.v i.vStride cx cy ∧ at' out.v i.vStride cx cy ≤ 240)) := by
  obtain ⟨out, e, h⟩ := c96_prof_encode cpu ch s i rgba stride .limited m D hi hsrc hb
  refine ⟨out, e, fun x y hx hy => ?_, fun cx cy hx hy => ?_⟩
  · rw [frameSpec_at h.y hx hy]
    obtain ⟨r1, g1, b1⟩ := comps_lt (by omega) ch (mem_pixelAt hb (stride := stride)
        (cn := ch.count) (x := x) (y := y))
    exact (profScalar_range m r1 g1 b1).1
  · rw [frameSpec_at h.u hx hy, frameSpec_at h.v hx hy]
    unfold profCbOn profCrOn
    split
    · obtain ⟨lr, lg, lb⟩ := comps_map (mem_block hb (stride := stride) (cn := ch.count) (w := i.width)
        (hh := i.height) (hd := hdiv s) (vd := vdiv s) (cx := cx) (cy := cy)) ch
      obtain ⟨a1, -⟩ := planarAvg_close hi.wpos hi.hpos hx hy (buf := rgba) (stride := stride)
        (cn := ch.count)
      exact (profScalar_range m (a1 _ lr) (a1 _ lg) (a1 _ lb)).2
    · exact profChroma_range ch m (block_shape hi.wpos hi.hpos hx hy) (mem_block hb)

/-- The hypotheses of C96 and C97 are met. -/
example : GoodBiPlanar demoDstNV .yuv420 256 ∧ GoodPlanar demoDst420 .yuv420 256 ∧
    demoDstNV.width = demoDst420.width ∧ demoDstNV.height = demoDst420.height ∧
    GoodDst demoRgb.length 11 3 3 3 ∧ Bytes demoRgb :=
  ⟨demoDstNV_good, demoDst420_good, rfl, rfl, ⟨by unfold U32; decide, by decide, by
    unfold FullRows; decide, by decide⟩, by unfold Bytes; decide⟩

/-- The processors do differ in subsampled chroma: a sample of the 3×3 demonstration image. -/
theorem c97_chroma_differs :
    ∃ out out', rgbxToYuvProfOn .avx2 .rgb .yuv420 demoDst420 demoRgb 11 .limited .bt601 = .ok out ∧
      rgbxToYuvProfOn .plain .rgb .yuv420 demoDst420 demoRgb 11 .limited .bt601 = .ok out' ∧
      at' out.v 2 0 0 = 132 ∧ at' out'.v 2 0 0 = 133 := by
  have hsrc : GoodDst demoRgb.length 11 3 3 3 :=
    ⟨by unfold U32; decide, by decide, by unfold FullRows; decide, by decide⟩
  have hb : Bytes demoRgb := by unfold Bytes; decide
  obtain ⟨out, e, h⟩ := c96_prof_encode .avx2 .rgb .yuv420 demoDst420 demoRgb 11 .limited .bt601 256
    demoDst420_good hsrc hb
  obtain ⟨out', e', h'⟩ := c96_prof_encode .plain .rgb .yuv420 demoDst420 demoRgb 11 .limited .bt601 256
    demoDst420_good hsrc hb
  refine ⟨out, out', e, e', ?_, ?_⟩
  · exact (frameSpec_at h.v (x := 0) (y := 0) (by decide) (by decide)).trans (by decide +kernel)
  · exact (frameSpec_at h'.v (x := 0) (y := 0) (by decide) (by decide)).trans (by decide +kernel)

end Verif
