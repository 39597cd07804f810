import Verif.Lemmas.X86NvEncHandlers
import Verif.Props.X86Encode
import Verif.Props.NvEncode
import Verif.Props.X86NvDecode
import Verif.Props.Gray
/-!
# C64 – C67: 8-bit RGB to semi-planar YCbCr on x86 processors
-/
namespace Verif
open Spec X86

/-! ## C64 -/

/-- The Cb sample of the pixels it covers.  The scalar semi-planar encoder always rounds averages to
nearest; the vector code averages as in the planar encoder. -/
def nvCb (cpu : Cpu) (s : Sampling) (ch : Channels) (rg : YuvRange) (m : Matrix) (last : Bool)
    (l : List Buf) : Nat :=
  if cpu = .plain then cb8 13 ch rg m avgUp l else vecCb s ch rg m last l
/-- The Cr sample. -/
def nvCr (cpu : Cpu) (s : Sampling) (ch : Channels) (rg : YuvRange) (m : Matrix) (last : Bool)
    (l : List Buf) : Nat :=
  if cpu = .plain then cr8 13 ch rg m avgUp l else vecCr s ch rg m last l

/-- Both planes are determined by the pixels of the source, and nothing else is written. -/
structure NvEncodedOn (cpu : Cpu) (o : NVOrder) (ch : Channels) (s : Sampling) (rg : YuvRange)
    (m : Matrix) (rgba : Buf) (stride : Nat) (i out : BiPlanar) : Prop where
  geometry : out.width = i.width ∧ out.height = i.height ∧ out.yStride = i.yStride ∧
    out.uvStride = i.uvStride
  y : FrameSpec out.y i.y i.yStride i.width i.height 1 fun x y =>
    [cpuLuma cpu ch rg m (pixelAt rgba stride ch.count x y)]
  uv : FrameSpec out.uv i.uv i.uvStride (cover i.width (hdiv s)) (cover i.height (vdiv s)) 2
    fun cx cy =>
    let last := lastColumn i.width i.height (hdiv s) (vdiv s) cx cy
    let blk := block rgba stride ch.count i.width i.height (hdiv s) (vdiv s) cx cy
    pairOf o (nvCb cpu s ch rg m last blk) (nvCr cpu s ch rg m last blk)

theorem pairOf_of_parts {o : NVOrder} {q : Buf} {a b : Nat} (hl : q.length = 2)
    (hu : q.getD o.uPos 0 = a) (hv : q.getD o.vPos 0 = b) : q = pairOf o a b := by
  match q, hl with
  | [x, y], _ =>
    cases o
    · cases hu; cases hv; rfl
    · cases hu; cases hv; rfl

theorem x86_nv_encode_vec {cpu : Cpu} (hcpu : cpu ≠ .plain) (o : NVOrder) (ch : Channels)
    (s : Sampling) (i : BiPlanar) (rgba : Buf) (stride : Nat) (rg : YuvRange) (m : Matrix) (D : Nat)
    (hi : GoodBiPlanar i s D) (hsrc : GoodDst rgba.length stride i.width i.height ch.count)
    (hb : Bytes rgba) :
    ∃ out, rgbxToNvOn cpu o ch s i rgba stride rg m = .ok out ∧
      NvEncodedOn cpu o ch s rg m rgba stride i out := by
  have hr := hi.rows
  have hcn := count_pos ch
  have fin : ∀ oc : Outcome (Buf × Buf),
      NvEncoded (vecFun s ch rg m) (vecRel (vecFun s ch rg m)) o s ch.count i rgba stride oc →
      ∃ out, (oc >>= fun x => pure { i with y := x.1, uv := x.2 }) = Outcome.ok out ∧
      NvEncodedOn cpu o ch s rg m rgba stride i out := by
    intro oc ⟨y, uv, e, ly, luv⟩
    refine ⟨{ i with y, uv }, by rw [e]; rfl, ⟨rfl, rfl, rfl, rfl⟩, ?_, frameRel_eq ?_⟩
    · refine frame_samples hi.y.full hi.y.cols_le ⟨ly.1, fun x y hx hy => ?_, ly.2.2⟩
      have ey : (vecFun s ch rg m).lumaAt s rgba stride ch.count x y
          = cpuLuma cpu ch rg m (pixelAt rgba stride ch.count x y) := by
        unfold EncFun.lumaAt cpuLuma; rw [if_neg hcpu]; split <;> rfl
      rcases ly.2.1 x y hx hy with h | h
      · exact .inl (by rw [h, ey])
      · exact .inr (h.trans (by unfold cpuLuma; rw [if_neg hcpu]; rfl))
    · rw [cover_hdiv hi.wpos, cover_vdiv hi.hpos]
      refine ⟨luv.1, fun x y hx hy => ?_, luv.2.2⟩
      simp only [nvCb, nvCr, if_neg hcpu]
      rcases luv.2.1 x y hx hy with h | ⟨h1, h2⟩
      · rw [h]; exact pairOf_eq ..
      · refine pairOf_of_parts ?_ h1 h2
        have l1 := hi.uvLen
        have l2 := hi.uvStride
        rw [cover_hdiv hi.wpos] at l2
        rw [cover_vdiv hi.hpos] at l1
        have l3 : y * i.uvStride + i.uvStride ≤ i.uv.length := by
          rw [l1, ← Nat.succ_mul, Nat.mul_comm]
          exact Nat.mul_le_mul_left _ hy
        have l4 := luv.1
        unfold pixelAt
        rw [List.length_take, List.length_drop, l4]
        have : y * i.uvStride = i.uvStride * y := Nat.mul_comm ..
        omega
  have hE := vecBlocks_ok 256 ch.count (vecFun s ch rg m)
  have h1 := rowEncoderNV_ok hcpu o s ch rg m hi.wpos
  have f1 := rowEncoderNV_finishes hcpu o s ch (getYuvRange 8 rg) (searchForward 13 8 rg m) i.width
  unfold rgbxToNvOn rgbxToNv rgbxToNvImpl
  rw [hsrc.accepted hi.wpos hi.hpos hi.w32 hi.h32 hcn (count_le ch), hi.accepted]
  simp only [Outcome.bind_ok]
  cases s with
  | yuv444 =>
    rw [nvEncode444_fin _ (vecBlocks ch.count (vecFun .yuv444 ch rg m)) f1]
    exact fin _ (nvEncode444_ok hcn hE h1 hr hsrc.full hsrc.cols_le hb)
  | yuv422 =>
    rw [nvEncode422_fin _ (vecBlocks ch.count (vecFun .yuv422 ch rg m)) f1]
    exact fin _ (nvEncode422_ok hcn hE h1 hr hsrc.full hsrc.cols_le hb)
  | yuv420 =>
    have h2 := rowEncoderNV420_ok hcpu o ch rg m hi.wpos
    have f2 := rowEncoderNV420_finishes hcpu o ch (getYuvRange 8 rg) (searchForward 13 8 rg m) i.width
    rw [nvEncode420_fin _ (vecBlocks ch.count (vecFun .yuv420 ch rg m)) _ f1 f2]
    exact fin _ (nvEncode420_ok hcn hE h1 h2 hr hsrc.full hsrc.cols_le hb (Or.inl rfl))

/-- A processor without vector extensions runs the scalar code. -/
theorem c64_plain_is_scalar (o : NVOrder) (ch : Channels) (s : Sampling) (i : BiPlanar) (rgba : Buf)
    (stride : Nat) (rg : YuvRange) (m : Matrix) :
    rgbxToNvOn .plain o ch s i rgba stride rg m =
      rgbxToNv x64 .balanced o ch s noEncNV noEncNV420 i rgba stride rg m := rfl

/-- C64: on every class of x86 processor encoding a good RGB(A) buffer into a good 8-bit semi-planar
image succeeds — no load or store of the vector code leaves its slice or its scratch buffers, no
loop diverges, whatever the width, the strides and the padding — and writes exactly the luma samples
of the image and the chroma pairs covering it.  Every sample is determined: luma by its pixel, a
chroma pair by the pixels it covers. -/
theorem c64_x86_nv_encode (cpu : Cpu) (o : NVOrder) (ch : Channels) (s : Sampling) (i : BiPlanar)
    (rgba : Buf) (stride : Nat) (rg : YuvRange) (m : Matrix) (D : Nat) (hi : GoodBiPlanar i s D)
    (hsrc : GoodDst rgba.length stride i.width i.height ch.count) (hb : Bytes rgba) :
    ∃ out, rgbxToNvOn cpu o ch s i rgba stride rg m = .ok out ∧
      NvEncodedOn cpu o ch s rg m rgba stride i out := by
  by_cases hcpu : cpu = .plain
  · subst hcpu
    rw [c64_plain_is_scalar]
    obtain ⟨out, e, h⟩ := c20_nv_encode_exact .balanced o ch s i rgba stride rg m D hi hsrc hb
    refine ⟨out, e, h.geometry, ?_, ?_⟩
    · simpa [cpuLuma, encodePrecision] using h.y
    · simpa [nvCb, nvCr, encodePrecision] using h.uv
  · exact x86_nv_encode_vec hcpu o ch s i rgba stride rg m D hi hsrc hb

theorem biPlanar_ext {a b : BiPlanar} (h1 : a.width = b.width) (h2 : a.height = b.height)
    (h3 : a.yStride = b.yStride) (h4 : a.uvStride = b.uvStride) (h6 : a.y = b.y)
    (h7 : a.uv = b.uv) : a = b := by
  cases a; cases b; simp_all

/-- The encoded image is determined. -/
theorem NvEncodedOn.unique {cpu cpu' : Cpu} (hc : cpu = cpu' ∨ (cpu ≠ .plain ∧ cpu' ≠ .plain))
    {o : NVOrder} {ch : Channels} {s : Sampling} {rg : YuvRange} {m : Matrix} {rgba rgba' : Buf}
    {stride stride' : Nat} {i out out' : BiPlanar}
    (hsame : ∀ x y, x < i.width → y < i.height →
      pixelAt rgba stride ch.count x y = pixelAt rgba' stride' ch.count x y)
    (h : NvEncodedOn cpu o ch s rg m rgba stride i out)
    (h' : NvEncodedOn cpu' o ch s rg m rgba' stride' i out') : out' = out := by
  have hblk : ∀ cx cy, block rgba stride ch.count i.width i.height (hdiv s) (vdiv s) cx cy
      = block rgba' stride' ch.count i.width i.height (hdiv s) (vdiv s) cx cy := by
    intro cx cy
    unfold block
    refine List.flatMap_congr fun y hy => List.map_congr_left fun x hx => ?_
    exact hsame x y (blockCols_lt hx) (blockCols_lt hy)
  have ey : ∀ px, cpuLuma cpu ch rg m px = cpuLuma cpu' ch rg m px := by
    intro px
    rcases hc with rfl | ⟨h1, h2⟩
    · rfl
    · unfold cpuLuma; rw [if_neg h1, if_neg h2]
  have eu : ∀ b l, nvCb cpu s ch rg m b l = nvCb cpu' s ch rg m b l := by
    intro b l
    rcases hc with rfl | ⟨h1, h2⟩
    · rfl
    · unfold nvCb; rw [if_neg h1, if_neg h2]
  have ev : ∀ b l, nvCr cpu s ch rg m b l = nvCr cpu' s ch rg m b l := by
    intro b l
    rcases hc with rfl | ⟨h1, h2⟩
    · rfl
    · unfold nvCr; rw [if_neg h1, if_neg h2]
  obtain ⟨g1, g2, g3, g4⟩ := h.geometry
  obtain ⟨g1', g2', g3', g4'⟩ := h'.geometry
  refine biPlanar_ext (g1'.trans g1.symm) (g2'.trans g2.symm) (g3'.trans g3.symm)
    (g4'.trans g4.symm) ?_ ?_
  · refine frameSpec_unique h'.y ⟨h.y.1, fun x y c hx hy hc => ?_, h.y.2.2⟩
    rw [h.y.2.1 x y c hx hy hc]
    simp only [hsame x y hx hy, ey]
  · refine frameSpec_unique h'.uv ?_
    have := h.uv
    simp only [hblk, eu, ev] at this
    exact this

/-- C64: on one processor the encoded planes depend on the source pixels only — not on the source
stride, its row padding or elements after its last row. -/
theorem c64_source_pixels_only (cpu : Cpu) (o : NVOrder) (ch : Channels) (s : Sampling) (i : BiPlanar)
    (rgba rgba' : Buf) (stride stride' : Nat) (rg : YuvRange) (m : Matrix) (D : Nat)
    (hi : GoodBiPlanar i s D) (hsrc : GoodDst rgba.length stride i.width i.height ch.count)
    (hsrc' : GoodDst rgba'.length stride' i.width i.height ch.count)
    (hb : Bytes rgba) (hb' : Bytes rgba')
    (hsame : ∀ x y, x < i.width → y < i.height →
      pixelAt rgba stride ch.count x y = pixelAt rgba' stride' ch.count x y) :
    ∃ out, rgbxToNvOn cpu o ch s i rgba stride rg m = .ok out ∧
      rgbxToNvOn cpu o ch s i rgba' stride' rg m = .ok out := by
  obtain ⟨out, e, h⟩ := c64_x86_nv_encode cpu o ch s i rgba stride rg m D hi hsrc hb
  obtain ⟨out', e', h'⟩ := c64_x86_nv_encode cpu o ch s i rgba' stride' rg m D hi hsrc' hb'
  exact ⟨out, e, by rw [e', NvEncodedOn.unique (.inl rfl) hsame h h']⟩

/-- C64: AVX2 and SSE4.1 encode every image to the same bytes. -/
theorem c64_avx2_sse_equal (o : NVOrder) (ch : Channels) (s : Sampling) (i : BiPlanar) (rgba : Buf)
    (stride : Nat) (rg : YuvRange) (m : Matrix) (D : Nat) (hi : GoodBiPlanar i s D)
    (hsrc : GoodDst rgba.length stride i.width i.height ch.count) (hb : Bytes rgba) :
    ∃ out, rgbxToNvOn .avx2 o ch s i rgba stride rg m = .ok out ∧
      rgbxToNvOn .sse41 o ch s i rgba stride rg m = .ok out := by
  obtain ⟨out, e, h⟩ := c64_x86_nv_encode .avx2 o ch s i rgba stride rg m D hi hsrc hb
  obtain ⟨out', e', h'⟩ := c64_x86_nv_encode .sse41 o ch s i rgba stride rg m D hi hsrc hb
  exact ⟨out, e, by
    rw [e', NvEncodedOn.unique (.inr ⟨by decide, by decide⟩) (fun _ _ _ _ => rfl) h h']⟩

/-! ## C65: layouts agree -/

/-- Cb and Cr of an encoded pair. -/
theorem NvEncodedOn.parts {cpu : Cpu} {o : NVOrder} {ch : Channels} {s : Sampling} {rg : YuvRange}
    {m : Matrix} {rgba : Buf} {stride : Nat} {i out : BiPlanar}
    (h : NvEncodedOn cpu o ch s rg m rgba stride i out) {cx cy : Nat}
    (hx : cx < cover i.width (hdiv s)) (hy : cy < cover i.height (vdiv s)) :
    let last := lastColumn i.width i.height (hdiv s) (vdiv s) cx cy
    let blk := block rgba stride ch.count i.width i.height (hdiv s) (vdiv s) cx cy
    at' out.uv i.uvStride (2 * cx + o.uPos) cy = nvCb cpu s ch rg m last blk ∧
    at' out.uv i.uvStride (2 * cx + o.vPos) cy = nvCr cpu s ch rg m last blk := by
  intro last blk
  rw [frameSpec_pair h.uv hx hy (c := o.uPos) (by cases o <;> decide),
    frameSpec_pair h.uv hx hy (c := o.vPos) (by cases o <;> decide)]
  cases o <;> exact ⟨rfl, rfl⟩

/-- C65: with vector extensions the planar and the semi-planar encoder give the same picture, for
every sampling, every size — odd widths included — and on different processors, too. -/
theorem c65_nv_planar_agree (cpu cpu' : Cpu) (hc : cpu ≠ .plain) (hc' : cpu' ≠ .plain) (o : NVOrder)
    (ch : Channels) (s : Sampling)
    (i : BiPlanar) (j : Planar) (rgba : Buf) (stride : Nat) (rg : YuvRange) (m : Matrix) (D D' : Nat)
    (hi : GoodBiPlanar i s D) (hj : GoodPlanar j s D') (hw : i.width = j.width)
    (hh : i.height = j.height) (hsrc : GoodDst rgba.length stride i.width i.height ch.count)
    (hb : Bytes rgba) :
    ∃ nv pl, rgbxToNvOn cpu o ch s i rgba stride rg m = .ok nv ∧
      rgbxToYuvOn cpu' ch s j rgba stride rg m = .ok pl ∧ SamePicture nv o pl s := by
  obtain ⟨nv, e1, h1⟩ := c64_x86_nv_encode cpu o ch s i rgba stride rg m D hi hsrc hb
  have hsrc' := hsrc
  rw [hw, hh] at hsrc'
  obtain ⟨pl, e2, h2⟩ := c59_x86_encode cpu' ch s j rgba stride rg m D' hj hsrc' hb
  obtain ⟨g1, g2, g3, g4⟩ := h1.geometry
  obtain ⟨k1, k2, k3, k4, k5⟩ := h2.geometry
  refine ⟨nv, pl, e1, e2, ?_, ?_, ?_, ?_⟩
  · rw [g1, k1, hw]
  · rw [g2, k2, hh]
  · intro x y hx hy
    rw [g1] at hx
    rw [g2] at hy
    rw [g3, k3, frameSpec_at h1.y hx hy, frameSpec_at h2.y (hw ▸ hx) (hh ▸ hy)]
    unfold cpuLuma
    rw [if_neg hc, if_neg hc']
  · intro cx cy hx hy
    rw [g1] at hx
    rw [g2] at hy
    obtain ⟨p1, p2⟩ := h1.parts hx hy
    rw [g4, k4, k5, frameSpec_at h2.u (hw ▸ hx) (hh ▸ hy), frameSpec_at h2.v (hw ▸ hx) (hh ▸ hy),
      ← hw, ← hh]
    unfold cpuCb cpuCr
    unfold nvCb nvCr at *
    rw [if_neg hc] at p1 p2
    rw [if_neg hc', if_neg hc']
    cases o
    · exact ⟨p1, p2⟩
    · exact ⟨p2, p1⟩

/-- C65: on every processor NV21 (NV61, NV42) is NV12 (NV16, NV24) with the two elements of every
pair exchanged. -/
theorem c65_nv21_is_swapped_nv12 (cpu : Cpu) (ch : Channels) (s : Sampling) (i : BiPlanar)
    (rgba : Buf) (stride : Nat) (rg : YuvRange) (m : Matrix) (D : Nat) (hi : GoodBiPlanar i s D)
    (hsrc : GoodDst rgba.length stride i.width i.height ch.count) (hb : Bytes rgba) :
    ∃ a b, rgbxToNvOn cpu .uv ch s i rgba stride rg m = .ok a ∧
      rgbxToNvOn cpu .vu ch s i rgba stride rg m = .ok b ∧
      a.y = b.y ∧
      ∀ cx cy, cx < cover i.width (hdiv s) → cy < cover i.height (vdiv s) →
        at' a.uv i.uvStride (2 * cx) cy = at' b.uv i.uvStride (2 * cx + 1) cy ∧
        at' a.uv i.uvStride (2 * cx + 1) cy = at' b.uv i.uvStride (2 * cx) cy := by
  obtain ⟨a, e1, h1⟩ := c64_x86_nv_encode cpu .uv ch s i rgba stride rg m D hi hsrc hb
  obtain ⟨b, e2, h2⟩ := c64_x86_nv_encode cpu .vu ch s i rgba stride rg m D hi hsrc hb
  refine ⟨a, b, e1, e2, frameSpec_unique h1.y h2.y, fun cx cy hx hy => ?_⟩
  obtain ⟨a1, a2⟩ := h1.parts hx hy
  obtain ⟨b1, b2⟩ := h2.parts hx hy
  exact ⟨a1.trans b1.symm, a2.trans b2.symm⟩

/-! ## C66 -/

/-- In a last column the vector code computes chroma from the rounded average. -/
theorem vecChroma_last {s : Sampling} (ch : Channels) (rg : YuvRange) (m : Matrix)
    {l : List Buf} (hl : l.length = 2) (hb : ∀ px ∈ l, ∀ a ∈ px, a < 256) :
    (vecCb s ch rg m true l ≤ cb8 13 ch rg m avgUp l + 1 ∧
      cb8 13 ch rg m avgUp l ≤ vecCb s ch rg m true l + 1) ∧
    (vecCr s ch rg m true l ≤ cr8 13 ch rg m avgUp l + 1 ∧
      cr8 13 ch rg m avgUp l ≤ vecCr s ch rg m true l + 1) := by
  match l, hl with
  | [p, q], _ =>
    obtain ⟨pr, pg, pb⟩ := comps_lt (by omega) ch (hb p (by simp))
    obtain ⟨qr, qg, qb⟩ := comps_lt (by omega) ch (hb q (by simp))
    have lr : avgUp [red ch p, red ch q] < 256 := by rw [avgUp_two]; omega
    have lg : avgUp [green ch p, green ch q] < 256 := by rw [avgUp_two]; omega
    have lb : avgUp [blue ch p, blue ch q] < 256 := by rw [avgUp_two]; omega
    have w : ∀ a b : Nat, chromaWord s true [a, b] = chromaWord .yuv420 false [avgUp [a, b]] := by
      intro a b; rw [avgUp_two]; rfl
    obtain ⟨⟨-, e2, e3⟩, -⟩ := low8_encode (p := 13) (Or.inl rfl) rg m lr lg lb
    obtain ⟨-, r2, r3⟩ := lumaVal_range rg m lr lg lb
    have hbu : (getYuvRange 8 rg).biasUv = 128 := by cases rg <;> rfl
    obtain ⟨k1, k2⟩ := chromaRowOk rg m
    have sh : BlockShape .yuv420 false 1 := ⟨by simp, by simp, by simp⟩
    have c1 := chromaRaw_scalar k1 (s := .yuv420) (last := false) (lr := [avgUp [red ch p, red ch q]])
      (lg := [avgUp [green ch p, green ch q]]) (lb := [avgUp [blue ch p, blue ch q]]) sh rfl rfl
      (by simpa using lr) (by simpa using lg) (by simpa using lb)
    have c2 := chromaRaw_scalar k2 (s := .yuv420) (last := false) (lr := [avgUp [red ch p, red ch q]])
      (lg := [avgUp [green ch p, green ch q]]) (lb := [avgUp [blue ch p, blue ch q]]) sh rfl rfl
      (by simpa using lr) (by simpa using lg) (by simpa using lb)
    have ea : ∀ a : Nat, avgOf false [a] = a := fun a => by simp [avgOf, avgUp]
    simp only [ea] at c1 c2
    have v1 : cbVal 13 8 rg m (avgUp [red ch p, red ch q]) (avgUp [green ch p, green ch q])
        (avgUp [blue ch p, blue ch q]) = encVal 13 (searchForward 13 8 rg m).cbR
          (searchForward 13 8 rg m).cbG (searchForward 13 8 rg m).cbB 128
          (avgUp [red ch p, red ch q]) (avgUp [green ch p, green ch q])
          (avgUp [blue ch p, blue ch q]) := by unfold cbVal; rw [hbu]
    have v2 : crVal 13 8 rg m (avgUp [red ch p, red ch q]) (avgUp [green ch p, green ch q])
        (avgUp [blue ch p, blue ch q]) = encVal 13 (searchForward 13 8 rg m).crR
          (searchForward 13 8 rg m).crG (searchForward 13 8 rg m).crB 128
          (avgUp [red ch p, red ch q]) (avgUp [green ch p, green ch q])
          (avgUp [blue ch p, blue ch q]) := by unfold crVal; rw [hbu]
    rw [← v1] at c1
    rw [← v2] at c2
    have d1 := byteSat_near r2.1 r2.2 c1
    have d2 := byteSat_near r3.1 r3.2 c2
    rw [← e2, ← vecSum_raw] at d1
    rw [← e3, ← vecSum_raw] at d2
    unfold cb8 cr8 vecCb vecCr
    simp only [List.map_cons, List.map_nil, w]
    omega

theorem nvChroma_vec {s : Sampling} {last : Bool} (ch : Channels) (rg : YuvRange) (m : Matrix)
    {l : List Buf} (hl : BlockShape s last l.length) (hb : ∀ px ∈ l, ∀ a ∈ px, a < 256) :
    (vecCb s ch rg m last l ≤ cb8 13 ch rg m avgUp l + 1 ∧
      cb8 13 ch rg m avgUp l ≤ vecCb s ch rg m last l + 1) ∧
    (vecCr s ch rg m last l ≤ cr8 13 ch rg m avgUp l + 1 ∧
      cr8 13 ch rg m avgUp l ≤ vecCr s ch rg m last l + 1) := by
  cases last
  · exact vecChroma_scalar ch rg m hl hb
  · exact vecChroma_last ch rg m (hl.last2 rfl) hb

theorem nvChroma_close (cpu cpu' : Cpu) {s : Sampling} {last : Bool} (ch : Channels) (rg : YuvRange)
    (m : Matrix) {l : List Buf} (hl : BlockShape s last l.length)
    (hb : ∀ px ∈ l, ∀ a ∈ px, a < 256) :
    nvCb cpu s ch rg m last l ≤ nvCb cpu' s ch rg m last l + 1 ∧
    nvCr cpu s ch rg m last l ≤ nvCr cpu' s ch rg m last l + 1 := by
  have := nvChroma_vec ch rg m hl hb
  unfold nvCb nvCr
  generalize cb8 13 ch rg m avgUp l = a at *
  generalize cr8 13 ch rg m avgUp l = b at *
  constructor
  · split <;> split <;> omega
  · split <;> split <;> omega

/-- C66: two processors of whatever class encode an image to samples that differ by at most one code
value, and write the same area. -/
theorem c66_nv_cpu_agreement (cpu cpu' : Cpu) (o : NVOrder) (ch : Channels) (s : Sampling)
    (i : BiPlanar) (rgba : Buf)
    (stride : Nat) (rg : YuvRange) (m : Matrix) (D : Nat) (hi : GoodBiPlanar i s D)
    (hsrc : GoodDst rgba.length stride i.width i.height ch.count) (hb : Bytes rgba) :
    ∃ out out', rgbxToNvOn cpu o ch s i rgba stride rg m = .ok out ∧
      rgbxToNvOn cpu' o ch s i rgba stride rg m = .ok out' ∧
      (∀ x y, x < i.width → y < i.height →
        at' out.y i.yStride x y ≤ at' out'.y i.yStride x y + 1 ∧
        at' out'.y i.yStride x y ≤ at' out.y i.yStride x y + 1) ∧
      (∀ cx cy c, cx < cover i.width (hdiv s) → cy < cover i.height (vdiv s) → c < 2 →
        at' out.uv i.uvStride (2 * cx + c) cy ≤ at' out'.uv i.uvStride (2 * cx + c) cy + 1 ∧
        at' out'.uv i.uvStride (2 * cx + c) cy ≤ at' out.uv i.uvStride (2 * cx + c) cy + 1) := by
  obtain ⟨out, e, h⟩ := c64_x86_nv_encode cpu o ch s i rgba stride rg m D hi hsrc hb
  obtain ⟨out', e', h'⟩ := c64_x86_nv_encode cpu' o ch s i rgba stride rg m D hi hsrc hb
  refine ⟨out, out', e, e', fun x y hx hy => ?_, fun cx cy c hx hy hc => ?_⟩
  · rw [frameSpec_at h.y hx hy, frameSpec_at h'.y hx hy]
    exact ⟨cpuLuma_close _ _ _ _ _ (mem_pixelAt hb), cpuLuma_close _ _ _ _ _ (mem_pixelAt hb)⟩
  · have bs := block_shape hi.wpos hi.hpos hx hy (buf := rgba) (stride := stride) (cn := ch.count)
    have c1 := nvChroma_close cpu cpu' ch rg m bs (mem_block hb)
    have c2 := nvChroma_close cpu' cpu ch rg m bs (mem_block hb)
    obtain ⟨p1, p2⟩ := h.parts hx hy
    obtain ⟨q1, q2⟩ := h'.parts hx hy
    rw [← p1, ← p2, ← q1, ← q2] at c1 c2
    have : c = o.uPos ∨ c = o.vPos := by
      cases o
      · have : c = 0 ∨ c = 1 := by omega
        exact this
      · have : c = 1 ∨ c = 0 := by omega
        exact this
    rcases this with rfl | rfl
    · exact ⟨c1.1, c2.1⟩
    · exact ⟨c1.2, c2.2⟩

theorem nvChroma_exact (cpu : Cpu) {w hh : Nat} (hw : 0 < w) (hh0 : 0 < hh) {s : Sampling}
    {cx cy : Nat} (hx : cx < cover w (hdiv s)) (hy : cy < cover hh (vdiv s)) (ch : Channels)
    (rg : YuvRange) (m : Matrix) {buf : Buf} (hb : Bytes buf) {stride : Nat} :
    let l := block buf stride ch.count w hh (hdiv s) (vdiv s) cx cy
    let last := lastColumn w hh (hdiv s) (vdiv s) cx cy
    let E : Rat := if s = .yuv444 then 140 / 100 else 118 / 100
    let r := mean (l.map (red ch))
    let g := mean (l.map (green ch))
    let b := mean (l.map (blue ch))
    |(nvCb cpu s ch rg m last l : Rat) - exactCb 8 rg m r g b| ≤ E ∧
    |(nvCr cpu s ch rg m last l : Rat) - exactCr 8 rg m r g b| ≤ E := by
  intro l last E r g b
  have hE : (105 : Rat) / 100 ≤ E := by simp only [E]; split <;> norm_num
  have bs := block_shape hw hh0 hx hy (buf := buf) (stride := stride) (cn := ch.count)
  unfold nvCb nvCr
  split
  · have := chroma8_close (p := 13) (Or.inl rfl) ch rg m (mem_block hb) (avg := avgUp) (blk := l)
      (fun l hl => (avg_lt (by omega) hl).1) (fun k hk => avgUp_close (by
        rw [← List.length_pos_iff, hk]
        have := bs.len
        simp only [l]
        omega))
    exact ⟨le_trans this.1 hE, le_trans this.2 hE⟩
  · exact vecChroma_exact ch rg m bs (mem_block hb)

/-- C66 against the standard: on every processor luma is within 1.36 code values of the exact ITU-R
luma of its pixel, and a chroma sample within 1.4 — 1.18 with subsampling — code values of the exact
chroma of the exact mean of the pixels it covers. -/
theorem c66_nv_cpu_accuracy (cpu : Cpu) (o : NVOrder) (ch : Channels) (s : Sampling) (i : BiPlanar)
    (rgba : Buf) (stride : Nat) (rg : YuvRange) (m : Matrix) (D : Nat) (hi : GoodBiPlanar i s D)
    (hsrc : GoodDst rgba.length stride i.width i.height ch.count) (hb : Bytes rgba) :
    ∃ out, rgbxToNvOn cpu o ch s i rgba stride rg m = .ok out ∧
      (∀ x y, x < i.width → y < i.height →
        let px := pixelAt rgba stride ch.count x y
        |(at' out.y i.yStride x y : Rat) - exactY 8 rg m (red ch px) (green ch px) (blue ch px)|
          ≤ 136 / 100) ∧
      (∀ cx cy, cx < cover i.width (hdiv s) → cy < cover i.height (vdiv s) →
        let blk := block rgba stride ch.count i.width i.height (hdiv s) (vdiv s) cx cy
        let r := mean (blk.map (red ch))
        let g := mean (blk.map (green ch))
        let b := mean (blk.map (blue ch))
        let E : Rat := if s = .yuv444 then 140 / 100 else 118 / 100
        |(at' out.uv i.uvStride (2 * cx + o.uPos) cy : Rat) - exactCb 8 rg m r g b| ≤ E ∧
        |(at' out.uv i.uvStride (2 * cx + o.vPos) cy : Rat) - exactCr 8 rg m r g b| ≤ E) := by
  obtain ⟨out, e, h⟩ := c64_x86_nv_encode cpu o ch s i rgba stride rg m D hi hsrc hb
  refine ⟨out, e, fun x y hx hy => ?_, fun cx cy hx hy => ?_⟩
  · intro px
    rw [frameSpec_at h.y hx hy]
    exact cpuLuma_exact cpu ch rg m (mem_pixelAt hb)
  · obtain ⟨p1, p2⟩ := h.parts hx hy
    rw [p1, p2]
    exact nvChroma_exact cpu hi.wpos hi.hpos hx hy ch rg m hb

/-- C67, nominal ranges: on every x86 processor limited-range luma lies in 16…235 — 16…236 with the
FCC matrix — and chroma in 16…240 — 15…240 without subsampling.  Missing: the nominal bounds
themselves in those two cases (`c67_nv_below_nominal`). -/
theorem c67_nv_nominal_range_partial (cpu : Cpu) (o : NVOrder) (ch : Channels) (s : Sampling)
    (i : BiPlanar) (rgba : Buf)
    (stride : Nat) (m : Matrix) (D : Nat) (hi : GoodBiPlanar i s D)
    (hsrc : GoodDst rgba.length stride i.width i.height ch.count) (hb : Bytes rgba) :
    ∃ out, rgbxToNvOn cpu o ch s i rgba stride .limited m = .ok out ∧
      (∀ x y, x < i.width → y < i.height → 16 ≤ at' out.y i.yStride x y ∧
        at' out.y i.yStride x y ≤ if m = .fcc then 236 else 235) ∧
      (∀ cx cy, cx < cover i.width (hdiv s) → cy < cover i.height (vdiv s) →
        let lo := if s = .yuv444 then 15 else 16
        (lo ≤ at' out.uv i.uvStride (2 * cx + o.uPos) cy ∧
          at' out.uv i.uvStride (2 * cx + o.uPos) cy ≤ 240) ∧
        (lo ≤ at' out.uv i.uvStride (2 * cx + o.vPos) cy ∧
          at' out.uv i.uvStride (2 * cx + o.vPos) cy ≤ 240)) := by
  obtain ⟨out, e, h⟩ := c64_x86_nv_encode cpu o ch s i rgba stride .limited m D hi hsrc hb
  refine ⟨out, e, fun x y hx hy => ?_, fun cx cy hx hy => ?_⟩
  · rw [frameSpec_at h.y hx hy]
    unfold cpuLuma
    split
    · obtain ⟨r1, g1, b1⟩ := comps_lt (by omega) ch (mem_pixelAt hb (stride := stride)
        (cn := ch.count) (x := x) (y := y))
      obtain ⟨n1, -⟩ := scalar_nominal m r1 g1 b1
      unfold luma8
      exact ⟨n1.1, le_trans n1.2 (by split <;> omega)⟩
    · exact vecLuma_range ch m (mem_pixelAt hb)
  · intro lo
    obtain ⟨p1, p2⟩ := h.parts hx hy
    rw [p1, p2]
    unfold nvCb nvCr
    split
    · have lt : ∀ f : Buf → Nat, (∀ px, (∀ a ∈ px, a < 256) → f px < 256) → ∀ a ∈
          (block rgba stride ch.count i.width i.height (hdiv s) (vdiv s) cx cy).map f, a < 256 := by
        intro f hf a ha
        obtain ⟨px, hpx, rfl⟩ := List.mem_map.1 ha
        exact hf px (mem_block hb px hpx)
      have r1 := (avg_lt (by omega) (lt (red ch) fun px hp => (comps_lt (by omega) ch hp).1)).1
      have g1 := (avg_lt (by omega) (lt (green ch) fun px hp => (comps_lt (by omega) ch hp).2.1)).1
      have b1 := (avg_lt (by omega) (lt (blue ch) fun px hp => (comps_lt (by omega) ch hp).2.2)).1
      obtain ⟨-, n2, n3⟩ := scalar_nominal m r1 g1 b1
      unfold cb8 cr8
      have hlo : lo ≤ 16 := by simp only [lo]; split <;> omega
      exact ⟨⟨le_trans hlo n2.1, n2.2⟩, le_trans hlo n3.1, n3.2⟩
    · exact vecChroma_range ch m (block_shape hi.wpos hi.hpos hx hy) (mem_block hb)

/-- C66: on every x86 processor chroma pairs covering gray pixels only are exactly neutral. -/
theorem c66_nv_gray_neutral (cpu : Cpu) (o : NVOrder) (ch : Channels) (s : Sampling) (i : BiPlanar)
    (rgba : Buf) (stride : Nat) (rg : YuvRange) (m : Matrix) (D : Nat) (hi : GoodBiPlanar i s D)
    (hsrc : GoodDst rgba.length stride i.width i.height ch.count) (hb : Bytes rgba) :
    ∃ out, rgbxToNvOn cpu o ch s i rgba stride rg m = .ok out ∧
      ∀ cx cy, cx < cover i.width (hdiv s) → cy < cover i.height (vdiv s) →
        (∀ px ∈ block rgba stride ch.count i.width i.height (hdiv s) (vdiv s) cx cy, GrayPixel ch px) →
        at' out.uv i.uvStride (2 * cx) cy = 128 ∧ at' out.uv i.uvStride (2 * cx + 1) cy = 128 := by
  obtain ⟨out, e, h⟩ := c64_x86_nv_encode cpu o ch s i rgba stride rg m D hi hsrc hb
  refine ⟨out, e, fun cx cy hx hy hg => ?_⟩
  have key : nvCb cpu s ch rg m (lastColumn i.width i.height (hdiv s) (vdiv s) cx cy)
        (block rgba stride ch.count i.width i.height (hdiv s) (vdiv s) cx cy) = 128 ∧
      nvCr cpu s ch rg m (lastColumn i.width i.height (hdiv s) (vdiv s) cx cy)
        (block rgba stride ch.count i.width i.height (hdiv s) (vdiv s) cx cy) = 128 := by
    have e1 : (block rgba stride ch.count i.width i.height (hdiv s) (vdiv s) cx cy).map (green ch)
        = (block rgba stride ch.count i.width i.height (hdiv s) (vdiv s) cx cy).map (red ch) :=
      List.map_congr_left fun px hpx => (hg px hpx).1.symm
    have e2 : (block rgba stride ch.count i.width i.height (hdiv s) (vdiv s) cx cy).map (blue ch)
        = (block rgba stride ch.count i.width i.height (hdiv s) (vdiv s) cx cy).map (red ch) :=
      List.map_congr_left fun px hpx => ((hg px hpx).1.trans (hg px hpx).2).symm
    unfold nvCb nvCr
    split
    · have r1 := (avg_lt (B := 256) (by omega)
        (l := (block rgba stride ch.count i.width i.height (hdiv s) (vdiv s) cx cy).map (red ch)) (by
          intro a ha
          obtain ⟨px, hpx, rfl⟩ := List.mem_map.1 ha
          exact (comps_lt (by omega) ch (mem_block hb px hpx)).1)).1
      unfold cb8 cr8
      rw [e1, e2]
      generalize avgUp
        ((block rgba stride ch.count i.width i.height (hdiv s) (vdiv s) cx cy).map (red ch)) = x at *
      obtain ⟨c1, c2, -⟩ := c12_encode_gray 13 (Or.inl rfl) rg m x x (le_refl _) (by omega)
      obtain ⟨-, f2, f3⟩ := encode_closed (p := 13) (by simp [EncPrec]) rg m x x x (by omega)
        (by omega) (by omega)
      rw [f2] at c1; rw [f3] at c2
      injection c1 with c1; injection c2 with c2
      have g1 : (getYuvRange 8 rg).biasUv = 128 := by cases rg <;> rfl
      have d1 : cbVal 13 8 rg m x x x = ((getYuvRange 8 rg).biasUv : Int) := c1
      have d2 : crVal 13 8 rg m x x x = ((getYuvRange 8 rg).biasUv : Int) := c2
      rw [g1] at d1 d2
      rw [d1, d2]
      exact ⟨rfl, rfl⟩
    · unfold vecCb vecCr
      obtain ⟨k1, k2⟩ := chromaRowOk rg m
      dsimp only
      rw [e1, e2]
      exact ⟨vecSum_gray k1 _, vecSum_gray k2 _⟩
  obtain ⟨p1, p2⟩ := h.parts hx hy
  rw [← p1, ← p2] at key
  cases o
  · exact ⟨key.1, key.2⟩
  · exact ⟨key.2, key.1⟩

/-- The encoded image is a good image again. -/
theorem NvEncodedOn.good {cpu : Cpu} {o : NVOrder} {ch : Channels} {s : Sampling} {rg : YuvRange}
    {m : Matrix} {rgba : Buf} {stride : Nat} {i out : BiPlanar}
    (h : NvEncodedOn cpu o ch s rg m rgba stride i out)
    (hi : GoodBiPlanar i s 256) : GoodBiPlanar out s 256 := by
  obtain ⟨g1, g2, g3, g4⟩ := h.geometry
  have bs : ∀ x, byteSat x < 256 := fun x => by unfold byteSat; omega
  have b1 : ∀ px, cpuLuma cpu ch rg m px < 256 := by
    intro px; unfold cpuLuma; split
    · exact low8_lt _
    · exact bs _
  have b2 : ∀ b l, nvCb cpu s ch rg m b l < 256 := by
    intro b l; unfold nvCb; split
    · exact low8_lt _
    · exact bs _
  have b3 : ∀ b l, nvCr cpu s ch rg m b l < 256 := by
    intro b l; unfold nvCr; split
    · exact low8_lt _
    · exact bs _
  refine ⟨g1 ▸ hi.wpos, g2 ▸ hi.hpos, g1 ▸ hi.w32, g2 ▸ hi.h32, ?_, g4 ▸ hi.uvStride32, ?_, ?_, ?_⟩
  · rw [g1, g2, g3]
    exact ⟨hi.y.stride32, hi.y.cols_le, by rw [h.y.1]; exact hi.y.full,
      frameSpec_bound h.y hi.y.bound fun _ _ => b1 _⟩
  · rw [g1, g4]; exact hi.uvStride
  · rw [g2, g4, h.uv.1]; exact hi.uvLen
  · refine frameSpec_bound' h.uv hi.uvBound fun x y _ _ a ha => ?_
    have h2 := b2 (lastColumn i.width i.height (hdiv s) (vdiv s) x y)
      (block rgba stride ch.count i.width i.height (hdiv s) (vdiv s) x y)
    have h3 := b3 (lastColumn i.width i.height (hdiv s) (vdiv s) x y)
      (block rgba stride ch.count i.width i.height (hdiv s) (vdiv s) x y)
    cases o
    · simp only [pairOf, List.mem_cons, List.not_mem_nil, or_false] at ha
      rcases ha with rfl | rfl <;> assumption
    · simp only [pairOf, List.mem_cons, List.not_mem_nil, or_false] at ha
      rcases ha with rfl | rfl <;> assumption

/-- C67, round trip, what holds: encoding an RGB(A) image to NV24 or NV42 on any x86 processor and
decoding it on any x86 processor with the same matrix and range, into any channel order, returns
every pixel with red and green within 6 and blue within 7 — provided, if the decoding processor has
SSE4.1 but not AVX2 and the range is limited, that the luma of the pixel is not 128…143.  Missing:
those pixels. -/
theorem c67_nv_round_trip_partial (cpu cpu' : Cpu) (o : NVOrder) (ch ch' : Channels) (i : BiPlanar)
    (rgba dst : Buf) (stride stride' : Nat) (rg : YuvRange) (m : Matrix)
    (hi : GoodBiPlanar i .yuv444 256) (hsrc : GoodDst rgba.length stride i.width i.height ch.count)
    (hb : Bytes rgba) (hdst : GoodDst dst.length stride' i.width i.height ch'.count) :
    ∃ yuv out, rgbxToNvOn cpu o ch .yuv444 i rgba stride rg m = .ok yuv ∧
      nvToRgbxOn cpu' o ch' .yuv444 yuv dst stride' rg m = .ok out ∧
      ∀ x y, x < i.width → y < i.height →
        let px := pixelAt rgba stride ch.count x y
        let Y := cpuLuma cpu ch rg m px
        (cpu' = .sse41 → rg = .limited → Y < 128 ∨ 144 ≤ Y) →
        ∃ r g b : Nat, pixelAt out stride' ch'.count x y = layout ch' r g b 255 ∧
          (r ≤ red ch px + 6 ∧ red ch px ≤ r + 6) ∧ (g ≤ green ch px + 6 ∧ green ch px ≤ g + 6) ∧
          (b ≤ blue ch px + 7 ∧ blue ch px ≤ b + 7) := by
  obtain ⟨yuv, e, hs⟩ := c64_x86_nv_encode cpu o ch .yuv444 i rgba stride rg m 256 hi hsrc hb
  have hg := hs.good hi
  obtain ⟨g1, g2, g3, g4⟩ := hs.geometry
  rw [← g1, ← g2] at hdst
  obtain ⟨out, e', hr⟩ := c58_nv_accuracy_partial cpu' o ch' .yuv444 yuv dst stride' rg m hg hdst
  refine ⟨yuv, out, e, e', fun x y hx hy => ?_⟩
  intro px Y hsse
  have hY : BiPlanar.Y yuv x y = Y := by
    unfold BiPlanar.Y
    rw [g3, frameSpec_at hs.y hx hy]
  have hbk : (getYuvRange 8 rg).biasY ≤ BiPlanar.Y yuv x y := by
    cases rg with
    | full => exact Nat.zero_le _
    | limited =>
      obtain ⟨yuv', e', h', -⟩ :=
        c67_nv_nominal_range_partial cpu o ch .yuv444 i rgba stride m 256 hi hsrc hb
      rw [e] at e'
      injection e' with e'
      subst e'
      have := (h' x y hx hy).1
      unfold BiPlanar.Y
      rw [g3]
      exact this
  obtain ⟨r, g, b, hpx, q1, q2, q3⟩ := hr x y (g1 ▸ hx) (g2 ▸ hy) hbk (hY ▸ hsse) (by simp)
  have cx : x < cover i.width (hdiv .yuv444) := by
    simp only [cover, hdiv, Nat.div_one]; omega
  have cy : y < cover i.height (vdiv .yuv444) := by
    simp only [cover, vdiv, Nat.div_one]; omega
  obtain ⟨r1, gr1, b1⟩ : red ch px < 256 ∧ green ch px < 256 ∧ blue ch px < 256 :=
    comps_lt (by omega) ch (mem_pixelAt hb)
  have hblk : block rgba stride ch.count i.width i.height (hdiv .yuv444) (vdiv .yuv444) x y = [px] := by
    simp only [hdiv, vdiv, block, blockCols_one hx, blockCols_one hy]
    rfl
  have eY : |(BiPlanar.Y yuv x y : Rat) - exactY 8 rg m (red ch px) (green ch px) (blue ch px)|
      ≤ 136 / 100 := by
    rw [hY]; exact cpuLuma_exact cpu ch rg m (mem_pixelAt hb)
  have eC := nvChroma_exact cpu hi.wpos hi.hpos cx cy ch rg m hb (stride := stride)
  dsimp only at eC
  obtain ⟨p1, p2⟩ := hs.parts cx cy
  rw [hblk] at eC p1 p2
  have m1 : ∀ f : Buf → Nat, mean ([px].map f) = f px := fun f => by simp [mean]
  rw [m1, m1, m1, if_pos rfl, ← p1, ← p2] at eC
  have hU : BiPlanar.U yuv .yuv444 o x y = at' yuv.uv i.uvStride (2 * x + o.uPos) y := by
    cases o <;> simp only [BiPlanar.U, BiPlanar.C, g4, hdiv, vdiv, Nat.div_one] <;> rfl
  have hV : BiPlanar.V yuv .yuv444 o x y = at' yuv.uv i.uvStride (2 * x + o.vPos) y := by
    cases o <;> simp only [BiPlanar.V, BiPlanar.C, g4, hdiv, vdiv, Nat.div_one] <;> rfl
  rw [← hU, ← hV] at eC
  obtain ⟨eU, eV⟩ := eC
  exact ⟨r, g, b, hpx, round_core rg m r1 gr1 b1 eY eU eV q1 q2 q3⟩

/-! ## The hypotheses are met -/

/-- A 2×1 NV24 destination. -/
def demoNV24 : BiPlanar := ⟨[7, 7], 2, [7, 7, 7, 7], 4, 2, 1⟩

theorem demoNV24_good : GoodBiPlanar demoNV24 .yuv444 256 where
  wpos := by decide
  hpos := by decide
  w32 := by unfold U32; decide
  h32 := by unfold U32; decide
  y := ⟨by unfold U32; decide, by decide, by unfold FullRows; decide, by decide⟩
  uvStride32 := by unfold U32; decide
  uvStride := by decide
  uvLen := by decide
  uvBound := by decide

/-- C67 fails: in limited range BT.601 NV24 the vector code gives yellow Cb 15 and cyan Cr 15, below
the nominal 16 the scalar code gives. -/
theorem c67_nv_below_nominal :
    rgbxToNvOn .avx2 .uv .rgb .yuv444 demoNV24 [255, 255, 0, 0, 255, 255] 6 .limited .bt601
      = .ok { demoNV24 with y := [210, 170], uv := [15, 146, 166, 15] } ∧
    rgbxToNvOn .plain .uv .rgb .yuv444 demoNV24 [255, 255, 0, 0, 255, 255] 6 .limited .bt601
      = .ok { demoNV24 with y := [210, 170], uv := [16, 146, 166, 16] } := by
  constructor <;> decide +kernel

/-- The hypotheses of C64 – C67 are met. -/
example : GoodBiPlanar demoDstNV .yuv420 256 ∧ GoodPlanar demoDst420 .yuv420 256 ∧
    demoDstNV.width = demoDst420.width ∧ demoDstNV.height = demoDst420.height ∧
    GoodDst demoRgb.length 11 3 3 3 ∧ Bytes demoRgb :=
  ⟨demoDstNV_good, demoDst420_good, rfl, rfl, ⟨by unfold U32; decide, by decide, by
    unfold FullRows; decide, by decide⟩, by unfold Bytes; decide⟩

/-- … and of the round trip. -/
example : GoodBiPlanar demoNV24 .yuv444 256 ∧ GoodDst 6 6 2 1 3 ∧
    Bytes [255, 255, 0, 0, 255, 255] :=
  ⟨demoNV24_good, ⟨by unfold U32; decide, by decide, by unfold FullRows; decide, by decide⟩, by
    unfold Bytes; decide⟩

/-- The 3×3 demonstration image on the vector units, in both orders: padding (7) is kept. -/
example : rgbxToNvOn .avx2 .uv .rgb .yuv420 demoDstNV demoRgb 11 .limited .bt601
    = .ok { demoDstNV with
      y := [81, 145, 41, 7, 235, 16, 126, 7, 128, 40, 202, 7, 7]
      uv := [100, 132, 184, 119, 121, 87, 23, 149] } := by decide +kernel
example : rgbxToNvOn .sse41 .vu .rgb .yuv420 demoDstNV demoRgb 11 .limited .bt601
    = .ok { demoDstNV with
      y := [81, 145, 41, 7, 235, 16, 126, 7, 128, 40, 202, 7, 7]
      uv := [132, 100, 119, 184, 87, 121, 149, 23] } := by decide +kernel

end Verif
