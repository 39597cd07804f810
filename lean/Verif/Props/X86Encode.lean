import Verif.Lemmas.X86EncHandlers
import Verif.Lemmas.VecEncodeItu
import Verif.Props.X86Decode
/-!
# C59 – C62: 8-bit RGB to planar YCbCr on x86 processors
-/
namespace Verif
open Spec X86

/-! ## C59 -/

/-- The luma sample of a pixel on each class of processor. -/
def cpuLuma (cpu : Cpu) (ch : Channels) (rg : YuvRange) (m : Matrix) (px : Buf) : Nat :=
  if cpu = .plain then luma8 13 ch rg m px else vecLuma ch rg m px
/-- The Cb sample of the pixels it covers; `last` says that these are the last column of two rows of
odd width. -/
def cpuCb (cpu : Cpu) (s : Sampling) (ch : Channels) (rg : YuvRange) (m : Matrix) (last : Bool)
    (l : List Buf) : Nat :=
  if cpu = .plain then cb8 13 ch rg m (if last then avgDown else avgUp) l else vecCb s ch rg m last l
/-- The Cr sample. -/
def cpuCr (cpu : Cpu) (s : Sampling) (ch : Channels) (rg : YuvRange) (m : Matrix) (last : Bool)
    (l : List Buf) : Nat :=
  if cpu = .plain then cr8 13 ch rg m (if last then avgDown else avgUp) l else vecCr s ch rg m last l

/-- All three planes are determined by the pixels of the source, and nothing else is written. -/
structure EncodedOn (cpu : Cpu) (ch : Channels) (s : Sampling) (rg : YuvRange) (m : Matrix)
    (rgba : Buf) (stride : Nat) (i out : Planar) : Prop where
  geometry : out.width = i.width ∧ out.height = i.height ∧ out.yStride = i.yStride ∧
    out.uStride = i.uStride ∧ out.vStride = i.vStride
  y : FrameSpec out.y i.y i.yStride i.width i.height 1 fun x y =>
    [cpuLuma cpu ch rg m (pixelAt rgba stride ch.count x y)]
  u : FrameSpec out.u i.u i.uStride (cover i.width (hdiv s)) (cover i.height (vdiv s)) 1 fun cx cy =>
    [cpuCb cpu s ch rg m (lastColumn i.width i.height (hdiv s) (vdiv s) cx cy)
      (block rgba stride ch.count i.width i.height (hdiv s) (vdiv s) cx cy)]
  v : FrameSpec out.v i.v i.vStride (cover i.width (hdiv s)) (cover i.height (vdiv s)) 1 fun cx cy =>
    [cpuCr cpu s ch rg m (lastColumn i.width i.height (hdiv s) (vdiv s) cx cy)
      (block rgba stride ch.count i.width i.height (hdiv s) (vdiv s) cx cy)]

/-- A plane of single samples, each the given value. -/
theorem frame_samples {out dst : Buf} {st w h : Nat} {f : Nat → Nat → Nat}
    (hf : FullRows dst.length st h) (hw : w ≤ st)
    (hr : FrameRel out dst st w h 1 fun x y p => p = [f x y] ∨ p.getD 0 0 = f x y) :
    FrameSpec out dst st w h 1 fun x y => [f x y] := by
  refine frameRel_eq ⟨hr.1, fun x y hx hy => ?_, hr.2.2⟩
  rcases hr.2.1 x y hx hy with h | h
  · exact h
  · have hl : (pixelAt out st 1 x y).length = 1 := by
      have h1 := fullRows_row hf hy
      have h2 := succ_mul_le_of_lt 1 hx
      unfold pixelAt
      rw [List.length_take, List.length_drop, hr.1]
      omega
    obtain ⟨a, ha⟩ := List.length_eq_one_iff.1 hl
    rw [ha] at h ⊢
    simpa using h

theorem x86_encode_vec {cpu : Cpu} (hcpu : cpu ≠ .plain) (ch : Channels) (s : Sampling) (i : Planar)
    (rgba : Buf) (stride : Nat) (rg : YuvRange) (m : Matrix) (D : Nat) (hi : GoodPlanar i s D)
    (hsrc : GoodDst rgba.length stride i.width i.height ch.count) (hb : Bytes rgba) :
    ∃ out, rgbxToYuvOn cpu ch s i rgba stride rg m = .ok out ∧
      EncodedOn cpu ch s rg m rgba stride i out := by
  have hr := hi.rows
  have hcn := count_pos ch
  have fin : ∀ o : Outcome (Buf × Buf × Buf),
      Encoded (vecFun s ch rg m) (vecRel (vecFun s ch rg m)) s ch.count i rgba stride o →
      ∃ out, (o >>= fun x => pure { i with y := x.1, u := x.2.1, v := x.2.2 }) = Outcome.ok out ∧
      EncodedOn cpu ch s rg m rgba stride i out := by
    intro o ⟨y, u, v, e, ly, lu, lv⟩
    refine ⟨{ i with y, u, v }, by rw [e]; rfl, ⟨rfl, rfl, rfl, rfl, rfl⟩, ?_, ?_, ?_⟩
    · refine frame_samples hi.y.full hi.y.cols_le ⟨ly.1, fun x y hx hy => ?_, ly.2.2⟩
      have ey : (vecFun s ch rg m).lumaAt s rgba stride ch.count x y
          = cpuLuma cpu ch rg m (pixelAt rgba stride ch.count x y) := by
        unfold EncFun.lumaAt cpuLuma; rw [if_neg hcpu]; split <;> rfl
      rcases ly.2.1 x y hx hy with h | h
      · exact .inl (by rw [h, ey])
      · exact .inr (h.trans (by unfold cpuLuma; rw [if_neg hcpu]; rfl))
    · refine frame_samples hi.u.full hi.u.cols_le ?_
      rw [cover_hdiv hi.wpos, cover_vdiv hi.hpos]
      refine ⟨lu.1, fun x y hx hy => ?_, lu.2.2⟩
      simp only [cpuCb, if_neg hcpu]
      exact lu.2.1 x y hx hy
    · refine frame_samples hi.v.full hi.v.cols_le ?_
      rw [cover_hdiv hi.wpos, cover_vdiv hi.hpos]
      refine ⟨lv.1, fun x y hx hy => ?_, lv.2.2⟩
      simp only [cpuCr, if_neg hcpu]
      exact lv.2.1 x y hx hy
  have hE := vecBlocks_ok 256 ch.count (vecFun s ch rg m)
  have h1 := rowEncoder_ok hcpu s ch rg m hi.wpos
  have f1 := rowEncoder_finishes hcpu s ch (getYuvRange 8 rg) (searchForward 13 8 rg m) i.width
  unfold rgbxToYuvOn rgbxToYuv rgbxToYuvImpl
  rw [hsrc.accepted hi.wpos hi.hpos hi.w32 hi.h32 hcn (count_le ch), hi.accepted]
  simp only [Outcome.bind_ok]
  cases s with
  | yuv444 =>
    rw [encode444_fin _ (vecBlocks ch.count (vecFun .yuv444 ch rg m)) f1]
    exact fin _ (encode444_ok hcn hE h1 hr hsrc.full hsrc.cols_le hb)
  | yuv422 =>
    rw [encode422_fin _ (vecBlocks ch.count (vecFun .yuv422 ch rg m)) f1]
    exact fin _ (encode422_ok hcn hE h1 hr hsrc.full hsrc.cols_le hb (Or.inl rfl))
  | yuv420 =>
    have h2 := rowEncoder420_ok hcpu ch rg m hi.wpos
    have f2 := rowEncoder420_finishes hcpu ch (getYuvRange 8 rg) (searchForward 13 8 rg m) i.width
    rw [encode420_fin _ (vecBlocks ch.count (vecFun .yuv420 ch rg m)) f1 f2]
    exact fin _ (encode420_ok hcn hE h1 h2 hr hsrc.full hsrc.cols_le hb)

/-- A processor without vector extensions runs the scalar code. -/
theorem c59_plain_is_scalar (ch : Channels) (s : Sampling) (i : Planar) (rgba : Buf)
    (stride : Nat) (rg : YuvRange) (m : Matrix) :
    rgbxToYuvOn .plain ch s i rgba stride rg m =
      rgbxToYuv x64 .balanced ch s noEnc noEnc420 i rgba stride rg m := rfl

/-- C59: on every class of x86 processor encoding a good RGB(A) buffer into a good 8-bit planar
image succeeds — no load or store of the vector code leaves its slice or its scratch buffers, no
loop diverges, whatever the width, the strides and the padding — and writes exactly the luma samples
of the image and the chroma samples covering it.  Every sample is determined: luma by its pixel, a
chroma sample by the pixels it covers. -/
theorem c59_x86_encode (cpu : Cpu) (ch : Channels) (s : Sampling) (i : Planar) (rgba : Buf)
    (stride : Nat) (rg : YuvRange) (m : Matrix) (D : Nat) (hi : GoodPlanar i s D)
    (hsrc : GoodDst rgba.length stride i.width i.height ch.count) (hb : Bytes rgba) :
    ∃ out, rgbxToYuvOn cpu ch s i rgba stride rg m = .ok out ∧
      EncodedOn cpu ch s rg m rgba stride i out := by
  by_cases hcpu : cpu = .plain
  · subst hcpu
    rw [c59_plain_is_scalar]
    obtain ⟨out, e, h⟩ := c20_planar_encode_exact .balanced ch s i rgba stride rg m D hi hsrc hb
    refine ⟨out, e, h.geometry, ?_, ?_, ?_⟩
    · simpa [cpuLuma, encodePrecision] using h.y
    · simpa [cpuCb, encodePrecision, planarAvg] using h.u
    · simpa [cpuCr, encodePrecision, planarAvg] using h.v
  · exact x86_encode_vec hcpu ch s i rgba stride rg m D hi hsrc hb

theorem planar_ext {a b : Planar} (h1 : a.width = b.width) (h2 : a.height = b.height)
    (h3 : a.yStride = b.yStride) (h4 : a.uStride = b.uStride) (h5 : a.vStride = b.vStride)
    (h6 : a.y = b.y) (h7 : a.u = b.u) (h8 : a.v = b.v) : a = b := by
  cases a; cases b; simp_all

/-- The encoded image is determined. -/
theorem EncodedOn.unique {cpu cpu' : Cpu} (hc : cpu = cpu' ∨ (cpu ≠ .plain ∧ cpu' ≠ .plain))
    {ch : Channels} {s : Sampling} {rg : YuvRange} {m : Matrix} {rgba rgba' : Buf}
    {stride stride' : Nat} {i out out' : Planar}
    (hsame : ∀ x y, x < i.width → y < i.height →
      pixelAt rgba stride ch.count x y = pixelAt rgba' stride' ch.count x y)
    (h : EncodedOn cpu ch s rg m rgba stride i out)
    (h' : EncodedOn cpu' ch s rg m rgba' stride' i out') : out' = out := by
  have hblk : ∀ cx cy, block rgba stride ch.count i.width i.height (hdiv s) (vdiv s) cx cy
      = block rgba' stride' ch.count i.width i.height (hdiv s) (vdiv s) cx cy := by
    intro cx cy
    unfold block
    refine List.flatMap_congr fun y hy => List.map_congr_left fun x hx => ?_
    exact hsame x y (blockCols_lt hx) (blockCols_lt hy)
  have ey : ∀ px, cpuLuma cpu ch rg m px = cpuLuma cpu' ch rg m px := by
    intro px
    rcases hc with rfl | ⟨h1, h2⟩
    · rfl
    · unfold cpuLuma; rw [if_neg h1, if_neg h2]
  have eu : ∀ b l, cpuCb cpu s ch rg m b l = cpuCb cpu' s ch rg m b l := by
    intro b l
    rcases hc with rfl | ⟨h1, h2⟩
    · rfl
    · unfold cpuCb; rw [if_neg h1, if_neg h2]
  have ev : ∀ b l, cpuCr cpu s ch rg m b l = cpuCr cpu' s ch rg m b l := by
    intro b l
    rcases hc with rfl | ⟨h1, h2⟩
    · rfl
    · unfold cpuCr; rw [if_neg h1, if_neg h2]
  obtain ⟨g1, g2, g3, g4, g5⟩ := h.geometry
  obtain ⟨g1', g2', g3', g4', g5'⟩ := h'.geometry
  refine planar_ext (g1'.trans g1.symm) (g2'.trans g2.symm) (g3'.trans g3.symm)
    (g4'.trans g4.symm) (g5'.trans g5.symm) ?_ ?_ ?_
  · refine frameSpec_unique h'.y ⟨h.y.1, fun x y c hx hy hc => ?_, h.y.2.2⟩
    rw [h.y.2.1 x y c hx hy hc]
    simp only [hsame x y hx hy, ey]
  · refine frameSpec_unique h'.u ?_
    have := h.u
    simp only [hblk, eu] at this
    exact this
  · refine frameSpec_unique h'.v ?_
    have := h.v
    simp only [hblk, ev] at this
    exact this

/-- C59: on one processor the encoded planes depend on the source pixels only — not on the source
stride, its row padding or elements after its last row. -/
theorem c59_source_pixels_only (cpu : Cpu) (ch : Channels) (s : Sampling) (i : Planar)
    (rgba rgba' : Buf) (stride stride' : Nat) (rg : YuvRange) (m : Matrix) (D : Nat)
    (hi : GoodPlanar i s D) (hsrc : GoodDst rgba.length stride i.width i.height ch.count)
    (hsrc' : GoodDst rgba'.length stride' i.width i.height ch.count)
    (hb : Bytes rgba) (hb' : Bytes rgba')
    (hsame : ∀ x y, x < i.width → y < i.height →
      pixelAt rgba stride ch.count x y = pixelAt rgba' stride' ch.count x y) :
    ∃ out, rgbxToYuvOn cpu ch s i rgba stride rg m = .ok out ∧
      rgbxToYuvOn cpu ch s i rgba' stride' rg m = .ok out := by
  obtain ⟨out, e, h⟩ := c59_x86_encode cpu ch s i rgba stride rg m D hi hsrc hb
  obtain ⟨out', e', h'⟩ := c59_x86_encode cpu ch s i rgba' stride' rg m D hi hsrc' hb'
  exact ⟨out, e, by rw [e', EncodedOn.unique (.inl rfl) hsame h h']⟩

/-! ## C60 -/

/-- C60: AVX2 and SSE4.1 encode every image to the same bytes. -/
theorem c60_avx2_sse_equal (ch : Channels) (s : Sampling) (i : Planar) (rgba : Buf)
    (stride : Nat) (rg : YuvRange) (m : Matrix) (D : Nat) (hi : GoodPlanar i s D)
    (hsrc : GoodDst rgba.length stride i.width i.height ch.count) (hb : Bytes rgba) :
    ∃ out, rgbxToYuvOn .avx2 ch s i rgba stride rg m = .ok out ∧
      rgbxToYuvOn .sse41 ch s i rgba stride rg m = .ok out := by
  obtain ⟨out, e, h⟩ := c59_x86_encode .avx2 ch s i rgba stride rg m D hi hsrc hb
  obtain ⟨out', e', h'⟩ := c59_x86_encode .sse41 ch s i rgba stride rg m D hi hsrc hb
  exact ⟨out, e, by
    rw [e', EncodedOn.unique (.inr ⟨by decide, by decide⟩) (fun _ _ _ _ => rfl) h h']⟩

/-- The shape of the block of a chroma sample. -/
theorem block_shape {w h : Nat} (hw : 0 < w) (hh : 0 < h) {s : Sampling} {cx cy : Nat}
    (hx : cx < cover w (hdiv s)) (hy : cy < cover h (vdiv s)) {buf : Buf} {stride cn : Nat} :
    BlockShape s (lastColumn w h (hdiv s) (vdiv s) cx cy)
      (block buf stride cn w h (hdiv s) (vdiv s) cx cy).length := by
  have p1 := blockCols_pos hw (show 0 < hdiv s by cases s <;> decide) hx
  have p2 := blockCols_pos hh (show 0 < vdiv s by cases s <;> decide) hy
  have le : ∀ n d c, (blockCols n d c).length ≤ d := by
    intro n d c
    unfold blockCols
    exact le_trans (List.length_filter_le _ _) (by simp)
  have l1 := le w (hdiv s) cx
  have l2 := le h (vdiv s) cy
  rw [block_length]
  refine ⟨?_, ?_, ?_⟩
  · rintro rfl
    simp only [hdiv, vdiv] at l1 l2 p1 p2 ⊢
    rw [show (blockCols w 1 cx).length = 1 by omega, show (blockCols h 1 cy).length = 1 by omega]
    exact ⟨rfl, by simp [lastColumn]⟩
  · have : hdiv s ≤ 2 ∧ vdiv s ≤ 2 := by cases s <;> decide
    have c1 : (blockCols w (hdiv s) cx).length = 1 ∨ (blockCols w (hdiv s) cx).length = 2 := by omega
    have c2 : (blockCols h (vdiv s) cy).length = 1 ∨ (blockCols h (vdiv s) cy).length = 2 := by omega
    rcases c1 with c1 | c1 <;> rcases c2 with c2 | c2 <;> rw [c1, c2] <;> simp
  · intro hl
    unfold lastColumn at hl
    rw [decide_eq_true_iff] at hl
    obtain ⟨h1, h2, h3, h4⟩ := hl
    rw [h1, h2, blockCols_two h4, blockCols_two_last h3]
    rfl

/-- The samples two processors store differ by at most one. -/
theorem cpuLuma_close (cpu cpu' : Cpu) (ch : Channels) (rg : YuvRange) (m : Matrix) {px : Buf}
    (h : ∀ a ∈ px, a < 256) : cpuLuma cpu ch rg m px ≤ cpuLuma cpu' ch rg m px + 1 := by
  have := vecLuma_scalar ch rg m h
  unfold cpuLuma
  split <;> split <;> omega

theorem cpuChroma_close (cpu cpu' : Cpu) {s : Sampling} {last : Bool} (ch : Channels) (rg : YuvRange)
    (m : Matrix) {l : List Buf} (hl : BlockShape s last l.length)
    (hb : ∀ px ∈ l, ∀ a ∈ px, a < 256) :
    cpuCb cpu s ch rg m last l ≤ cpuCb cpu' s ch rg m last l + 1 ∧
    cpuCr cpu s ch rg m last l ≤ cpuCr cpu' s ch rg m last l + 1 := by
  have := vecChroma_scalar ch rg m hl hb
  unfold avgOf at this
  unfold cpuCb cpuCr
  generalize cb8 13 ch rg m (if last = true then avgDown else avgUp) l = a at *
  generalize cr8 13 ch rg m (if last = true then avgDown else avgUp) l = b at *
  constructor
  · split <;> split <;> omega
  · split <;> split <;> omega

/-- C60: two processors of whatever class encode an image to samples that differ by at most one code
value, and write the same area. -/
theorem c60_cpu_agreement (cpu cpu' : Cpu) (ch : Channels) (s : Sampling) (i : Planar) (rgba : Buf)
    (stride : Nat) (rg : YuvRange) (m : Matrix) (D : Nat) (hi : GoodPlanar i s D)
    (hsrc : GoodDst rgba.length stride i.width i.height ch.count) (hb : Bytes rgba) :
    ∃ out out', rgbxToYuvOn cpu ch s i rgba stride rg m = .ok out ∧
      rgbxToYuvOn cpu' ch s i rgba stride rg m = .ok out' ∧
      (∀ x y, x < i.width → y < i.height →
        at' out.y i.yStride x y ≤ at' out'.y i.yStride x y + 1 ∧
        at' out'.y i.yStride x y ≤ at' out.y i.yStride x y + 1) ∧
      (∀ cx cy, cx < cover i.width (hdiv s) → cy < cover i.height (vdiv s) →
        (at' out.u i.uStride cx cy ≤ at' out'.u i.uStride cx cy + 1 ∧
          at' out'.u i.uStride cx cy ≤ at' out.u i.uStride cx cy + 1) ∧
        (at' out.v i.vStride cx cy ≤ at' out'.v i.vStride cx cy + 1 ∧
          at' out'.v i.vStride cx cy ≤ at' out.v i.vStride cx cy + 1)) := by
  obtain ⟨out, e, h⟩ := c59_x86_encode cpu ch s i rgba stride rg m D hi hsrc hb
  obtain ⟨out', e', h'⟩ := c59_x86_encode cpu' ch s i rgba stride rg m D hi hsrc hb
  refine ⟨out, out', e, e', fun x y hx hy => ?_, fun cx cy hx hy => ?_⟩
  · rw [frameSpec_at h.y hx hy, frameSpec_at h'.y hx hy]
    exact ⟨cpuLuma_close _ _ _ _ _ (mem_pixelAt hb), cpuLuma_close _ _ _ _ _ (mem_pixelAt hb)⟩
  · rw [frameSpec_at h.u hx hy, frameSpec_at h'.u hx hy, frameSpec_at h.v hx hy,
      frameSpec_at h'.v hx hy]
    have bs := block_shape hi.wpos hi.hpos hx hy (buf := rgba) (stride := stride) (cn := ch.count)
    have c1 := cpuChroma_close cpu cpu' ch rg m bs (mem_block hb)
    have c2 := cpuChroma_close cpu' cpu ch rg m bs (mem_block hb)
    exact ⟨⟨c1.1, c2.1⟩, c1.2, c2.2⟩

/-- Distance of a sample to the exact value on every processor. -/
theorem cpuLuma_exact (cpu : Cpu) (ch : Channels) (rg : YuvRange) (m : Matrix) {px : Buf}
    (h : ∀ a ∈ px, a < 256) :
    |(cpuLuma cpu ch rg m px : Rat) - exactY 8 rg m (red ch px) (green ch px) (blue ch px)|
      ≤ 136 / 100 := by
  unfold cpuLuma
  split
  · obtain ⟨r1, g1, b1⟩ := comps_lt (by omega) ch h
    exact le_trans (low8_encode (Or.inl rfl) rg m r1 g1 b1).2.1 (by norm_num)
  · exact vecLuma_exact ch rg m h

theorem cpuChroma_exact (cpu : Cpu) {w hh : Nat} (hw : 0 < w) (hh0 : 0 < hh) {s : Sampling}
    {cx cy : Nat} (hx : cx < cover w (hdiv s)) (hy : cy < cover hh (vdiv s)) (ch : Channels)
    (rg : YuvRange) (m : Matrix) {buf : Buf} (hb : Bytes buf) {stride : Nat} :
    let l := block buf stride ch.count w hh (hdiv s) (vdiv s) cx cy
    let last := lastColumn w hh (hdiv s) (vdiv s) cx cy
    let E : Rat := if s = .yuv444 then 140 / 100 else 118 / 100
    let r := mean (l.map (red ch))
    let g := mean (l.map (green ch))
    let b := mean (l.map (blue ch))
    |(cpuCb cpu s ch rg m last l : Rat) - exactCb 8 rg m r g b| ≤ E ∧
    |(cpuCr cpu s ch rg m last l : Rat) - exactCr 8 rg m r g b| ≤ E := by
  intro l last E r g b
  have hE : (105 : Rat) / 100 ≤ E := by simp only [E]; split <;> norm_num
  unfold cpuCb cpuCr
  split
  · obtain ⟨a1, a2⟩ := planarAvg_close hw hh0 hx hy (buf := buf) (stride := stride) (cn := ch.count)
    have := chroma8_close (p := 13) (Or.inl rfl) ch rg m (mem_block hb) a1 a2
    exact ⟨le_trans this.1 hE, le_trans this.2 hE⟩
  · exact vecChroma_exact ch rg m (block_shape hw hh0 hx hy) (mem_block hb)

/-- C60 against the standard: on every processor luma is within 1.36 code values of the exact ITU-R
luma of its pixel, and a chroma sample within 1.4 — 1.18 with subsampling — code values of the exact
chroma of the exact mean of the pixels it covers. -/
theorem c60_cpu_accuracy (cpu : Cpu) (ch : Channels) (s : Sampling) (i : Planar) (rgba : Buf)
    (stride : Nat) (rg : YuvRange) (m : Matrix) (D : Nat) (hi : GoodPlanar i s D)
    (hsrc : GoodDst rgba.length stride i.width i.height ch.count) (hb : Bytes rgba) :
    ∃ out, rgbxToYuvOn cpu ch s i rgba stride rg m = .ok out ∧
      (∀ x y, x < i.width → y < i.height →
        let px := pixelAt rgba stride ch.count x y
        |(at' out.y i.yStride x y : Rat) - exactY 8 rg m (red ch px) (green ch px) (blue ch px)|
          ≤ 136 / 100) ∧
      (∀ cx cy, cx < cover i.width (hdiv s) → cy < cover i.height (vdiv s) →
        let blk := block rgba stride ch.count i.width i.height (hdiv s) (vdiv s) cx cy
        let r := mean (blk.map (red ch))
        let g := mean (blk.map (green ch))
        let b := mean (blk.map (blue ch))
        let E : Rat := if s = .yuv444 then 140 / 100 else 118 / 100
        |(at' out.u i.uStride cx cy : Rat) - exactCb 8 rg m r g b| ≤ E ∧
        |(at' out.v i.vStride cx cy : Rat) - exactCr 8 rg m r g b| ≤ E) := by
  obtain ⟨out, e, h⟩ := c59_x86_encode cpu ch s i rgba stride rg m D hi hsrc hb
  refine ⟨out, e, fun x y hx hy => ?_, fun cx cy hx hy => ?_⟩
  · intro px
    rw [frameSpec_at h.y hx hy]
    exact cpuLuma_exact cpu ch rg m (mem_pixelAt hb)
  · rw [frameSpec_at h.u hx hy, frameSpec_at h.v hx hy]
    exact cpuChroma_exact cpu hi.wpos hi.hpos hx hy ch rg m hb

/-- The processors do differ: the 3×3 demonstration image. -/
theorem c60_vector_differs :
    rgbxToYuvOn .avx2 .rgb .yuv420 demoDst420 demoRgb 11 .limited .bt601
      ≠ rgbxToYuvOn .plain .rgb .yuv420 demoDst420 demoRgb 11 .limited .bt601 := by
  decide +kernel

/-! ## C61 -/

/-- The scalar code keeps to the nominal ranges. -/
theorem scalar_nominal (m : Matrix) {r g b : Nat} (hr : r < 256) (hg : g < 256) (hb : b < 256) :
    (16 ≤ low8 (lumaVal 13 8 .limited m r g b) ∧ low8 (lumaVal 13 8 .limited m r g b) ≤ 235) ∧
    (16 ≤ low8 (cbVal 13 8 .limited m r g b) ∧ low8 (cbVal 13 8 .limited m r g b) ≤ 240) ∧
    (16 ≤ low8 (crVal 13 8 .limited m r g b) ∧ low8 (crVal 13 8 .limited m r g b) ≤ 240) := by
  obtain ⟨⟨a1, a2, a3⟩, -⟩ := low8_encode (p := 13) (Or.inl rfl) .limited m hr hg hb
  obtain ⟨c1, c2, c3⟩ := encode_closed (p := 13) (by simp [EncPrec]) .limited m r g b (by omega)
    (by omega) (by omega)
  obtain ⟨y, cb, cr, e1, e2, e3, n1, n2, n3, -⟩ :=
    c09_encode_in_nominal_range 13 (Or.inl rfl) .limited m r g b (by omega) (by omega) (by omega)
  rw [c1] at e1; rw [c2] at e2; rw [c3] at e3
  injection e1 with e1; injection e2 with e2; injection e3 with e3
  have g1 : getYuvRange 8 .limited = ⟨16, 128, 219, 224⟩ := by decide
  have f1 : lumaVal 13 8 .limited m r g b = y := e1
  have f2 : cbVal 13 8 .limited m r g b = cb := e2
  have f3 : crVal 13 8 .limited m r g b = cr := e3
  rw [g1] at n1 n2 n3
  dsimp only at n1 n2 n3
  omega

/-- C61, what holds on every x86 processor: limited-range luma lies in 16…235 — 16…236 with the FCC
matrix — and chroma in 16…240 — 15…240 without subsampling.  Missing: the nominal bounds themselves
in those two cases, where they are violated by the vector code. -/
theorem c61_nominal_range_partial (cpu : Cpu) (ch : Channels) (s : Sampling) (i : Planar) (rgba : Buf)
    (stride : Nat) (m : Matrix) (D : Nat) (hi : GoodPlanar i s D)
    (hsrc : GoodDst rgba.length stride i.width i.height ch.count) (hb : Bytes rgba) :
    ∃ out, rgbxToYuvOn cpu ch s i rgba stride .limited m = .ok out ∧
      (∀ x y, x < i.width → y < i.height → 16 ≤ at' out.y i.yStride x y ∧
        at' out.y i.yStride x y ≤ if m = .fcc then 236 else 235) ∧
      (∀ cx cy, cx < cover i.width (hdiv s) → cy < cover i.height (vdiv s) →
        let lo := if s = .yuv444 then 15 else 16
        (lo ≤ at' out.u i.uStride cx cy ∧ at' out.u i.uStride cx cy ≤ 240) ∧
        (lo ≤ at' out.v i.vStride cx cy ∧ at' out.v i.vStride cx cy ≤ 240)) := by
  obtain ⟨out, e, h⟩ := c59_x86_encode cpu ch s i rgba stride .limited m D hi hsrc hb
  refine ⟨out, e, fun x y hx hy => ?_, fun cx cy hx hy => ?_⟩
  · rw [frameSpec_at h.y hx hy]
    unfold cpuLuma
    split
    · obtain ⟨r1, g1, b1⟩ := comps_lt (by omega) ch (mem_pixelAt hb (stride := stride)
        (cn := ch.count) (x := x) (y := y))
      obtain ⟨n1, -⟩ := scalar_nominal m r1 g1 b1
      unfold luma8
      exact ⟨n1.1, le_trans n1.2 (by split <;> omega)⟩
    · exact vecLuma_range ch m (mem_pixelAt hb)
  · intro lo
    rw [frameSpec_at h.u hx hy, frameSpec_at h.v hx hy]
    unfold cpuCb cpuCr
    split
    · have lt : ∀ f : Buf → Nat, (∀ px, (∀ a ∈ px, a < 256) → f px < 256) → ∀ a ∈
          (block rgba stride ch.count i.width i.height (hdiv s) (vdiv s) cx cy).map f, a < 256 := by
        intro f hf a ha
        obtain ⟨px, hpx, rfl⟩ := List.mem_map.1 ha
        exact hf px (mem_block hb px hpx)
      obtain ⟨a1, -⟩ := planarAvg_close hi.wpos hi.hpos hx hy (buf := rgba) (stride := stride)
        (cn := ch.count)
      have r1 := a1 _ (lt (red ch) fun px hp => (comps_lt (by omega) ch hp).1)
      have g1 := a1 _ (lt (green ch) fun px hp => (comps_lt (by omega) ch hp).2.1)
      have b1 := a1 _ (lt (blue ch) fun px hp => (comps_lt (by omega) ch hp).2.2)
      obtain ⟨-, n2, n3⟩ := scalar_nominal m r1 g1 b1
      unfold cb8 cr8
      have hlo : lo ≤ 16 := by simp only [lo]; split <;> omega
      exact ⟨⟨le_trans hlo n2.1, n2.2⟩, le_trans hlo n3.1, n3.2⟩
    · exact vecChroma_range ch m (block_shape hi.wpos hi.hpos hx hy) (mem_block hb)

/-- A 2×1 4:4:4 destination. -/
def demoDst444 : Planar := ⟨[7, 7], 2, [7, 7], 2, [7, 7], 2, 2, 1⟩

theorem demoDst444_good : GoodPlanar demoDst444 .yuv444 256 where
  wpos := by decide
  hpos := by decide
  w32 := by unfold U32; decide
  h32 := by unfold U32; decide
  y := ⟨by unfold U32; decide, by decide, by unfold FullRows; decide, by decide⟩
  u := ⟨by unfold U32; decide, by decide, by unfold FullRows; decide, by decide⟩
  v := ⟨by unfold U32; decide, by decide, by unfold FullRows; decide, by decide⟩

/-- C61 fails: yellow (255, 255, 0) and cyan (0, 255, 255) in limited range BT.601 4:4:4 get Cb 15
and Cr 15 from the vector code — outside the nominal 16…240, the scalar code gives 16. -/
theorem c61_vector_chroma_below_nominal :
    rgbxToYuvOn .avx2 .rgb .yuv444 demoDst444 [255, 255, 0, 0, 255, 255] 6 .limited .bt601
      = .ok { demoDst444 with y := [210, 170], u := [15, 166], v := [146, 15] } ∧
    rgbxToYuvOn .plain .rgb .yuv444 demoDst444 [255, 255, 0, 0, 255, 255] 6 .limited .bt601
      = .ok { demoDst444 with y := [210, 170], u := [16, 166], v := [146, 16] } := by
  constructor <;> decide +kernel

/-- … and white with the FCC matrix gets luma 236. -/
theorem c61_vector_white_above_nominal :
    rgbxToYuvOn .sse41 .rgb .yuv444 demoDst444 [255, 255, 255, 0, 0, 0] 6 .limited .fcc
      = .ok { demoDst444 with y := [236, 16], u := [128, 128], v := [128, 128] } ∧
    rgbxToYuvOn .plain .rgb .yuv444 demoDst444 [255, 255, 255, 0, 0, 0] 6 .limited .fcc
      = .ok { demoDst444 with y := [235, 16], u := [128, 128], v := [128, 128] } := by
  constructor <;> decide +kernel

/-! ## C62 -/

/-- Gray pixels have equal components. -/
def GrayPixel (ch : Channels) (px : Buf) : Prop := red ch px = green ch px ∧ green ch px = blue ch px

/-- C62: on every x86 processor chroma samples covering gray pixels only are exactly neutral. -/
theorem c62_gray_neutral (cpu : Cpu) (ch : Channels) (s : Sampling) (i : Planar) (rgba : Buf)
    (stride : Nat) (rg : YuvRange) (m : Matrix) (D : Nat) (hi : GoodPlanar i s D)
    (hsrc : GoodDst rgba.length stride i.width i.height ch.count) (hb : Bytes rgba) :
    ∃ out, rgbxToYuvOn cpu ch s i rgba stride rg m = .ok out ∧
      ∀ cx cy, cx < cover i.width (hdiv s) → cy < cover i.height (vdiv s) →
        (∀ px ∈ block rgba stride ch.count i.width i.height (hdiv s) (vdiv s) cx cy, GrayPixel ch px) →
        at' out.u i.uStride cx cy = 128 ∧ at' out.v i.vStride cx cy = 128 := by
  obtain ⟨out, e, h⟩ := c59_x86_encode cpu ch s i rgba stride rg m D hi hsrc hb
  refine ⟨out, e, fun cx cy hx hy hg => ?_⟩
  rw [frameSpec_at h.u hx hy, frameSpec_at h.v hx hy]
  have e1 : (block rgba stride ch.count i.width i.height (hdiv s) (vdiv s) cx cy).map (green ch)
      = (block rgba stride ch.count i.width i.height (hdiv s) (vdiv s) cx cy).map (red ch) :=
    List.map_congr_left fun px hpx => (hg px hpx).1.symm
  have e2 : (block rgba stride ch.count i.width i.height (hdiv s) (vdiv s) cx cy).map (blue ch)
      = (block rgba stride ch.count i.width i.height (hdiv s) (vdiv s) cx cy).map (red ch) :=
    List.map_congr_left fun px hpx => ((hg px hpx).1.trans (hg px hpx).2).symm
  unfold cpuCb cpuCr
  split
  · obtain ⟨a1, -⟩ := planarAvg_close hi.wpos hi.hpos hx hy (buf := rgba) (stride := stride)
      (cn := ch.count)
    have r1 := a1 ((block rgba stride ch.count i.width i.height (hdiv s) (vdiv s) cx cy).map
      (red ch)) (by
        intro a ha
        obtain ⟨px, hpx, rfl⟩ := List.mem_map.1 ha
        exact (comps_lt (by omega) ch (mem_block hb px hpx)).1)
    unfold cb8 cr8
    rw [e1, e2]
    unfold planarAvg at r1
    generalize (if lastColumn i.width i.height (hdiv s) (vdiv s) cx cy = true then avgDown else avgUp)
      ((block rgba stride ch.count i.width i.height (hdiv s) (vdiv s) cx cy).map (red ch)) = x at *
    obtain ⟨c1, c2, -⟩ := c12_encode_gray 13 (Or.inl rfl) rg m x x (le_refl _) (by omega)
    obtain ⟨-, f2, f3⟩ := encode_closed (p := 13) (by simp [EncPrec]) rg m x x x (by omega)
      (by omega) (by omega)
    rw [f2] at c1; rw [f3] at c2
    injection c1 with c1; injection c2 with c2
    have g1 : (getYuvRange 8 rg).biasUv = 128 := by cases rg <;> rfl
    have d1 : cbVal 13 8 rg m x x x = ((getYuvRange 8 rg).biasUv : Int) := c1
    have d2 : crVal 13 8 rg m x x x = ((getYuvRange 8 rg).biasUv : Int) := c2
    rw [g1] at d1 d2
    rw [d1, d2]
    exact ⟨rfl, rfl⟩
  · unfold vecCb vecCr
    obtain ⟨k1, k2⟩ := chromaRowOk rg m
    dsimp only
    rw [e1, e2]
    exact ⟨vecSum_gray k1 _, vecSum_gray k2 _⟩

theorem cpuLuma_mono (cpu : Cpu) (ch ch' : Channels) (rg : YuvRange)
    (m : Matrix) {px px' : Buf} (h : ∀ a ∈ px, a < 256) (h' : ∀ a ∈ px', a < 256)
    (hr : red ch px ≤ red ch' px') (hg : green ch px ≤ green ch' px')
    (hb : blue ch px ≤ blue ch' px') :
    cpuLuma cpu ch rg m px ≤ cpuLuma cpu ch' rg m px' := by
  unfold cpuLuma
  split
  · obtain ⟨r1, g1, b1⟩ := comps_lt (by omega) ch h
    obtain ⟨r2, g2, b2⟩ := comps_lt (by omega) ch' h'
    obtain ⟨⟨e1, -⟩, -⟩ := low8_encode (p := 13) (Or.inl rfl) rg m r1 g1 b1
    obtain ⟨⟨e2, -⟩, -⟩ := low8_encode (p := 13) (Or.inl rfl) rg m r2 g2 b2
    unfold luma8
    have : lumaVal 13 8 rg m (red ch px) (green ch px) (blue ch px)
        ≤ lumaVal 13 8 rg m (red ch' px') (green ch' px') (blue ch' px') := by
      obtain ⟨⟨k1, k2, k3, -⟩, -⟩ := fwd_table rg m
      unfold lumaVal encVal
      apply Int.ediv_le_ediv (by decide)
      have i1 := Int.mul_le_mul_of_nonneg_right (Int.ofNat_le.2 hr) k1
      have i2 := Int.mul_le_mul_of_nonneg_right (Int.ofNat_le.2 hg) k2
      have i3 := Int.mul_le_mul_of_nonneg_right (Int.ofNat_le.2 hb) k3
      linarith
    omega
  · exact vecLuma_mono ch ch' rg m hr hg hb

/-- C62: on every x86 processor, of two pixels — of two images, even — the one that is at least as
bright in all three components never gets less luma. -/
theorem c62_luma_monotone (cpu : Cpu) (ch ch' : Channels) (s s' : Sampling) (i i' : Planar)
    (rgba rgba' : Buf) (stride stride' : Nat) (rg : YuvRange) (m : Matrix) (D : Nat)
    (hi : GoodPlanar i s D) (hi' : GoodPlanar i' s' D)
    (hsrc : GoodDst rgba.length stride i.width i.height ch.count)
    (hsrc' : GoodDst rgba'.length stride' i'.width i'.height ch'.count)
    (hb : Bytes rgba) (hb' : Bytes rgba') :
    ∃ out out', rgbxToYuvOn cpu ch s i rgba stride rg m = .ok out ∧
      rgbxToYuvOn cpu ch' s' i' rgba' stride' rg m = .ok out' ∧
      ∀ x y x' y', x < i.width → y < i.height → x' < i'.width → y' < i'.height →
        let px := pixelAt rgba stride ch.count x y
        let px' := pixelAt rgba' stride' ch'.count x' y'
        red ch px ≤ red ch' px' → green ch px ≤ green ch' px' → blue ch px ≤ blue ch' px' →
        at' out.y i.yStride x y ≤ at' out'.y i'.yStride x' y' := by
  obtain ⟨out, e, h⟩ := c59_x86_encode cpu ch s i rgba stride rg m D hi hsrc hb
  obtain ⟨out', e', h'⟩ := c59_x86_encode cpu ch' s' i' rgba' stride' rg m D hi' hsrc' hb'
  refine ⟨out, out', e, e', fun x y x' y' hx hy hx' hy' => ?_⟩
  intro px px' hr hg hbl
  rw [frameSpec_at h.y hx hy, frameSpec_at h'.y hx' hy']
  exact cpuLuma_mono cpu ch ch' rg m (mem_pixelAt hb) (mem_pixelAt hb') hr hg hbl

/-- C62: black gets the luma offset and white offset plus range — with vector extensions one more in
limited range with the FCC matrix. -/
theorem c62_black_white (cpu : Cpu) (ch : Channels) (rg : YuvRange) (m : Matrix) (a : Nat) :
    cpuLuma cpu ch rg m (layout ch 0 0 0 a) = (getYuvRange 8 rg).biasY ∧
    cpuLuma cpu ch rg m (layout ch 255 255 255 a) = (getYuvRange 8 rg).biasY + (getYuvRange 8 rg).rangeY
      + if cpu ≠ .plain ∧ rg = .limited ∧ m = .fcc then 1 else 0 := by
  have c : ∀ x, red ch (layout ch x x x a) = x ∧ green ch (layout ch x x x a) = x ∧
      blue ch (layout ch x x x a) = x := by intro x; cases ch <;> exact ⟨rfl, rfl, rfl⟩
  unfold cpuLuma vecLuma luma8
  simp only [c]
  by_cases h : cpu = .plain
  · simp only [h, if_true, ne_eq, not_true_eq_false, false_and, if_false]
    cases rg <;> cases m <;> decide +kernel
  · have := vecLuma_black_white rg m
    simp only [h, if_false, ne_eq, not_false_eq_true, true_and]
    exact this

/-! ## C63 -/

/-- The encoded image is a good image again. -/
theorem EncodedOn.good {cpu : Cpu} {ch : Channels} {s : Sampling} {rg : YuvRange} {m : Matrix}
    {rgba : Buf} {stride : Nat} {i out : Planar} (h : EncodedOn cpu ch s rg m rgba stride i out)
    (hi : GoodPlanar i s 256) : GoodPlanar out s 256 := by
  obtain ⟨g1, g2, g3, g4, g5⟩ := h.geometry
  have bs : ∀ x, byteSat x < 256 := fun x => by unfold byteSat; omega
  have b1 : ∀ px, cpuLuma cpu ch rg m px < 256 := by
    intro px; unfold cpuLuma; split
    · exact low8_lt _
    · exact bs _
  have b2 : ∀ b l, cpuCb cpu s ch rg m b l < 256 := by
    intro b l; unfold cpuCb; split
    · exact low8_lt _
    · exact bs _
  have b3 : ∀ b l, cpuCr cpu s ch rg m b l < 256 := by
    intro b l; unfold cpuCr; split
    · exact low8_lt _
    · exact bs _
  refine ⟨g1 ▸ hi.wpos, g2 ▸ hi.hpos, g1 ▸ hi.w32, g2 ▸ hi.h32, ?_, ?_, ?_⟩
  · rw [g1, g2, g3]
    exact ⟨hi.y.stride32, hi.y.cols_le, by rw [h.y.1]; exact hi.y.full,
      frameSpec_bound h.y hi.y.bound fun _ _ => b1 _⟩
  · rw [g1, g2, g4]
    exact ⟨hi.u.stride32, hi.u.cols_le, by rw [h.u.1]; exact hi.u.full,
      frameSpec_bound h.u hi.u.bound fun _ _ => b2 _ _⟩
  · rw [g1, g2, g5]
    exact ⟨hi.v.stride32, hi.v.cols_le, by rw [h.v.1]; exact hi.v.full,
      frameSpec_bound h.v hi.v.bound fun _ _ => b3 _ _⟩

theorem inv_bounds_vec (rg : YuvRange) (m : Matrix) :
    (invY 8 rg) * (136 / 100) + invCr 8 rg m * (140 / 100) + 49 / 20 < 7 ∧
    (invY 8 rg) * (136 / 100) + (invG1 8 rg m + invG2 8 rg m) * (140 / 100) + 61 / 20 < 7 ∧
    (invY 8 rg) * (136 / 100) + invCb 8 rg m * (140 / 100) + 49 / 20 < 8 := by
  have : ∀ m ∈ allMatrix, ∀ rg ∈ allRange,
      (invY 8 rg) * (136 / 100) + invCr 8 rg m * (140 / 100) + 49 / 20 < 7 ∧
      (invY 8 rg) * (136 / 100) + (invG1 8 rg m + invG2 8 rg m) * (140 / 100) + 61 / 20 < 7 ∧
      (invY 8 rg) * (136 / 100) + invCb 8 rg m * (140 / 100) + 49 / 20 < 8 := by decide +kernel
  exact forall_mr this m rg

/-- From the distance of a decoded component to the saturated exact one, and of the exact one to the
component. -/
theorem near_comp {a x n : Nat} {e D L : Rat} (hx : x < 256) (h1 : |(a : Rat) - satQ 8 e| ≤ D)
    (h2 : |e - x| ≤ L) (h : L + D < n + 1) : a ≤ x + n ∧ x ≤ a + n := by
  have hs : satQ 8 (x : Rat) = x := by
    apply satQ_id (by positivity)
    have : (x : Rat) ≤ 255 := by exact_mod_cast (by omega : x ≤ 255)
    unfold maxV; norm_num; exact_mod_cast (by omega : x ≤ 255)
  have t1 := satQ_lipschitz 8 e x
  rw [hs] at t1
  obtain ⟨a1, a2⟩ := abs_le.1 h1
  obtain ⟨b1, b2⟩ := abs_le.1 (le_trans t1 h2)
  constructor
  · have : (a : Rat) < (x + n + 1 : Nat) := by push_cast; linarith
    have : a < x + n + 1 := by exact_mod_cast this
    omega
  · have : (x : Rat) < (a + n + 1 : Nat) := by push_cast; linarith
    have : x < a + n + 1 := by exact_mod_cast this
    omega

/-- Decoding to within the decoders' error samples within the encoders' error of the exact ones. -/
theorem round_core (rg : YuvRange) (m : Matrix) {R G B : Nat} (r1 : R < 256) (gr1 : G < 256)
    (b1 : B < 256) {Y U V : Rat} (eY : |Y - exactY 8 rg m R G B| ≤ 136 / 100)
    (eU : |U - exactCb 8 rg m R G B| ≤ 140 / 100) (eV : |V - exactCr 8 rg m R G B| ≤ 140 / 100)
    {r g b : Nat} (q1 : |(r : Rat) - satQ 8 (exactR 8 rg m Y U V)| ≤ 49 / 20)
    (q2 : |(g : Rat) - satQ 8 (exactG 8 rg m Y U V)| ≤ 61 / 20)
    (q3 : |(b : Rat) - satQ 8 (exactB 8 rg m Y U V)| ≤ 49 / 20) :
    (r ≤ R + 6 ∧ R ≤ r + 6) ∧ (g ≤ G + 6 ∧ G ≤ g + 6) ∧ (b ≤ B + 7 ∧ B ≤ b + 7) := by
  obtain ⟨s1, s2, s3⟩ := spec_decode_encode 8 (Or.inl rfl) rg m R G B
  obtain ⟨i1, i2, i3, i4, i5, -⟩ := inv_bounds rg m
  obtain ⟨j1, j2, j3⟩ := inv_bounds_vec rg m
  have prod : ∀ (c e D : Rat), 0 ≤ c → |e| ≤ D → |c * e| ≤ c * D := by
    intro c e D hc he; rw [abs_mul, abs_of_nonneg hc]; exact mul_le_mul_of_nonneg_left he hc
  have p1 := prod _ _ _ i1 eY
  have p2 := prod _ _ _ i2 eV
  have p3 := prod _ _ _ i3 eU
  have p4 := prod _ _ _ i4 eV
  have p5 := prod _ _ _ i5 eU
  refine ⟨near_comp r1 q1 (L := invY 8 rg * (136 / 100) + invCr 8 rg m * (140 / 100)) ?_
    (by push_cast; linarith), near_comp gr1 q2
    (L := invY 8 rg * (136 / 100) + (invG1 8 rg m + invG2 8 rg m) * (140 / 100)) ?_
    (by push_cast; linarith), near_comp b1 q3
    (L := invY 8 rg * (136 / 100) + invCb 8 rg m * (140 / 100)) ?_ (by push_cast; linarith)⟩
  · have E : exactR 8 rg m Y U V - R
        = invY 8 rg * (Y - exactY 8 rg m R G B)
          + invCr 8 rg m * (V - exactCr 8 rg m R G B) := by
      rw [exactR_eq]
      have := s1; rw [exactR_eq] at this
      linear_combination this
    rw [E]
    exact le_trans (abs_add_le _ _) (add_le_add p1 p2)
  · have E : exactG 8 rg m Y U V - G
        = invY 8 rg * (Y - exactY 8 rg m R G B)
          - invG1 8 rg m * (V - exactCr 8 rg m R G B)
          - invG2 8 rg m * (U - exactCb 8 rg m R G B) := by
      rw [exactG_eq]
      have := s2; rw [exactG_eq] at this
      linear_combination this
    rw [E]
    refine le_trans (abs_sub _ _) ?_
    have := abs_sub (invY 8 rg * (Y - exactY 8 rg m R G B))
      (invG1 8 rg m * (V - exactCr 8 rg m R G B))
    linarith
  · have E : exactB 8 rg m Y U V - B
        = invY 8 rg * (Y - exactY 8 rg m R G B)
          + invCb 8 rg m * (U - exactCb 8 rg m R G B) := by
      rw [exactB_eq]
      have := s3; rw [exactB_eq] at this
      linear_combination this
    rw [E]
    exact le_trans (abs_add_le _ _) (add_le_add p1 p3)

/-- C63, what holds: encoding an RGB(A) image to 4:4:4 on any x86 processor and decoding it on any
x86 processor with the same matrix and range, into any channel order, returns every pixel with red
and green within 6 and blue within 7 — provided, if the decoding processor has SSE4.1 but not AVX2
and the range is limited, that no pixel has luma 128…143.  Missing: those pixels, which that decoder
gets wrong (`c55_sse_position_dependent`). -/
theorem c63_x86_round_trip_partial (cpu cpu' : Cpu) (ch ch' : Channels) (i : Planar)
    (rgba dst : Buf) (stride stride' : Nat) (rg : YuvRange) (m : Matrix)
    (hi : GoodPlanar i .yuv444 256) (hsrc : GoodDst rgba.length stride i.width i.height ch.count)
    (hb : Bytes rgba) (hdst : GoodDst dst.length stride' i.width i.height ch'.count)
    (hsse : cpu' = .sse41 → rg = .limited → ∀ x y, x < i.width → y < i.height →
      let Y := cpuLuma cpu ch rg m (pixelAt rgba stride ch.count x y)
      Y < 128 ∨ 144 ≤ Y) :
    ∃ yuv out, rgbxToYuvOn cpu ch .yuv444 i rgba stride rg m = .ok yuv ∧
      yuvToRgbxOn cpu' ch' .yuv444 yuv dst stride' rg m = .ok out ∧
      ∀ x y, x < i.width → y < i.height →
        let px := pixelAt rgba stride ch.count x y
        ∃ r g b : Nat, pixelAt out stride' ch'.count x y = layout ch' r g b 255 ∧
          (r ≤ red ch px + 6 ∧ red ch px ≤ r + 6) ∧ (g ≤ green ch px + 6 ∧ green ch px ≤ g + 6) ∧
          (b ≤ blue ch px + 7 ∧ blue ch px ≤ b + 7) := by
  obtain ⟨yuv, e, hs⟩ := c59_x86_encode cpu ch .yuv444 i rgba stride rg m 256 hi hsrc hb
  have hg := hs.good hi
  obtain ⟨g1, g2, g3, g4, g5⟩ := hs.geometry
  have hY : ∀ x y, x < i.width → y < i.height →
      Planar.Y yuv x y = cpuLuma cpu ch rg m (pixelAt rgba stride ch.count x y) := by
    intro x y hx hy
    unfold Planar.Y
    rw [g3, frameSpec_at hs.y hx hy]
  have hbk : ∀ x y, x < i.width → y < i.height → (getYuvRange 8 rg).biasY ≤ Planar.Y yuv x y := by
    intro x y hx hy
    cases rg with
    | full => exact Nat.zero_le _
    | limited =>
      obtain ⟨yuv', e', h', -⟩ := c61_nominal_range_partial cpu ch .yuv444 i rgba stride m 256 hi hsrc hb
      rw [e] at e'
      injection e' with e'
      subst e'
      have := (h' x y hx hy).1
      unfold Planar.Y
      rw [g3]
      exact this
  rw [← g1, ← g2] at hdst
  obtain ⟨out, e', hr⟩ := c53_cpu_accuracy_partial cpu' ch' .yuv444 yuv dst stride' rg m hg hdst
    (fun x y hx hy => hbk x y (g1 ▸ hx) (g2 ▸ hy))
    (fun h1 h2 x y hx hy => by
      rw [hY x y (g1 ▸ hx) (g2 ▸ hy)]
      exact hsse h1 h2 x y (g1 ▸ hx) (g2 ▸ hy))
  refine ⟨yuv, out, e, e', fun x y hx hy => ?_⟩
  intro px
  obtain ⟨r, g, b, hpx, q1, q2, q3⟩ := hr.2.1 x y (g1 ▸ hx) (g2 ▸ hy)
  have cx : x < cover i.width (hdiv .yuv444) := by
    simp only [cover, hdiv, Nat.div_one]; omega
  have cy : y < cover i.height (vdiv .yuv444) := by
    simp only [cover, vdiv, Nat.div_one]; omega
  obtain ⟨r1, gr1, b1⟩ : red ch px < 256 ∧ green ch px < 256 ∧ blue ch px < 256 :=
    comps_lt (by omega) ch (mem_pixelAt hb)
  have hblk : block rgba stride ch.count i.width i.height (hdiv .yuv444) (vdiv .yuv444) x y = [px] := by
    simp only [hdiv, vdiv, block, blockCols_one hx, blockCols_one hy]
    rfl
  have eY : |(Planar.Y yuv x y : Rat) - exactY 8 rg m (red ch px) (green ch px) (blue ch px)|
      ≤ 136 / 100 := by
    rw [hY x y hx hy]; exact cpuLuma_exact cpu ch rg m (mem_pixelAt hb)
  have eC := cpuChroma_exact cpu hi.wpos hi.hpos cx cy ch rg m hb (stride := stride)
  dsimp only at eC
  rw [hblk] at eC
  have m1 : ∀ f : Buf → Nat, mean ([px].map f) = f px := fun f => by simp [mean]
  rw [m1, m1, m1, if_pos rfl] at eC
  have hU : Planar.U yuv .yuv444 x y = cpuCb cpu .yuv444 ch rg m
      (lastColumn i.width i.height (hdiv .yuv444) (vdiv .yuv444) x y) [px] := by
    unfold Planar.U
    rw [g4, ← hblk]
    simp only [hdiv, vdiv, Nat.div_one]
    exact frameSpec_at hs.u cx cy
  have hV : Planar.V yuv .yuv444 x y = cpuCr cpu .yuv444 ch rg m
      (lastColumn i.width i.height (hdiv .yuv444) (vdiv .yuv444) x y) [px] := by
    unfold Planar.V
    rw [g5, ← hblk]
    simp only [hdiv, vdiv, Nat.div_one]
    exact frameSpec_at hs.v cx cy
  rw [← hU, ← hV] at eC
  obtain ⟨eU, eV⟩ := eC
  exact ⟨r, g, b, hpx, round_core rg m r1 gr1 b1 eY eU eV q1 q2 q3⟩

/-! ## The hypotheses are met -/

/-- The hypotheses of C59, C60, C62 (and, with a 4:4:4 destination, C61, C63) are met. -/
example : GoodPlanar demoDst420 .yuv420 256 ∧ GoodDst demoRgb.length 11 3 3 3 ∧ Bytes demoRgb :=
  ⟨demoDst420_good, ⟨by unfold U32; decide, by decide, by unfold FullRows; decide, by decide⟩, by
    unfold Bytes; decide⟩

/-- The 3×3 demonstration image on the vector units: padding (7) is kept. -/
example : rgbxToYuvOn .avx2 .rgb .yuv420 demoDst420 demoRgb 11 .limited .bt601
    = .ok { demoDst420 with
      y := [81, 145, 41, 7, 235, 16, 126, 7, 128, 40, 202, 7, 7]
      u := [100, 184, 7, 121, 23, 7]
      v := [132, 119, 87, 149] } := by decide +kernel

example : GoodPlanar demoDst444 .yuv444 256 ∧ GoodDst 6 6 2 1 3 ∧
    Bytes [255, 255, 0, 0, 255, 255] ∧
    (∀ x y, x < 2 → y < 1 →
      144 ≤ cpuLuma .avx2 .rgb .limited .bt601 (pixelAt [255, 255, 0, 0, 255, 255] 6 3 x y)) :=
  ⟨demoDst444_good, ⟨by unfold U32; decide, by decide, by unfold FullRows; decide, by decide⟩, by
    unfold Bytes; decide, by
      intro x y hx hy
      have : y = 0 := by omega
      have : x = 0 ∨ x = 1 := by omega
      subst y
      rcases this with rfl | rfl <;> decide +kernel⟩

end Verif
