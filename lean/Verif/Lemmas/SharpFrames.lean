import Verif.Lemmas.Sharp
import Verif.Lemmas.FillRows
/-! # The frames of the sharp YUV encoder -/
namespace Verif
open Spec

theorem chunk_take' {n k x : Nat} {l : Buf} (h : x * n + n ≤ k) : chunk n (l.take k) x = chunk n l x := by
  unfold chunk
  rw [List.drop_take, List.take_take, Nat.min_eq_left (by omega)]

theorem chunk_chunk {n st x r : Nat} {l : Buf} (h : x * n + n ≤ st) :
    chunk n (chunk st l r) x = pixelAt l st n x r := by
  unfold chunk pixelAt
  rw [List.drop_take, List.take_take, Nat.min_eq_left (by omega), List.drop_drop]

theorem onRow3_fill {w cw cn : Nat} {f : Buf → Buf → Buf → Buf → Outcome (Buf × Buf × Buf)}
    {y u v rgba : Buf} {fy fu fv : Nat → Nat} (ly : w ≤ y.length) (lu : cw ≤ u.length)
    (lv : cw ≤ v.length) (lr : w * cn ≤ rgba.length)
    (h : f (y.take w) (u.take cw) (v.take cw) (rgba.take (w * cn))
      = .ok (fillTo fy w (y.take w), fillTo fu cw (u.take cw), fillTo fv cw (v.take cw))) :
    onRow3 w cw cn f y u v rgba = .ok (fillTo fy w y, fillTo fu cw u, fillTo fv cw v) := by
  unfold onRow3
  rw [slice_take ly, slice_take lu, slice_take lv, slice_take lr]
  simp only [Outcome.bind_ok]
  rw [h]
  simp only [Outcome.bind_ok, Outcome.pure_eq]
  rw [fillTo_append ly, fillTo_append lu, fillTo_append lv]

theorem onRow3_fillY {w cw cn : Nat} {f : Buf → Buf → Buf → Buf → Outcome (Buf × Buf × Buf)}
    {y u v rgba : Buf} {fy : Nat → Nat} (ly : w ≤ y.length) (lu : cw ≤ u.length)
    (lv : cw ≤ v.length) (lr : w * cn ≤ rgba.length)
    (h : f (y.take w) (u.take cw) (v.take cw) (rgba.take (w * cn))
      = .ok (fillTo fy w (y.take w), u.take cw, v.take cw)) :
    onRow3 w cw cn f y u v rgba = .ok (fillTo fy w y, u, v) := by
  unfold onRow3
  rw [slice_take ly, slice_take lu, slice_take lv, slice_take lr]
  simp only [Outcome.bind_ok]
  rw [h]
  simp only [Outcome.bind_ok, Outcome.pure_eq]
  rw [fillTo_append ly, List.take_append_drop, List.take_append_drop]

/-- A pixel in linear light, in the order of the source. -/
def linPixel (T : GammaTables) (s : Buf) : Buf :=
  [T.lin.getD (s.getD 0 0) 0, T.lin.getD (s.getD 1 0) 0, T.lin.getD (s.getD 2 0) 0]

theorem linPixel_comps (T : GammaTables) (ch : Channels) (s : Buf) :
    red ch (linPixel T s) = T.lin.getD (red ch s) 0 ∧
    green ch (linPixel T s) = T.lin.getD (green ch s) 0 ∧
    blue ch (linPixel T s) = T.lin.getD (blue ch s) 0 := by
  cases ch <;> exact ⟨rfl, rfl, rfl⟩

theorem linearizeBody_ok {T : GammaTables} (hT : GoodTables T) {ch : Channels} {buf : Buf} {st : Nat}
    {cut : Bool} :
    BodyOk 256 3 [⟨buf, st, ch.count, cut⟩] (linearizeBody T) (fun px => linPixel T (px.getD 0 [])) where
  len _ := rfl
  ok px c hp hc := by
    obtain ⟨hl, hb⟩ := hp.pixel (j := 0) (s := ⟨buf, st, ch.count, cut⟩) rfl
    unfold linearizeBody
    generalize px.getD 0 [] = p at hl hb ⊢
    have h3 := count_ge3 ch
    simp only at hl
    obtain ⟨c0, c1, c2, rfl⟩ := List.length_eq_three.1 hc
    have hx : ∀ k, k < 3 → idx T.lin (p.getD k 0) = .ok (T.lin.getD (p.getD k 0) 0) := by
      intro k hk
      exact idx_ok (by rw [hT.lin]; exact getD_lt (by omega) hb)
    show (do
      let a ← idx p 0
      let v ← idx T.lin a
      let c ← setIdx [c0, c1, c2] 0 v
      let a ← idx p 1
      let v ← idx T.lin a
      let c ← setIdx c 1 v
      let a ← idx p 2
      let v ← idx T.lin a
      setIdx c 2 v) = _
    rw [idx_ok (l := p) (by omega)]
    simp only [Outcome.bind_ok]
    rw [hx 0 (by omega)]
    simp only [Outcome.bind_ok]
    rw [show setIdx [c0, c1, c2] 0 (T.lin.getD (p.getD 0 0) 0)
      = .ok [T.lin.getD (p.getD 0 0) 0, c1, c2] from rfl]
    simp only [Outcome.bind_ok]
    rw [idx_ok (l := p) (by omega)]
    simp only [Outcome.bind_ok]
    rw [hx 1 (by omega)]
    simp only [Outcome.bind_ok]
    rw [show setIdx [T.lin.getD (p.getD 0 0) 0, c1, c2] 1 (T.lin.getD (p.getD 1 0) 0)
      = .ok [T.lin.getD (p.getD 0 0) 0, T.lin.getD (p.getD 1 0) 0, c2] from rfl]
    simp only [Outcome.bind_ok]
    rw [idx_ok (l := p) (by omega)]
    simp only [Outcome.bind_ok]
    rw [hx 2 (by omega)]
    rfl

/-- The linear image. -/
structure LinImage (T : GammaTables) (ch : Channels) (w h : Nat) (rgba : Buf) (stride : Nat)
    (lay : Buf) : Prop where
  len : lay.length = w * h * 3
  px : ∀ x y, x < w → y < h → pixelAt lay (w * 3) 3 x y = linPixel T (pixelAt rgba stride ch.count x y)

theorem linearize_ok {T : GammaTables} (hT : GoodTables T) {ch : Channels} {w h : Nat} {rgba : Buf}
    {stride : Nat} (hw : 0 < w) (hg : GoodDst rgba.length stride w h ch.count) (hb : Bytes rgba) :
    ∃ lay, linearize T ch w h rgba stride = .ok lay ∧ LinImage T ch w h rgba stride lay := by
  have hs : ∀ s ∈ [(⟨rgba, stride, ch.count, false⟩ : Src)], GoodSrc s w h 256 := by
    intro s hs'
    rw [List.mem_singleton] at hs'
    subst hs'
    exact goodSrc_packed (count_pos ch) hg hb
  have e3 : w * h * 3 = w * 3 * h := by rw [Nat.mul_assoc, Nat.mul_comm h 3, Nat.mul_assoc]
  obtain ⟨lay, e, hl⟩ := mapFrame_spec (cutDst := true) (w := w) (h := h) (cn := 3)
    (stride := w * 3) (dst := List.replicate (w * h * 3) 0) hw (by omega) hs (linearizeBody_ok hT)
    (noMap_ok (R := fun _ _ => False)) (Nat.le_refl _)
    (by rw [List.length_replicate, e3]; refine ⟨Nat.le_refl _, ?_⟩; rw [Nat.mul_add]; omega)
    (Or.inl rfl)
  refine ⟨lay, e, by rw [hl.1, List.length_replicate], ?_⟩
  intro x y hx hy
  exact (hl.2.1 x y hx hy).resolve_right id

section
variable {T : GammaTables} {ch : Channels} {i : Planar} {rgba lay : Buf} {stride : Nat}

theorem linLane_ok {w h r : Nat} (hL : LinImage T ch w h rgba stride lay) (hr : r < h) :
    linLane w lay r = .ok (chunk (w * 3) lay r) ∧ (chunk (w * 3) lay r).length = w * 3 := by
  have e3 : w * h * 3 = h * (w * 3) := by rw [Nat.mul_comm w h, Nat.mul_assoc]
  have h1 := succ_mul_le_of_lt (w * 3) hr
  have h2 := hL.len
  refine ⟨?_, chunk_length (by omega)⟩
  unfold linLane
  rw [slice_ok (by omega) (by omega)]
  unfold chunk
  rw [show w * 3 + r * (w * 3) - r * (w * 3) = w * 3 by omega]

theorem lane_px {w h r x : Nat} (hL : LinImage T ch w h rgba stride lay) (hr : r < h) (hx : x < w) :
    chunk 3 (chunk (w * 3) lay r) x = linPixel T (pixelAt rgba stride ch.count x r) := by
  rw [chunk_chunk (by have := succ_mul_le_of_lt 3 hx; omega), hL.px x r hx hr]

theorem lane_lin (hT : GoodTables T) {w h r x : Nat} (hL : LinImage T ch w h rgba stride lay)
    (hr : r < h) (hx : x < w) : LinPx ch (chunk 3 (chunk (w * 3) lay r) x) := by
  rw [lane_px hL hr hx]
  obtain ⟨e1, e2, e3⟩ := linPixel_comps T ch (pixelAt rgba stride ch.count x r)
  refine ⟨Nat.le_refl _, ?_⟩
  rw [e1, e2, e3]
  exact ⟨GoodTables.lin_lt hT _, GoodTables.lin_lt hT _, GoodTables.lin_lt hT _⟩

theorem src_px {w h r x : Nat} (hg : GoodDst rgba.length stride w h ch.count) (hx : x < w) :
    chunk ch.count ((chunk stride rgba r).take (w * ch.count)) x = pixelAt rgba stride ch.count x r := by
  have := succ_mul_le_of_lt ch.count hx
  have := hg.cols_le
  rw [chunk_take' (by omega), chunk_chunk (by omega)]

/-- The stored luma of pixel `(x, y)`. -/
def sharpY (ch : Channels) (rg : YuvRange) (m : Matrix) (rgba : Buf) (stride x y : Nat) : Nat :=
  luma8 13 ch rg m (pixelAt rgba stride ch.count x y)

/-- The stored chroma sample `(cx, cy)`. -/
def sharpU (T : GammaTables) (s : SharpSampling) (ch : Channels) (rg : YuvRange) (m : Matrix)
    (rgba : Buf) (stride w h cx cy : Nat) : Nat :=
  let k := fun f => sharpColour T s f rgba stride ch.count w h cx cy
  low8 (cbVal 13 8 rg m (k (red ch)) (k (green ch)) (k (blue ch)))
def sharpV (T : GammaTables) (s : SharpSampling) (ch : Channels) (rg : YuvRange) (m : Matrix)
    (rgba : Buf) (stride w h cx cy : Nat) : Nat :=
  let k := fun f => sharpColour T s f rgba stride ch.count w h cx cy
  low8 (crVal 13 8 rg m (k (red ch)) (k (green ch)) (k (blue ch)))

theorem mixPx_lin {a b c d : Buf} (f : Buf → Nat)
    (hf : ∀ s, f (linPixel T s) = T.lin.getD (f s) 0) :
    mixPx T f (linPixel T a) (linPixel T b) (linPixel T c) (linPixel T d) = mixed T (f a) (f b) (f c) (f d) := by
  unfold mixPx mixed
  rw [hf, hf, hf, hf]

theorem rowY_eq {w h r x : Nat} (rg : YuvRange) (m : Matrix)
    (hg : GoodDst rgba.length stride w h ch.count) (hx : x < w) :
    rowY ch rg m ((chunk stride rgba r).take (w * ch.count)) x = sharpY ch rg m rgba stride x r := by
  unfold rowY sharpY
  rw [src_px hg hx]

/-- Chroma of two rows of the 4:2:0 path. -/
theorem rowUV_eq {w h cy r1 c : Nat} (rg : YuvRange) (m : Matrix)
    (hL : LinImage T ch w h rgba stride lay) (hw : 0 < w) (hr : 2 * cy < h)
    (h1 : r1 = min (2 * cy + 1) (h - 1)) (hc : c < ceil2 w) :
    rowU T ch rg m w (chunk (w * 3) lay (2 * cy)) (chunk (w * 3) lay r1) c
      = sharpU T .yuv420 ch rg m rgba stride w h c cy ∧
    rowV T ch rg m w (chunk (w * 3) lay (2 * cy)) (chunk (w * 3) lay r1) c
      = sharpV T .yuv420 ch rg m rgba stride w h c cy := by
  have lc : ceil2 w = (w + 1) / 2 := rfl
  have hr1 : r1 < h := by omega
  have key : ∀ f : Buf → Nat, (∀ s, f (linPixel T s) = T.lin.getD (f s) 0) →
      mixPx T f (chunk 3 (chunk (w * 3) lay (2 * cy)) (2 * c))
        (chunk 3 (chunk (w * 3) lay (2 * cy)) (min (2 * c + 1) (w - 1)))
        (chunk 3 (chunk (w * 3) lay r1) (2 * c))
        (chunk 3 (chunk (w * 3) lay r1) (min (2 * c + 1) (w - 1)))
      = sharpColour T .yuv420 f rgba stride ch.count w h c cy := by
    intro f hf
    rw [lane_px hL hr (by omega), lane_px hL hr (by omega), lane_px hL hr1 (by omega),
      lane_px hL hr1 (by omega), mixPx_lin f hf]
    unfold sharpColour sharpComp
    rw [if_neg (by simp [rawTail])]
    simp only [SharpSampling.sampling, vdiv]
    rw [show min (2 * c) (w - 1) = 2 * c by omega, show min (2 * cy) (h - 1) = 2 * cy by omega, h1]
  unfold rowU rowV mixCb mixCr sharpU sharpV
  simp only []
  rw [key _ (fun s => (linPixel_comps T ch s).1), key _ (fun s => (linPixel_comps T ch s).2.1),
    key _ (fun s => (linPixel_comps T ch s).2.2)]
  exact ⟨rfl, rfl⟩

/-- Chroma of a row of the 4:2:2 path. -/
theorem rowUV2_eq {w h r c : Nat} (rg : YuvRange) (m : Matrix)
    (hL : LinImage T ch w h rgba stride lay) (hg : GoodDst rgba.length stride w h ch.count)
    (hw : 0 < w) (hr : r < h) (hc : c < ceil2 w) :
    rowU2 T ch rg m w ((chunk stride rgba r).take (w * ch.count)) (chunk (w * 3) lay r) c
      = sharpU T .yuv422 ch rg m rgba stride w h c r ∧
    rowV2 T ch rg m w ((chunk stride rgba r).take (w * ch.count)) (chunk (w * 3) lay r) c
      = sharpV T .yuv422 ch rg m rgba stride w h c r := by
  have lc : ceil2 w = (w + 1) / 2 := rfl
  unfold rowU2 rowV2 sharpU sharpV sharpColour
  simp only []
  by_cases ht : 2 * c + 1 = w
  · rw [if_pos ht, if_pos ht]
    simp only [rawTail, ht, and_self, decide_true, if_true]
    rw [src_px hg (by omega)]
    exact ⟨rfl, rfl⟩
  · rw [if_neg ht, if_neg ht]
    simp only [rawTail, ht, and_false, decide_false, Bool.false_eq_true, if_false]
    have key : ∀ f : Buf → Nat, (∀ s, f (linPixel T s) = T.lin.getD (f s) 0) →
        mixPx T f (chunk 3 (chunk (w * 3) lay r) (2 * c))
          (chunk 3 (chunk (w * 3) lay r) (min (2 * c + 1) (w - 1)))
          (chunk 3 (chunk (w * 3) lay r) (2 * c))
          (chunk 3 (chunk (w * 3) lay r) (min (2 * c + 1) (w - 1)))
        = sharpComp T f rgba stride ch.count w h (vdiv SharpSampling.yuv422.sampling) c r := by
      intro f hf
      rw [lane_px hL hr (by omega), lane_px hL hr (by omega), mixPx_lin f hf]
      unfold sharpComp
      simp only [SharpSampling.sampling, vdiv, Nat.one_mul, Nat.sub_self, Nat.add_zero]
      rw [show min (2 * c) (w - 1) = 2 * c by omega, show min r (h - 1) = r by omega]
    unfold rowU rowV mixCb mixCr
    rw [key _ (fun s => (linPixel_comps T ch s).1), key _ (fun s => (linPixel_comps T ch s).2.1),
      key _ (fun s => (linPixel_comps T ch s).2.2)]
    exact ⟨rfl, rfl⟩

/-- What the planes are after encoding. -/
def SharpPlanes (T : GammaTables) (s : SharpSampling) (ch : Channels) (rg : YuvRange) (m : Matrix)
    (i : Planar) (rgba : Buf) (stride : Nat) (o : Outcome (Buf × Buf × Buf)) : Prop :=
  ∃ y u v, o = .ok (y, u, v) ∧
    FrameSpec y i.y i.yStride i.width i.height 1 (fun x r => [sharpY ch rg m rgba stride x r]) ∧
    FrameSpec u i.u i.uStride (ceil2 i.width) (s.sampling.chromaHeight i.height) 1
      (fun c r => [sharpU T s ch rg m rgba stride i.width i.height c r]) ∧
    FrameSpec v i.v i.vStride (ceil2 i.width) (s.sampling.chromaHeight i.height) 1
      (fun c r => [sharpV T s ch rg m rgba stride i.width i.height c r])

theorem fillRows_spec {st w h : Nat} {F : Nat → Nat → Nat} {l : Buf} {f : Nat → Nat → Nat}
    (hst : 0 < st) (hw : w ≤ st) (hl : st * h ≤ l.length)
    (hF : ∀ r, r < h → ∀ x, x < w → F r x = f x r) :
    FrameSpec (fillRows st w F h l) l st w h 1 (fun x r => [f x r]) := by
  have := fillRows_frameRel (st := st) (w := w) (h := h) (cn := 1) (F := F) (l := l)
    (R := fun x y p => p = [f x y]) hst (by omega) (by rw [Nat.mul_comm]; exact hl) (by
      intro x y hx hy
      rw [fillPix_one, hF y hy x hx])
  rw [Nat.mul_one] at this
  exact frameRel_eq this

theorem sharp422_ok (hT : GoodTables T) (rg : YuvRange) (m : Matrix) {B : Nat}
    (hp : PlanarRows i .yuv422 B) (hg : GoodDst rgba.length stride i.width i.height ch.count)
    (hb : Bytes rgba) (hL : LinImage T ch i.width i.height rgba stride lay) :
    SharpPlanes T .yuv422 ch rg m i rgba stride
      (sharp422 13 (searchForward 13 8 rg m) (getYuvRange 8 rg) ch T lay i rgba stride) := by
  have lc : ceil2 i.width = (i.width + 1) / 2 := rfl
  have hw := hp.wpos
  have hcn := count_ge3 ch
  have hcl := hg.cols_le
  have hst : 0 < stride := Nat.lt_of_lt_of_le (Nat.mul_pos hw (count_pos ch)) hcl
  have hyw := hp.yw
  have huw : ceil2 i.width ≤ i.uStride := hp.uw
  have hvw : ceil2 i.width ≤ i.vStride := hp.vw
  have hur : FullRows i.u.length i.uStride i.height := hp.ur
  have hvr : FullRows i.v.length i.vStride i.height := hp.vr
  unfold sharp422
  simp only []
  rw [if_neg (by omega), fullRows_div hp.yr, fullRows_div hur, fullRows_div hvr, fullRows_div hg.full,
    show min (min (min i.height i.height) i.height) i.height = i.height by omega]
  obtain ⟨Fy, Fu, Fv, e, hF⟩ := rows3_fill (k := i.height) (wy := i.width) (wu := ceil2 i.width)
    (wv := ceil2 i.width) (y := i.y) (u := i.u) (v := i.v)
    (P := fun r fy fu fv => (∀ x, x < i.width → fy x = sharpY ch rg m rgba stride x r) ∧
      (∀ c, c < ceil2 i.width → fu c = sharpU T .yuv422 ch rg m rgba stride i.width i.height c r) ∧
      (∀ c, c < ceil2 i.width → fv c = sharpV T .yuv422 ch rg m rgba stride i.width i.height c r))
    (ny := i.yStride) (nu := i.uStride) (nv := i.vStride)
    (by omega) (by omega) (by omega) hyw huw hvw
    (by rw [Nat.mul_comm]; exact hp.yr.1) (by rw [Nat.mul_comm]; exact hur.1)
    (by rw [Nat.mul_comm]; exact hvr.1)
    (g := fun r y u v => do
      let lane ← linLane i.width lay r
      onRow3 i.width (ceil2 i.width) ch.count
        (fun y u v rgba => sharpRow422 13 (searchForward 13 8 rg m) (getYuvRange 8 rg) ch T i.width
          y u v rgba lane) y u v (chunk stride rgba r)) (by
    intro r hr
    have cy := chunk_length (fullRows_row hp.yr hr)
    have cu := chunk_length (fullRows_row hur hr)
    have cv := chunk_length (fullRows_row hvr hr)
    have cq := chunk_length (fullRows_row hg.full hr)
    obtain ⟨l1, l2⟩ := linLane_ok hL hr
    rw [l1]
    simp only [Outcome.bind_ok]
    refine ⟨_, _, _, onRow3_fill (by omega) (by omega) (by omega) (by omega)
      (sharpRow422_ok hT rg m hw (by rw [List.length_take]; omega) (by rw [List.length_take]; omega)
        (by rw [List.length_take]; omega) (by rw [List.length_take]; omega)
        (bnd_take (bnd_take (bnd_drop hb))) l2 (fun x hx => lane_lin hT hL hr hx)), ?_, ?_, ?_⟩
    · intro x hx; exact rowY_eq rg m hg hx
    · intro c hc; exact (rowUV2_eq rg m hL hg hw hr hc).1
    · intro c hc; exact (rowUV2_eq rg m hL hg hw hr hc).2)
  refine ⟨_, _, _, e, ?_, ?_, ?_⟩
  · exact fillRows_spec (by omega) hyw hp.yr.1 fun r hr => (hF r hr).1
  · exact fillRows_spec (by omega) huw hur.1 fun r hr => (hF r hr).2.1
  · exact fillRows_spec (by omega) hvw hvr.1 fun r hr => (hF r hr).2.2

theorem sharpLane420_eq {p : Nat} {t : FwdCoef} {c : ChromaRange} {w h r : Nat} {y u v q : Buf}
    (hL : LinImage T ch w h rgba stride lay) (hr : r < h) :
    sharpLane420 p t c ch T w h lay r y u v q = onRow3 w (ceil2 w) ch.count
      (fun y u v rgba => sharpRow420 p t c ch T r w y u v rgba (chunk (w * 3) lay r)
        (chunk (w * 3) lay (min (r + 1) (h - 1)))) y u v q := by
  unfold sharpLane420
  rw [(linLane_ok hL hr).1]
  simp only [Outcome.bind_ok]
  by_cases h2 : r + 1 < h
  · rw [if_pos h2, (linLane_ok hL h2).1, show min (r + 1) (h - 1) = r + 1 by omega]
    rfl
  · rw [if_neg h2, show min (r + 1) (h - 1) = r by omega]

theorem setChunk_fillRows_new {st n r : Nat} {F : Nat → Nat → Nat} {f : Nat → Nat} {l : Buf}
    (hst : 0 < st) (hn : n ≤ st) (hr : r * st + st ≤ l.length) :
    setChunk st (fillRows st n F r l) r (fillTo f n (chunk st l r))
      = fillRows st n (fun k => if k = r then f else F k) (r + 1) l := by
  rw [← setChunk_fillRows hst hn hr, if_pos rfl,
    fillRows_congr (F := F) (G := fun k => if k = r then f else F k)
      fun k hk => (if_neg (by omega)).symm]

/-- A row whose number is even, of the 4:2:0 path. -/
theorem lane420_even (hT : GoodTables T) (rg : YuvRange) (m : Matrix) {w h cy r1 : Nat} {y u v : Buf}
    (hg : GoodDst rgba.length stride w h ch.count) (hb : Bytes rgba)
    (hL : LinImage T ch w h rgba stride lay) (hw : 0 < w) (hr : 2 * cy < h)
    (h1 : r1 = min (2 * cy + 1) (h - 1)) (ly : w ≤ y.length) (lu : ceil2 w ≤ u.length)
    (lv : ceil2 w ≤ v.length) :
    ∃ fy fu fv, onRow3 w (ceil2 w) ch.count
      (fun y u v rgba => sharpRow420 13 (searchForward 13 8 rg m) (getYuvRange 8 rg) ch T (2 * cy) w
        y u v rgba (chunk (w * 3) lay (2 * cy)) (chunk (w * 3) lay r1)) y u v (chunk stride rgba (2 * cy))
      = .ok (fillTo fy w y, fillTo fu (ceil2 w) u, fillTo fv (ceil2 w) v) ∧
      (∀ x, x < w → fy x = sharpY ch rg m rgba stride x (2 * cy)) ∧
      (∀ c, c < ceil2 w → fu c = sharpU T .yuv420 ch rg m rgba stride w h c cy) ∧
      (∀ c, c < ceil2 w → fv c = sharpV T .yuv420 ch rg m rgba stride w h c cy) := by
  have cq := chunk_length (fullRows_row hg.full hr)
  have hcl := hg.cols_le
  have hr1 : r1 < h := by omega
  obtain ⟨-, l2⟩ := linLane_ok hL hr
  obtain ⟨-, l3⟩ := linLane_ok hL hr1
  refine ⟨_, _, _, onRow3_fill ly lu lv (by omega)
    (sharpRow420_even hT rg m (by omega) hw (by rw [List.length_take]; omega)
      (by rw [List.length_take]; omega) (by rw [List.length_take]; omega)
      (by rw [List.length_take]; omega) (bnd_take (bnd_take (bnd_drop hb))) l2 l3
      (fun x hx => lane_lin hT hL hr hx) (fun x hx => lane_lin hT hL hr1 hx)), ?_, ?_, ?_⟩
  · intro x hx; exact rowY_eq rg m hg hx
  · intro c hc; exact (rowUV_eq rg m hL hw hr h1 hc).1
  · intro c hc; exact (rowUV_eq rg m hL hw hr h1 hc).2

theorem lane420_odd (rg : YuvRange) (m : Matrix) {w h r : Nat} {y u v : Buf}
    (hg : GoodDst rgba.length stride w h ch.count) (hb : Bytes rgba)
    (hL : LinImage T ch w h rgba stride lay) (hw : 0 < w) (hr : 2 * r + 1 < h)
    (ly : w ≤ y.length) (lu : ceil2 w ≤ u.length) (lv : ceil2 w ≤ v.length) :
    onRow3 w (ceil2 w) ch.count
      (fun y u v rgba => sharpRow420 13 (searchForward 13 8 rg m) (getYuvRange 8 rg) ch T (2 * r + 1) w
        y u v rgba (chunk (w * 3) lay (2 * r + 1)) (chunk (w * 3) lay (min (2 * r + 1 + 1) (h - 1))))
        y u v (chunk stride rgba (2 * r + 1))
      = .ok (fillTo (rowY ch rg m ((chunk stride rgba (2 * r + 1)).take (w * ch.count))) w y, u, v) := by
  have cq := chunk_length (fullRows_row hg.full hr)
  have hcl := hg.cols_le
  have l2 := (linLane_ok hL hr).2
  have l3 := (linLane_ok hL (show min (2 * r + 1 + 1) (h - 1) < h by omega)).2
  have t1 : (y.take w).length = w := by rw [List.length_take]; omega
  have t2 : (u.take (ceil2 w)).length = ceil2 w := by rw [List.length_take]; omega
  have t3 : (v.take (ceil2 w)).length = ceil2 w := by rw [List.length_take]; omega
  have t4 : ((chunk stride rgba (2 * r + 1)).take (w * ch.count)).length = w * ch.count := by
    rw [List.length_take]; omega
  exact onRow3_fillY ly lu lv (by omega)
    (sharpRow420_odd rg m (by omega) hw t1 t2 t3 t4 (bnd_take (bnd_take (bnd_drop hb))) l2 l3)

/-- The two rows of a pair. -/
def pairStep (T : GammaTables) (ch : Channels) (rg : YuvRange) (m : Matrix) (i : Planar)
    (lay rgba : Buf) (stride : Nat) (j : Nat) (y u v : Buf) : Outcome (Buf × Buf × Buf) := do
  let (a, u, v) ← sharpLane420 13 (searchForward 13 8 rg m) (getYuvRange 8 rg) ch T i.width
    i.height lay (2 * j) (y.take i.yStride) u v ((chunk (stride * 2) rgba j).take stride)
  let (b, u, v) ← sharpLane420 13 (searchForward 13 8 rg m) (getYuvRange 8 rg) ch T i.width
    i.height lay (2 * j + 1) (y.drop i.yStride) u v ((chunk (stride * 2) rgba j).drop stride)
  return (a ++ b, u, v)

/-- The values of a pair of rows. -/
def PairVals (T : GammaTables) (ch : Channels) (rg : YuvRange) (m : Matrix) (w h : Nat)
    (rgba : Buf) (stride r : Nat) (fa fb fu fv : Nat → Nat) : Prop :=
  (∀ x, x < w → fa x = sharpY ch rg m rgba stride x (2 * r)) ∧
  (∀ x, x < w → fb x = sharpY ch rg m rgba stride x (2 * r + 1)) ∧
  (∀ c, c < ceil2 w → fu c = sharpU T .yuv420 ch rg m rgba stride w h c r) ∧
  (∀ c, c < ceil2 w → fv c = sharpV T .yuv420 ch rg m rgba stride w h c r)

theorem pairStep_ok (hT : GoodTables T) (rg : YuvRange) (m : Matrix) {B : Nat}
    (hp : PlanarRows i .yuv420 B) (hg : GoodDst rgba.length stride i.width i.height ch.count)
    (hb : Bytes rgba) (hL : LinImage T ch i.width i.height rgba stride lay) {r : Nat}
    (hr : r < i.height / 2) :
    ∃ fa fb fu fv, pairStep T ch rg m i lay rgba stride r (chunk (i.yStride * 2) i.y r)
        (chunk i.uStride i.u r) (chunk i.vStride i.v r)
      = .ok (fillTo fa i.width (chunk i.yStride i.y (2 * r))
            ++ fillTo fb i.width (chunk i.yStride i.y (2 * r + 1)),
          fillTo fu (ceil2 i.width) (chunk i.uStride i.u r),
          fillTo fv (ceil2 i.width) (chunk i.vStride i.v r)) ∧
      PairVals T ch rg m i.width i.height rgba stride r fa fb fu fv := by
  have lc : ceil2 i.width = (i.width + 1) / 2 := rfl
  have lh : ceil2 i.height = (i.height + 1) / 2 := rfl
  have hw := hp.wpos
  have hh := hp.hpos
  have hcn := count_ge3 ch
  have hcl := hg.cols_le
  have hst : 0 < stride := Nat.lt_of_lt_of_le (Nat.mul_pos hw (count_pos ch)) hcl
  have hyw := hp.yw
  have huw : ceil2 i.width ≤ i.uStride := hp.uw
  have hvw : ceil2 i.width ≤ i.vStride := hp.vw
  have hur : FullRows i.u.length i.uStride (ceil2 i.height) := hp.ur
  have hvr : FullRows i.v.length i.vStride (ceil2 i.height) := hp.vr
  have hyr := hp.yr
  have hr0 : 2 * r < i.height := by omega
  have hr1 : 2 * r + 1 < i.height := by omega
  have cy0 := chunk_length (fullRows_row hyr hr0)
  have cy1 := chunk_length (fullRows_row hyr hr1)
  have cu := chunk_length (fullRows_row hur (show r < ceil2 i.height by omega))
  have cv := chunk_length (fullRows_row hvr (show r < ceil2 i.height by omega))
  have cq1 := chunk_length (fullRows_row hg.full hr1)
  unfold pairStep
  simp only [chunk2_take_chunk, chunk2_drop_chunk]
  obtain ⟨fy, fu, fv, e1, g1, g2, g3⟩ := lane420_even hT rg m hg hb hL hw hr0
    (r1 := 2 * r + 1) (by omega) (y := chunk i.yStride i.y (2 * r)) (u := chunk i.uStride i.u r)
    (v := chunk i.vStride i.v r) (by omega) (by omega) (by omega)
  refine ⟨fy, rowY ch rg m ((chunk stride rgba (2 * r + 1)).take (i.width * ch.count)), fu, fv, ?_,
    g1, fun x hx => rowY_eq rg m hg hx, g2, g3⟩
  rw [sharpLane420_eq hL hr0, show min (2 * r + 1) (i.height - 1) = 2 * r + 1 by omega, e1]
  simp only [Outcome.bind_ok]
  rw [sharpLane420_eq hL hr1]
  rw [lane420_odd rg m hg hb hL hw hr1 (by omega) (by rw [fillTo_length (by omega)]; omega)
    (by rw [fillTo_length (by omega)]; omega)]
  rfl

theorem sharp420_ok (hT : GoodTables T) (rg : YuvRange) (m : Matrix) {B : Nat}
    (hp : PlanarRows i .yuv420 B) (hg : GoodDst rgba.length stride i.width i.height ch.count)
    (hb : Bytes rgba) (hL : LinImage T ch i.width i.height rgba stride lay) :
    SharpPlanes T .yuv420 ch rg m i rgba stride
      (sharp420 13 (searchForward 13 8 rg m) (getYuvRange 8 rg) ch T lay i rgba stride) := by
  have lc : ceil2 i.width = (i.width + 1) / 2 := rfl
  have lh : ceil2 i.height = (i.height + 1) / 2 := rfl
  have hw := hp.wpos
  have hh := hp.hpos
  have hcn := count_ge3 ch
  have hcl := hg.cols_le
  have hst : 0 < stride := Nat.lt_of_lt_of_le (Nat.mul_pos hw (count_pos ch)) hcl
  have hyw := hp.yw
  have huw : ceil2 i.width ≤ i.uStride := hp.uw
  have hvw : ceil2 i.width ≤ i.vStride := hp.vw
  have hur : FullRows i.u.length i.uStride (ceil2 i.height) := hp.ur
  have hvr : FullRows i.v.length i.vStride (ceil2 i.height) := hp.vr
  have hyr := hp.yr
  have q1 : i.height / 2 * (i.yStride * 2) ≤ i.y.length := by
    rw [← fullRows_div2 hyr]; exact Nat.div_mul_le_self _ _
  have q2 : i.height / 2 * i.uStride ≤ i.u.length := by
    refine Nat.le_trans ?_ hur.1
    rw [Nat.mul_comm]; exact Nat.mul_le_mul_left _ (by omega)
  have q3 : i.height / 2 * i.vStride ≤ i.v.length := by
    refine Nat.le_trans ?_ hvr.1
    rw [Nat.mul_comm]; exact Nat.mul_le_mul_left _ (by omega)
  obtain ⟨Fy, Fu, Fv, e, hF⟩ := rows3_fill2 (ny := i.yStride) (nu := i.uStride) (nv := i.vStride)
    (by omega) (by omega) (by omega) hyw huw hvw q1 q2 q3
    (fun r hr => pairStep_ok hT rg m hp hg hb hL hr)
  unfold sharp420
  simp only []
  rw [if_neg (by omega), fullRows_div2 hyr, fullRows_div hur, fullRows_div hvr, fullRows_div2 hg.full,
    show min (min (min (i.height / 2) (ceil2 i.height)) (ceil2 i.height)) (i.height / 2)
      = i.height / 2 by omega]
  refine (congrArg (fun o => SharpPlanes T .yuv420 ch rg m i rgba stride (Outcome.bind o _)) e).mpr ?_
  clear e
  simp only [Outcome.bind]
  by_cases hodd : i.height % 2 = 0
  · rw [if_pos hodd]
    have e2 : 2 * (i.height / 2) = i.height := by omega
    have e3 : i.height / 2 = ceil2 i.height := by omega
    refine ⟨_, _, _, rfl, ?_, ?_, ?_⟩
    · rw [e2]
      refine fillRows_spec (by omega) hyw hyr.1 fun r hr x hx => ?_
      obtain ⟨a1, a2, -, -⟩ := hF (r / 2) (by omega)
      rcases Nat.mod_two_eq_zero_or_one r with he | ho
      · rw [show 2 * (r / 2) = r by omega] at a1
        exact a1 x hx
      · rw [show 2 * (r / 2) + 1 = r by omega] at a2
        exact a2 x hx
    · rw [e3]
      exact fillRows_spec (by omega) huw hur.1 fun r hr => (hF r (by omega)).2.2.1
    · rw [e3]
      exact fillRows_spec (by omega) hvw hvr.1 fun r hr => (hF r (by omega)).2.2.2
  · rw [if_neg hodd]
    have hlay : lay.length / (i.width * 3) = i.height := by
      rw [hL.len, Nat.mul_comm i.width i.height, Nat.mul_assoc]
      exact Nat.mul_div_cancel _ (by omega)
    have ey : i.height - 1 = 2 * (i.height / 2) := by omega
    have eu : ceil2 i.height - 1 = i.height / 2 := by omega
    rw [fillRows_length, fillRows_length, fillRows_length, fullRows_div hyr, fullRows_div hur,
      fullRows_div hvr, fullRows_div hg.full, hlay, if_neg (by omega), ey, eu]
    have hy0 : 2 * (i.height / 2) < i.height := by omega
    have hc0 : i.height / 2 < ceil2 i.height := by omega
    rw [show chunk i.yStride (fillRows i.yStride i.width Fy (2 * (i.height / 2)) i.y)
        (2 * (i.height / 2)) = chunk i.yStride i.y (2 * (i.height / 2)) from
        chunk_fillRows (by omega) (Nat.le_refl _),
      show chunk i.uStride (fillRows i.uStride (ceil2 i.width) Fu (i.height / 2) i.u)
        (i.height / 2) = chunk i.uStride i.u (i.height / 2) from
        chunk_fillRows (by omega) (Nat.le_refl _),
      show chunk i.vStride (fillRows i.vStride (ceil2 i.width) Fv (i.height / 2) i.v)
        (i.height / 2) = chunk i.vStride i.v (i.height / 2) from
        chunk_fillRows (by omega) (Nat.le_refl _)]
    have cy := chunk_length (fullRows_row hyr hy0)
    have cu := chunk_length (fullRows_row hur hc0)
    have cv := chunk_length (fullRows_row hvr hc0)
    obtain ⟨fy, fu, fv, e1, g1, g2, g3⟩ := lane420_even hT rg m hg hb hL hw hy0
      (r1 := 2 * (i.height / 2)) (by omega) (y := chunk i.yStride i.y (2 * (i.height / 2)))
      (u := chunk i.uStride i.u (i.height / 2)) (v := chunk i.vStride i.v (i.height / 2))
      (by omega) (by omega) (by omega)
    rw [e1]
    simp only [Outcome.bind_ok, Outcome.pure_eq]
    rw [setChunk_fillRows_new (by omega) hyw (fullRows_row hyr hy0),
      setChunk_fillRows_new (by omega) huw (fullRows_row hur hc0),
      setChunk_fillRows_new (by omega) hvw (fullRows_row hvr hc0),
      show 2 * (i.height / 2) + 1 = i.height by omega,
      show i.height / 2 + 1 = ceil2 i.height by omega]
    refine ⟨_, _, _, rfl, ?_, ?_, ?_⟩
    · refine fillRows_spec (by omega) hyw hyr.1 fun r hr x hx => ?_
      by_cases hl : r = 2 * (i.height / 2)
      · rw [if_pos hl, hl]; exact g1 x hx
      rw [if_neg hl]
      obtain ⟨a1, a2, -, -⟩ := hF (r / 2) (by omega)
      rcases Nat.mod_two_eq_zero_or_one r with he | ho
      · rw [show 2 * (r / 2) = r by omega] at a1
        exact a1 x hx
      · rw [show 2 * (r / 2) + 1 = r by omega] at a2
        exact a2 x hx
    · refine fillRows_spec (by omega) huw hur.1 fun r hr x hx => ?_
      by_cases hl : r = i.height / 2
      · rw [if_pos hl, hl]; exact g2 x hx
      rw [if_neg hl]
      exact (hF r (by omega)).2.2.1 x hx
    · refine fillRows_spec (by omega) hvw hvr.1 fun r hr x hx => ?_
      by_cases hl : r = i.height / 2
      · rw [if_pos hl, hl]; exact g3 x hx
      rw [if_neg hl]
      exact (hF r (by omega)).2.2.2 x hx

end

end Verif
