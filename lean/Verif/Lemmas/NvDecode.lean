import Verif.Lemmas.Decode
import Verif.Lemmas.Remainder
import Verif.Lemmas.Good
/-! # The loops of the semi-planar decoders -/
namespace Verif
open Spec

theorem uPos_lt (o : NVOrder) : o.uPos < 2 := by cases o <;> decide
theorem vPos_lt (o : NVOrder) : o.vPos < 2 := by cases o <;> decide

theorem pair_idx {uv : Buf} {j k : Nat} (hk : k < 2) (h : 2 * j + 2 ≤ uv.length) :
    idx (chunk 2 uv j) k = .ok (uv.getD (2 * j + k) 0) := by
  have hc : (chunk 2 uv j).length = 2 := chunk_length (by omega)
  rw [idx_ok (by omega), chunk_getD hk, Nat.mul_comm]

/-! ## Handlers and what they leave to the scalar code -/

/-- As `RowHandler.Fills`. -/
def RowHandlerNV.Fills (f : RowHandlerNV) (g : Bool) (B cn w hd pu pv : Nat)
    (px : Nat → Nat → Nat → Buf) (Q : Nat → Nat → Nat → Nat → Buf → Prop) : Prop :=
  ∀ y uv row : Buf, (∀ s ∈ y, s < B) → (∀ s ∈ uv, s < B) →
    w ≤ y.length → 2 * ((w - 1) / hd + 1) ≤ uv.length → w * cn ≤ row.length →
    ∃ row' cx, f y uv row = .ok (row', cx) ∧
      RowDone cn w hd
        (fun x p => Q x (y.getD x 0) (uv.getD (2 * (x / hd) + pu) 0)
          (uv.getD (2 * (x / hd) + pv) 0) p) row row' cx ∧
      ∀ x, ScalarCol g cx w x → x < w → Q x (y.getD x 0) (uv.getD (2 * (x / hd) + pu) 0)
        (uv.getD (2 * (x / hd) + pv) 0) (px (y.getD x 0) (uv.getD (2 * (x / hd) + pu) 0)
          (uv.getD (2 * (x / hd) + pv) 0))

theorem RowHandlerNV.Fills.guarded {f : RowHandlerNV} {g : Bool} {B cn w hd pu pv : Nat}
    {px : Nat → Nat → Nat → Buf} {Q : Nat → Nat → Nat → Nat → Buf → Prop}
    (h : f.Fills g B cn w hd pu pv px Q) : f.Fills true B cn w hd pu pv px Q := by
  intro y uv row hy hu ly lu hw
  obtain ⟨row', cx, e, d, q⟩ := h y uv row hy hu ly lu hw
  exact ⟨row', cx, e, d, fun x hx => q x hx.mono⟩

/-- The same for a pair of rows. -/
def RowHandlerNV420.Fills (f : RowHandlerNV420) (B cn w pu pv : Nat)
    (px : Nat → Nat → Nat → Buf) (Q : Nat → Nat → Nat → Nat → Buf → Prop) : Prop :=
  ∀ y0 y1 uv row0 row1 : Buf,
    (∀ s ∈ y0, s < B) → (∀ s ∈ y1, s < B) → (∀ s ∈ uv, s < B) →
    w ≤ y0.length → w ≤ y1.length → 2 * ((w - 1) / 2 + 1) ≤ uv.length →
    w * cn ≤ row0.length → w * cn ≤ row1.length →
    ∃ row0' row1' cx, f y0 y1 uv row0 row1 = .ok (row0', row1', cx) ∧
      RowDone cn w 2
        (fun x p => Q x (y0.getD x 0) (uv.getD (2 * (x / 2) + pu) 0)
          (uv.getD (2 * (x / 2) + pv) 0) p) row0 row0' cx ∧
      RowDone cn w 2
        (fun x p => Q x (y1.getD x 0) (uv.getD (2 * (x / 2) + pu) 0)
          (uv.getD (2 * (x / 2) + pv) 0) p) row1 row1' cx ∧
      ∀ y : Buf, y = y0 ∨ y = y1 → ∀ x, cx ≤ x → x < w →
        Q x (y.getD x 0) (uv.getD (2 * (x / 2) + pu) 0) (uv.getD (2 * (x / 2) + pv) 0)
          (px (y.getD x 0) (uv.getD (2 * (x / 2) + pu) 0) (uv.getD (2 * (x / 2) + pv) 0))

theorem RowHandlerNV.Ok.fills {f : RowHandlerNV} {B cn w hd pu pv : Nat}
    {R : Nat → Nat → Nat → Buf → Prop} (h : f.Ok B cn w hd pu pv R) (g : Bool)
    (px : Nat → Nat → Nat → Buf) :
    f.Fills g B cn w hd pu pv px (fun _ y u v p => p = px y u v ∨ R y u v p) := by
  intro y uv row hy hu ly lu lr
  obtain ⟨row', cx, e, hd⟩ := h y uv row hy hu ly lu lr
  exact ⟨row', cx, e, rowDone_imp hd fun _ _ _ => Or.inr, fun _ _ _ => Or.inl rfl⟩

theorem RowHandlerNV420.Ok.fills {f : RowHandlerNV420} {B cn w pu pv : Nat}
    {R : Nat → Nat → Nat → Buf → Prop} (h : f.Ok B cn w pu pv R) (px : Nat → Nat → Nat → Buf) :
    f.Fills B cn w pu pv px (fun _ y u v p => p = px y u v ∨ R y u v p) := by
  intro y0 y1 uv row0 row1 hy0 hy1 hu ly0 ly1 lu lr0 lr1
  obtain ⟨row0', row1', cx, e, d0, d1⟩ := h y0 y1 uv row0 row1 hy0 hy1 hu ly0 ly1 lu lr0 lr1
  exact ⟨row0', row1', cx, e, rowDone_imp d0 fun _ _ _ => Or.inr, rowDone_imp d1 fun _ _ _ => Or.inr,
    fun _ _ _ _ _ => Or.inl rfl⟩

section
variable {guard : Bool} {B w cn : Nat} {o : NVOrder} {put : Nat → Nat → Nat → Buf → Outcome Buf}
  {px : Nat → Nat → Nat → Buf}

theorem nvPair_ok (hput : PutOk B cn put px) {y uv c : Buf} {e j : Nat}
    (by' : ∀ s ∈ y, s < B) (bu : ∀ s ∈ uv, s < B) (hy : 2 * j + e < y.length)
    (hu : 2 * j + 2 ≤ uv.length) (hc : c.length = cn) :
    nvPair o put y uv e j c
      = .ok (px (y.getD (2 * j + e) 0) (uv.getD (2 * j + o.uPos) 0) (uv.getD (2 * j + o.vPos) 0)) := by
  have := uPos_lt o
  have := vPos_lt o
  unfold nvPair
  rw [idx_ok hy, pair_idx (uPos_lt o) hu, pair_idx (vPos_lt o) hu]
  simp only [Outcome.bind_ok]
  exact hput.ok _ _ _ _ (bnd_getD by' hy) (bnd_getD bu (by omega)) (bnd_getD bu (by omega)) hc

theorem nvTail_ok (hput : PutOk B cn put px) {y uv c : Buf}
    (by' : ∀ s ∈ y, s < B) (bu : ∀ s ∈ uv, s < B) (hy : y.length = w)
    (hu : uv.length = ceil2 w * 2) (hw : w % 2 = 1) (hc : c.length = cn) :
    nvTail o put y uv c
      = .ok (px (y.getD (w - 1) 0) (uv.getD (2 * ((w - 1) / 2) + o.uPos) 0)
          (uv.getD (2 * ((w - 1) / 2) + o.vPos) 0)) := by
  have := uPos_lt o
  have := vPos_lt o
  have hcl : ceil2 w = (w + 1) / 2 := rfl
  unfold nvTail
  rw [remainder2_idx hy hw, lastChunk_ok (by omega) (by omega), hu,
    show ceil2 w * 2 / 2 - 1 = (w - 1) / 2 by omega]
  simp only [Outcome.bind_ok]
  rw [pair_idx (uPos_lt o) (by omega), pair_idx (vPos_lt o) (by omega)]
  simp only [Outcome.bind_ok]
  exact hput.ok _ _ _ _ (bnd_getD by' (by omega)) (bnd_getD bu (by omega))
    (bnd_getD bu (by omega)) hc

/-- The pixel pairs of one row after the vector prefix. -/
theorem nvRow_rel (hcn : 0 < cn) (hw : 0 < w) (hput : PutOk B cn put px)
    {Q : Nat → Nat → Nat → Nat → Buf → Prop} {y uv row : Buf} {vp : Nat → Buf} {cx k : Nat}
    (ly : y.length = w) (lu : uv.length = ceil2 w * 2)
    (by' : ∀ s ∈ y, s < B) (bu : ∀ s ∈ uv, s < B) (lr : row.length = w * cn)
    (v1 : ∀ x, (vp x).length = cn)
    (v2 : ∀ x, x < cx → Q x (y.getD x 0) (uv.getD (2 * (x / 2) + o.uPos) 0)
      (uv.getD (2 * (x / 2) + o.vPos) 0) (vp x))
    (vq : ∀ x, ScalarCol guard cx w x → x < w → Q x (y.getD x 0)
      (uv.getD (2 * (x / 2) + o.uPos) 0) (uv.getD (2 * (x / 2) + o.vPos) 0)
      (px (y.getD x 0) (uv.getD (2 * (x / 2) + o.uPos) 0) (uv.getD (2 * (x / 2) + o.vPos) 0)))
    (v3 : cx ≤ w) (v4 : cx % 2 = 0 ∨ cx = w) (hk : k = w / 2) :
    RowOk cn w (fun x p => Q x (y.getD x 0) (uv.getD (2 * (x / 2) + o.uPos) 0) (uv.getD (2 * (x / 2) + o.vPos) 0) p) row
      (rowPairsRem guard w cn cx k (nvPair o put y uv 0) (nvPair o put y uv 1) (nvTail o put y uv)
        (paintRow cn cx vp row)) := by
  have lc : ceil2 w = (w + 1) / 2 := rfl
  refine rowPairsRem_rel hcn (px := fun x => px (y.getD x 0) (uv.getD (2 * (x / 2) + o.uPos) 0)
      (uv.getD (2 * (x / 2) + o.vPos) 0))
    lr v1 v2 v3 v4 hk
    (fun x => hput.len ..) vq ?_ ?_ ?_
  · intro j c hj hc
    rw [nvPair_ok hput by' bu (by omega) (by omega) hc, Nat.add_zero,
      show 2 * (2 * j / 2) = 2 * j by omega]
  · intro j c hj hc
    rw [nvPair_ok hput by' bu (by omega) (by omega) hc, show 2 * ((2 * j + 1) / 2) = 2 * j by omega]
  · intro c hodd hc
    exact nvTail_ok hput by' bu ly lu hodd hc

theorem nvHalvedRow_rel (hcn : 0 < cn) (hw : 0 < w) (hput : PutOk B cn put px)
    {Q : Nat → Nat → Nat → Nat → Buf → Prop} {hd : RowHandlerNV}
    (hhd : hd.Fills guard B cn w 2 o.uPos o.vPos px Q) {y uv row : Buf} (ly : y.length = w)
    (lu : uv.length = ceil2 w * 2) (by' : ∀ s ∈ y, s < B) (bu : ∀ s ∈ uv, s < B)
    (lr : row.length = w * cn) :
    RowOk cn w (fun x p => Q x (y.getD x 0) (uv.getD (2 * (x / 2) + o.uPos) 0) (uv.getD (2 * (x / 2) + o.vPos) 0) p) row
      (nvHalvedRow guard w cn o put hd y uv row) := by
  have lc : ceil2 w = (w + 1) / 2 := rfl
  obtain ⟨row', cx, e, hdone, hpq⟩ := hhd y uv row by' bu (by omega) (by omega) (by omega)
  obtain ⟨vp, v1, v2, v3, v4, v5⟩ := rowDone_paint hcn (by omega) hdone
  unfold nvHalvedRow
  rw [e, Outcome.bind_ok]
  simp only
  have hlr : row'.length = w * cn := by
    rw [v5, paintRow_length v1 (by rw [lr]; exact Nat.mul_le_mul_right _ v3), lr]
  have hk : row'.length / (2 * cn) = w / 2 := by
    rw [hlr, Nat.mul_comm 2 cn, ← Nat.div_div_eq_div_mul, Nat.mul_div_cancel _ hcn]
  have hk2 : min3 (row'.length / (2 * cn)) (y.length / 2) (uv.length / 2) = w / 2 := by
    rw [hk, ly, lu]; unfold min3 ceil2; omega
  rw [hk2, v5]
  exact nvRow_rel hcn hw hput ly lu by' bu lr v1 v2 hpq v3 v4 rfl

theorem nvDoubledRow_rel (hcn : 0 < cn) (hw : 0 < w) (hput : PutOk B cn put px)
    {Q : Nat → Nat → Nat → Nat → Buf → Prop} {hd : RowHandlerNV420}
    (hhd : hd.Fills B cn w o.uPos o.vPos px Q) {y0 y1 uv row0 row1 : Buf} (ly0 : y0.length = w)
    (ly1 : y1.length = w) (lu : uv.length = ceil2 w * 2)
    (by0 : ∀ s ∈ y0, s < B) (by1 : ∀ s ∈ y1, s < B) (bu : ∀ s ∈ uv, s < B)
    (lr0 : row0.length = w * cn) (lr1 : row1.length = w * cn) :
    ∃ p0 p1 : Nat → Buf, (∀ x, (p0 x).length = cn) ∧ (∀ x, (p1 x).length = cn) ∧
      (∀ x, x < w → Q x (y0.getD x 0) (uv.getD (2 * (x / 2) + o.uPos) 0) (uv.getD (2 * (x / 2) + o.vPos) 0)
          (p0 x)) ∧
      (∀ x, x < w → Q x (y1.getD x 0) (uv.getD (2 * (x / 2) + o.uPos) 0) (uv.getD (2 * (x / 2) + o.vPos) 0)
          (p1 x)) ∧
      nvDoubledRow w cn o put hd y0 y1 uv row0 row1
        = .ok (paintRow cn w p0 row0, paintRow cn w p1 row1) := by
  have lc : ceil2 w = (w + 1) / 2 := rfl
  obtain ⟨row0', row1', cx, e, hdone0, hdone1, hpq⟩ := hhd y0 y1 uv row0 row1 by0 by1 bu
    (by omega) (by omega) (by omega) (by omega) (by omega)
  obtain ⟨vp0, v1, v2, v3, v4, v5⟩ := rowDone_paint hcn (by omega) hdone0
  obtain ⟨vp1, t1, t2, _, _, t5⟩ := rowDone_paint hcn (by omega) hdone1
  have hlr0 : row0'.length = w * cn := by
    rw [v5, paintRow_length v1 (by rw [lr0]; exact Nat.mul_le_mul_right _ v3), lr0]
  have hlr1 : row1'.length = w * cn := by
    rw [t5, paintRow_length t1 (by rw [lr1]; exact Nat.mul_le_mul_right _ v3), lr1]
  have hk : w * cn / (2 * cn) = w / 2 := by
    rw [Nat.mul_comm 2 cn, ← Nat.div_div_eq_div_mul, Nat.mul_div_cancel _ hcn]
  have hk2 : min3 (min (row0'.length / (2 * cn)) (row1'.length / (2 * cn)))
      (min (y0.length / 2) (y1.length / 2)) (uv.length / 2) = w / 2 := by
    rw [hlr0, hlr1, hk, ly0, ly1, lu]; unfold min3 ceil2; omega
  unfold nvDoubledRow
  rw [e, Outcome.bind_ok]
  simp only
  rw [hk2, v5, t5]
  obtain ⟨p0, a1, a2, a3⟩ := nvRow_rel hcn hw hput (Q := Q) ly0 lu by0 bu lr0 v1 v2
    (fun x hx => hpq y0 (.inl rfl) x hx.le) v3 v4 rfl
  obtain ⟨p1, b1, b2, b3⟩ := nvRow_rel hcn hw hput (Q := Q) ly1 lu by1 bu lr1 t1 t2
    (fun x hx => hpq y1 (.inr rfl) x hx.le) v3 v4 rfl
  refine ⟨p0, p1, a1, b1, a2, b2, ?_⟩
  rw [a3, Outcome.bind_ok, b3, Outcome.bind_ok]; rfl

end

/-! ## Frames -/

/-- Everything the semi-planar loops rely on besides the pixel arithmetic. -/
structure BiRows (i : BiPlanar) (s : Sampling) (B : Nat) : Prop where
  wpos : 0 < i.width
  hpos : 0 < i.height
  yw : i.width ≤ i.yStride
  uw : s.chromaWidth i.width * 2 ≤ i.uvStride
  yr : FullRows i.y.length i.yStride i.height
  ur : FullRows i.uv.length i.uvStride (s.chromaHeight i.height)
  yb : ∀ a ∈ i.y, a < B
  ub : ∀ a ∈ i.uv, a < B

/-- Pixel relation of a frame. -/
def NvRel (i : BiPlanar) (s : Sampling) (o : NVOrder) (px : Nat → Nat → Nat → Buf)
    (R : Nat → Nat → Nat → Buf → Prop) (x y : Nat) (p : Buf) : Prop :=
  p = px (at' i.y i.yStride x y) (at' i.uv i.uvStride (2 * (x / hdiv s) + o.uPos) (y / vdiv s))
      (at' i.uv i.uvStride (2 * (x / hdiv s) + o.vPos) (y / vdiv s)) ∨
  R (at' i.y i.yStride x y) (at' i.uv i.uvStride (2 * (x / hdiv s) + o.uPos) (y / vdiv s))
      (at' i.uv i.uvStride (2 * (x / hdiv s) + o.vPos) (y / vdiv s)) p

/-- Pixel relation of a frame whose rows are related by `Q`. -/
def NvQ (i : BiPlanar) (s : Sampling) (o : NVOrder) (Q : Nat → Nat → Nat → Nat → Buf → Prop)
    (x y : Nat) (p : Buf) : Prop :=
  Q x (at' i.y i.yStride x y) (at' i.uv i.uvStride (2 * (x / hdiv s) + o.uPos) (y / vdiv s))
    (at' i.uv i.uvStride (2 * (x / hdiv s) + o.vPos) (y / vdiv s)) p

section
variable {guard : Bool} {B cn stride : Nat} {o : NVOrder} {put put2 : Nat → Nat → Nat → Buf → Outcome Buf}
  {px : Nat → Nat → Nat → Buf} {i : BiPlanar} {s : Sampling} {Q Q2 : Nat → Nat → Nat → Nat → Buf → Prop}
  {hd : RowHandlerNV} {hd2 : RowHandlerNV420}

/-- A halved row on the sliced source rows `r` and `rc`. -/
theorem nvHalved_sliced (hs : hdiv s = 2)
    (hp : BiRows i s B) (hcn : 0 < cn) (hput : PutOk B cn put px)
    (hhd : hd.Fills guard B cn i.width 2 o.uPos o.vPos px Q) {r rc : Nat}
    (hr : r < i.height) (hrc : rc = r / vdiv s) {row : Buf} (hrow : row.length = i.width * cn) :
    RowOk cn i.width (fun x p => NvQ i s o Q x r p) row
      (nvHalvedRow guard i.width cn o put hd ((chunk i.yStride i.y r).take i.width)
        ((chunk i.uvStride i.uv rc).take (ceil2 i.width * 2)) row) := by
  have hcw : s.chromaWidth i.width = ceil2 i.width := by
    cases s <;> simp_all [hdiv, Sampling.chromaWidth]
  have hrc' : rc < s.chromaHeight i.height := by rw [hrc]; exact div_vdiv_lt hr
  have cy := chunk_length (fullRows_row hp.yr hr)
  have cu := chunk_length (fullRows_row hp.ur hrc')
  have hyw := hp.yw
  have huw := hp.uw
  rw [hcw] at huw
  have hwp := hp.wpos
  refine RowOk.mono (nvHalvedRow_rel hcn hwp hput hhd
    (by rw [List.length_take]; omega) (by rw [List.length_take]; omega)
    (bnd_take (bnd_chunk hp.yb)) (bnd_take (bnd_chunk hp.ub)) hrow) ?_
  intro x p hx
  have := uPos_lt o
  have := vPos_lt o
  have hx2 : 2 * (x / 2) + o.uPos < ceil2 i.width * 2 := by unfold ceil2; omega
  have hx3 : 2 * (x / 2) + o.vPos < ceil2 i.width * 2 := by unfold ceil2; omega
  rw [row_getD hx hyw, row_getD hx2 huw, row_getD hx3 huw]
  unfold NvQ
  rw [hs, ← hrc]
  exact id

theorem nvHalvedSlice_q (hs : hdiv s = 2)
    (hp : BiRows i s B) (hcn : 0 < cn) (hput : PutOk B cn put px)
    (hhd : hd.Fills guard B cn i.width 2 o.uPos o.vPos px Q) (hw : i.width * cn ≤ stride) {r rc : Nat}
    (hr : r < i.height) (hrc : rc = r / vdiv s) {row : Buf} (hrow : row.length = stride) :
    RowOk cn i.width (fun x p => NvQ i s o Q x r p) row
      (nvHalvedSlice guard i.width cn o put hd (chunk i.yStride i.y r) (chunk i.uvStride i.uv rc) row) := by
  have hcw : s.chromaWidth i.width = ceil2 i.width := by
    cases s <;> simp_all [hdiv, Sampling.chromaWidth]
  have hrc' : rc < s.chromaHeight i.height := by rw [hrc]; exact div_vdiv_lt hr
  have cy := chunk_length (fullRows_row hp.yr hr)
  have cu := chunk_length (fullRows_row hp.ur hrc')
  have hyw := hp.yw
  have huw := hp.uw
  rw [hcw] at huw
  unfold nvHalvedSlice
  rw [slice_take (by omega), slice_take (by omega)]
  simp only [Outcome.bind_ok]
  apply rowOk_prefix (by omega)
  exact nvHalved_sliced hs hp hcn hput hhd hr hrc (by rw [List.length_take]; omega)

theorem nvDecode422_q {rgba : Buf} (hp : BiRows i .yuv422 B) (hcn : 0 < cn)
    (hput : PutOk B cn put px)
    (hhd : hd.Fills guard B cn i.width 2 o.uPos o.vPos px Q) (hw : i.width * cn ≤ stride)
    (hd' : FullRows rgba.length stride i.height) :
    FrameOk stride i.height cn i.width (NvQ i .yuv422 o Q) rgba
      (nvDecode422 guard cn o put hd i rgba stride) := by
  have hst : 0 < stride := Nat.lt_of_lt_of_le (Nat.mul_pos hp.wpos hcn) hw
  unfold nvDecode422
  have hk : min3 (rgba.length / stride) (i.y.length / i.yStride) (i.uv.length / i.uvStride)
      = i.height := by
    rw [fullRows_div hd', fullRows_div hp.yr, fullRows_div hp.ur]
    simp [min3, Sampling.chromaHeight]
  rw [hk]
  refine eachChunk_rows hst hw (by omega) (by rw [Nat.mul_comm]; exact hd'.1) ?_
  intro r c _ hr hc
  exact nvHalvedSlice_q rfl hp hcn hput hhd hw hr (by simp [vdiv]) hc

theorem nvDecode444_q {rgba : Buf} (hp : BiRows i .yuv444 B) (hcn : 0 < cn)
    (hput : PutOk B cn put px)
    (hhd : hd.Fills true B cn i.width 1 o.uPos o.vPos px Q) (hw : i.width * cn ≤ stride)
    (hd' : FullRows rgba.length stride i.height) :
    FrameOk stride i.height cn i.width (NvQ i .yuv444 o Q) rgba
      (nvDecode444 guard cn o put hd i rgba stride) := by
  have hst : 0 < stride := Nat.lt_of_lt_of_le (Nat.mul_pos hp.wpos hcn) hw
  unfold nvDecode444
  have hk : min3 (rgba.length / stride) (i.y.length / i.yStride) (i.uv.length / i.uvStride)
      = i.height := by
    rw [fullRows_div hd', fullRows_div hp.yr, fullRows_div hp.ur]
    simp [min3, Sampling.chromaHeight]
  rw [hk]
  refine eachChunk_rows hst hw (by omega) (by rw [Nat.mul_comm]; exact hd'.1) ?_
  intro r row _ hr hrow
  have cy := chunk_length (fullRows_row hp.yr hr)
  have cu := chunk_length (fullRows_row hp.ur hr)
  have hyw := hp.yw
  have huw := hp.uw
  simp only [Sampling.chromaWidth] at huw
  have hwp := hp.wpos
  have hu1 := uPos_lt o
  have hv1 := vPos_lt o
  rw [slice_take (by omega)]
  simp only [Outcome.bind_ok]
  have ly : ((chunk i.yStride i.y r).take i.width).length = i.width := by
    rw [List.length_take]; omega
  have bY := bnd_take (n := i.width) (bnd_chunk (n := i.yStride) (k := r) hp.yb)
  have bU := bnd_chunk (n := i.uvStride) (k := r) hp.ub
  obtain ⟨row', cx, e, hdone, hpq⟩ := hhd ((chunk i.yStride i.y r).take i.width)
    (chunk i.uvStride i.uv r) row bY bU (by omega) (by rw [cu]; omega) (by omega)
  obtain ⟨vp, v1, v2, v3, v4, v5⟩ := rowDone_paint hcn (by omega) hdone
  rw [e, Outcome.bind_ok]
  simp only
  have hlr : row'.length = stride := by
    rw [v5, paintRow_length v1 (by rw [hrow]; exact Nat.le_trans (Nat.mul_le_mul_right _ v3) hw),
      hrow]
  have hk1 : i.width ≤ row'.length / cn := by
    rw [hlr]; exact (Nat.le_div_iff_mul_le hcn).2 hw
  have hk2 : min3 (row'.length / cn) ((chunk i.yStride i.y r).take i.width).length
      ((chunk i.uvStride i.uv r).length / 2) = i.width := by
    rw [ly, cu]; unfold min3; omega
  rw [hk2, v5]
  have key : ∀ x, x < i.width →
      ((chunk i.yStride i.y r).take i.width).getD x 0 = at' i.y i.yStride x r ∧
      (chunk i.uvStride i.uv r).getD (2 * x + o.uPos) 0 = at' i.uv i.uvStride (2 * x + o.uPos) r ∧
      (chunk i.uvStride i.uv r).getD (2 * x + o.vPos) 0 = at' i.uv i.uvStride (2 * x + o.vPos) r := by
    intro x hx
    refine ⟨row_getD hx hyw, ?_, ?_⟩
    · rw [chunk_getD (by omega)]; rfl
    · rw [chunk_getD (by omega)]; rfl
  refine rowSingles_rel hcn (px := fun x => px (at' i.y i.yStride x r)
      (at' i.uv i.uvStride (2 * x + o.uPos) r)
      (at' i.uv i.uvStride (2 * x + o.vPos) r)) (by omega) v1 ?_ v3 rfl (fun x => hput.len ..) ?_ ?_
  · intro x hx
    have := v2 x hx
    obtain ⟨k1, k2, k3⟩ := key x (by omega)
    simp only [Nat.div_one] at this
    rw [k1, k2, k3] at this
    simpa [NvQ, hdiv, vdiv] using this
  · intro x hcx hx
    have := hpq x (.inl hcx) hx
    obtain ⟨k1, k2, k3⟩ := key x hx
    simp only [Nat.div_one] at this
    rw [k1, k2, k3] at this
    simpa [NvQ, hdiv, vdiv] using this
  · intro x c hx hc
    obtain ⟨k1, k2, k3⟩ := key x hx
    rw [idx_ok (by omega), pair_idx hu1 (by omega), pair_idx hv1 (by omega)]
    simp only [Outcome.bind_ok]
    rw [hput.ok _ _ _ _ (bnd_getD bY (by omega)) (bnd_getD bU (by omega))
      (bnd_getD bU (by omega)) hc, k1, k2, k3]

theorem nvDecode420_q {rgba : Buf} (hp : BiRows i .yuv420 B) (hcn : 0 < cn)
    (hput : PutOk B cn put px) (hput2 : PutOk B cn put2 px)
    (hhd : hd.Fills true B cn i.width 2 o.uPos o.vPos px Q) (hhd2 : hd2.Fills B cn i.width o.uPos o.vPos px Q2)
    (hw : i.width * cn ≤ stride) (hd' : FullRows rgba.length stride i.height) :
    FrameOk stride i.height cn i.width (fun x y => NvQ i .yuv420 o (if y = 2 * (i.height / 2) then Q else Q2) x y)
      rgba
      (nvDecode420 cn o put put2 hd hd2 i rgba stride) := by
  have hst : 0 < stride := Nat.lt_of_lt_of_le (Nat.mul_pos hp.wpos hcn) hw
  have hyw := hp.yw
  have huw := hp.uw
  simp only [Sampling.chromaWidth] at huw
  have hwp := hp.wpos
  have hhp := hp.hpos
  unfold nvDecode420
  have hk : min3 (rgba.length / (stride * 2)) (i.y.length / (i.yStride * 2))
      (i.uv.length / i.uvStride) = i.height / 2 := by
    rw [fullRows_div2 hd', fullRows_div2 hp.yr, fullRows_div hp.ur]
    simp only [min3, Sampling.chromaHeight, ceil2]; omega
  have hcp := chromaHeight_pos (s := .yuv420) hhp
  have hcw : 0 < ceil2 i.width := ceil2_pos hwp
  have hcl : ceil2 i.width = (i.width + 1) / 2 := rfl
  rw [hk, Nat.mul_comm stride 2, lastChunk_rows (by omega) hcp hp.ur]
  simp only [Outcome.bind_ok]
  have hlast : i.height % 2 = 1 → ∀ d : Buf,
      onRemainder (2 * stride) (nvHalvedSlice true i.width cn o put hd
        (remainder (i.yStride * 2) i.y)
        (chunk i.uvStride i.uv (Sampling.yuv420.chromaHeight i.height - 1))) d
      = onRemainder (2 * stride) (fun r => onPrefix r (i.width * cn)
          (nvHalvedRow true i.width cn o put hd ((chunk i.yStride i.y (i.height - 1)).take i.width)
        ((chunk i.uvStride i.uv (Sampling.yuv420.chromaHeight i.height - 1)).take
          (ceil2 i.width * 2)))) d := by
    intro hodd d
    congr 1
    funext r
    obtain ⟨q1, q2⟩ := remainder_take hp.yr hodd hyw
    have cu := chunk_length (fullRows_row hp.ur
      (show Sampling.yuv420.chromaHeight i.height - 1 < _ by omega))
    unfold nvHalvedSlice
    rw [slice_take q1, q2, slice_take (by omega)]
    rfl
  have hbody : (fun d => if i.height % 2 = 0 then pure d else
      onRemainder (2 * stride) (nvHalvedSlice true i.width cn o put hd
        (remainder (i.yStride * 2) i.y)
        (chunk i.uvStride i.uv (Sampling.yuv420.chromaHeight i.height - 1))) d)
      = (fun d => if i.height % 2 = 0 then (pure d : Outcome Buf) else
        onRemainder (2 * stride) (fun r => onPrefix r (i.width * cn)
          (nvHalvedRow true i.width cn o put hd ((chunk i.yStride i.y (i.height - 1)).take i.width)
        ((chunk i.uvStride i.uv (Sampling.yuv420.chromaHeight i.height - 1)).take
          (ceil2 i.width * 2)))) d) := by
    funext d
    split
    · rfl
    · exact hlast (by omega) d
  rw [hbody]
  refine frame420_rem hst hw hd' ?_ ?_
  · intro r rows hr hrows
    have hrc : r < (Sampling.yuv420).chromaHeight i.height := by
      simp only [Sampling.chromaHeight, ceil2]; omega
    have cy0 := chunk_length (fullRows_row hp.yr (show 2 * r < i.height by omega))
    have cy1 := chunk_length (fullRows_row hp.yr (show 2 * r + 1 < i.height by omega))
    have cu := chunk_length (fullRows_row hp.ur hrc)
    rw [chunk2_take, chunk2_drop, slice_take (by omega), slice_take (by omega),
      slice_take (by omega),
      slice_take (by rw [List.length_take]; omega), slice_take (by rw [List.length_drop]; omega)]
    simp only [Outcome.bind_ok]
    obtain ⟨p0, p1, a1, b1, a2, b2, e⟩ := nvDoubledRow_rel hcn hwp hput2 hhd2
      (y0 := (chunk i.yStride i.y (2 * r)).take i.width)
      (y1 := (chunk i.yStride i.y (2 * r + 1)).take i.width)
      (uv := (chunk i.uvStride i.uv r).take (ceil2 i.width * 2))
      (row0 := (rows.take stride).take (i.width * cn))
      (row1 := (rows.drop stride).take (i.width * cn))
      (by rw [List.length_take]; omega) (by rw [List.length_take]; omega)
      (by rw [List.length_take]; omega)
      (bnd_take (bnd_chunk hp.yb)) (bnd_take (bnd_chunk hp.yb)) (bnd_take (bnd_chunk hp.ub))
      (by rw [List.length_take, List.length_take]; omega)
      (by rw [List.length_take, List.length_drop]; omega)
    rw [e]
    simp only [Outcome.bind_ok, Outcome.pure_eq]
    have hu1 := uPos_lt o
    have hv1 := vPos_lt o
    refine ⟨p0, p1, a1, b1, ?_, ?_, ?_⟩
    · intro x hx
      have := a2 x hx
      have hx2 : 2 * (x / 2) + o.uPos < ceil2 i.width * 2 := by omega
      have hx3 : 2 * (x / 2) + o.vPos < ceil2 i.width * 2 := by omega
      rw [row_getD hx hyw, row_getD hx2 huw, row_getD hx3 huw] at this
      rw [if_neg (by omega)]
      simp only [NvQ, hdiv, vdiv, show 2 * r / 2 = r by omega]
      exact this
    · intro x hx
      have := b2 x hx
      have hx2 : 2 * (x / 2) + o.uPos < ceil2 i.width * 2 := by omega
      have hx3 : 2 * (x / 2) + o.vPos < ceil2 i.width * 2 := by omega
      rw [row_getD hx hyw, row_getD hx2 huw, row_getD hx3 huw] at this
      rw [if_neg (by omega)]
      simp only [NvQ, hdiv, vdiv, show (2 * r + 1) / 2 = r by omega]
      exact this
    · unfold paintRow
      rw [mapChunks_take_append (by rw [List.length_take]; omega),
        mapChunks_take_append (by rw [List.length_drop]; omega)]
  · intro hodd c hc
    have e2 : ceil2 i.height - 1 = (i.height - 1) / 2 := by unfold ceil2; omega
    rw [if_pos (by omega)]
    exact nvHalved_sliced rfl hp hcn hput hhd (by omega)
      (by simp only [Sampling.chromaHeight, vdiv]; exact e2) hc

end

section
variable {guard : Bool} {B cn stride : Nat} {o : NVOrder} {put put2 : Nat → Nat → Nat → Buf → Outcome Buf}
  {px : Nat → Nat → Nat → Buf} {i : BiPlanar} {R : Nat → Nat → Nat → Buf → Prop}
  {hd : RowHandlerNV} {hd2 : RowHandlerNV420} {rgba : Buf}

theorem nvDecode422_rel (hp : BiRows i .yuv422 B) (hcn : 0 < cn) (hput : PutOk B cn put px)
    (hhd : hd.Ok B cn i.width 2 o.uPos o.vPos R) (hw : i.width * cn ≤ stride)
    (hd' : FullRows rgba.length stride i.height) :
    FrameOk stride i.height cn i.width (NvRel i .yuv422 o px R) rgba
      (nvDecode422 guard cn o put hd i rgba stride) :=
  nvDecode422_q hp hcn hput (hhd.fills guard px) hw hd'

theorem nvDecode444_rel (hp : BiRows i .yuv444 B) (hcn : 0 < cn) (hput : PutOk B cn put px)
    (hhd : hd.Ok B cn i.width 1 o.uPos o.vPos R) (hw : i.width * cn ≤ stride)
    (hd' : FullRows rgba.length stride i.height) :
    FrameOk stride i.height cn i.width (NvRel i .yuv444 o px R) rgba
      (nvDecode444 guard cn o put hd i rgba stride) :=
  nvDecode444_q hp hcn hput (hhd.fills true px) hw hd'

theorem nvDecode420_rel (hp : BiRows i .yuv420 B) (hcn : 0 < cn) (hput : PutOk B cn put px)
    (hput2 : PutOk B cn put2 px) (hhd : hd.Ok B cn i.width 2 o.uPos o.vPos R)
    (hhd2 : hd2.Ok B cn i.width o.uPos o.vPos R) (hw : i.width * cn ≤ stride)
    (hd' : FullRows rgba.length stride i.height) :
    FrameOk stride i.height cn i.width (NvRel i .yuv420 o px R) rgba
      (nvDecode420 cn o put put2 hd hd2 i rgba stride) := by
  have h := nvDecode420_q hp hcn hput hput2 (hhd.fills true px) (hhd2.fills px) hw hd'
  simp only [ite_self] at h
  exact h

end

/-! ## Good images -/

theorem Spec.GoodBiPlanar.rows {i : BiPlanar} {s : Sampling} {B : Nat} (h : GoodBiPlanar i s B) :
    BiRows i s B := by
  have e1 := cover_hdiv (s := s) h.wpos
  have e2 := cover_vdiv (s := s) h.hpos
  have hs := h.uvStride
  have hl := h.uvLen
  rw [e1] at hs; rw [e2] at hl
  have := chromaWidth_pos (s := s) h.wpos
  refine ⟨h.wpos, h.hpos, h.y.cols_le, by omega, h.y.full, ⟨by omega, ?_⟩, h.y.bound, h.uvBound⟩
  rw [hl, Nat.mul_succ]; omega

theorem Spec.GoodBiPlanar.accepted {i : BiPlanar} {s : Sampling} {B : Nat}
    (h : GoodBiPlanar i s B) : i.check x64 s = .ok () := by
  have e1 := cover_hdiv (s := s) h.wpos
  have e2 := cover_vdiv (s := s) h.hpos
  have hs := h.uvStride
  have hl := h.uvLen
  rw [e1] at hs; rw [e2] at hl
  have a := (checkY8_ok_iff (len := i.y.length) h.y.stride32 h.w32 h.h32).2
    ⟨h.wpos, h.hpos, h.y.cols_le, fullRows_need h.y.full h.hpos h.y.cols_le⟩
  have b := (checkInterleaved_ok_iff (len := i.uv.length) (stride := i.uvStride) (s := s)
    (w := i.width) (h := i.height) h.uvStride32
    (by rw [Nat.mul_comm, ← hs]; exact h.uvStride32) h.h32).2 ⟨h.wpos, h.hpos, by omega, hl⟩
  unfold BiPlanar.check
  rw [a, b]; rfl

theorem Spec.GoodBiPlanar.sample_lt {i : BiPlanar} {s : Sampling} {B : Nat}
    (h : GoodBiPlanar i s B) {x y : Nat} (hx : x < i.width) (hy : y < i.height) (o : NVOrder) :
    BiPlanar.Y i x y < B ∧ BiPlanar.U i s o x y < B ∧ BiPlanar.V i s o x y < B := by
  have hr := h.rows
  have cx := div_hdiv_lt (s := s) hx
  have cy := div_vdiv_lt (s := s) hy
  have key : ∀ k, k < 2 → BiPlanar.C i s k x y < B := by
    intro k hk
    have hw := hr.uw
    exact hr.ub _ (at'_mem (fullRows_index hr.ur (show 2 * (x / hdiv s) + k < i.uvStride by omega)
      (Nat.le_refl _) cy))
  cases o
  · exact ⟨h.y.at_lt hx hy, key 0 (by omega), key 1 (by omega)⟩
  · exact ⟨h.y.at_lt hx hy, key 1 (by omega), key 0 (by omega)⟩

end Verif
