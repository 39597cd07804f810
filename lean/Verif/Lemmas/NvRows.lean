import Verif.Lemmas.DeepDecode
/-! # Semi-planar decoders whose vector code mixes the chroma of several columns

As `RowHandlerNV.Fills` and the frame lemmas, with a relation that sees the whole chroma row. -/
namespace Verif
open Spec

/-- As `RowHandlerNV.Fills`; `fu` and `fv` give the chroma of each column. -/
def RowHandlerNV.FillsRow (f : RowHandlerNV) (g : Bool) (B cn w hd pu pv : Nat)
    (px : Nat → Nat → Nat → Buf) (Q : Nat → Nat → (Nat → Nat) → (Nat → Nat) → Buf → Prop) : Prop :=
  ∀ (y uv row : Buf) (fu fv : Nat → Nat), (∀ s ∈ y, s < B) → (∀ s ∈ uv, s < B) →
    w ≤ y.length → 2 * ((w - 1) / hd + 1) ≤ uv.length → w * cn ≤ row.length →
    (∀ x, x < w → fu x = uv.getD (2 * (x / hd) + pu) 0) →
    (∀ x, x < w → fv x = uv.getD (2 * (x / hd) + pv) 0) →
    ∃ row' cx, f y uv row = .ok (row', cx) ∧
      RowDone cn w hd (fun x p => Q x (y.getD x 0) fu fv p) row row' cx ∧
      ∀ x, ScalarCol g cx w x → x < w → Q x (y.getD x 0) fu fv (px (y.getD x 0) (fu x) (fv x))

theorem RowHandlerNV.FillsRow.guarded {f : RowHandlerNV} {g : Bool} {B cn w hd pu pv : Nat}
    {px : Nat → Nat → Nat → Buf} {Q : Nat → Nat → (Nat → Nat) → (Nat → Nat) → Buf → Prop}
    (h : f.FillsRow g B cn w hd pu pv px Q) : f.FillsRow true B cn w hd pu pv px Q := by
  intro y uv row fu fv hy hu ly lu hw h1 h2
  obtain ⟨row', cx, e, d, q⟩ := h y uv row fu fv hy hu ly lu hw h1 h2
  exact ⟨row', cx, e, d, fun x hx => q x hx.mono⟩

/-- Pixel relation of a frame whose rows are related by `Q`. -/
def NvRowQ (i : BiPlanar) (s : Sampling) (o : NVOrder)
    (Q : Nat → Nat → (Nat → Nat) → (Nat → Nat) → Buf → Prop) (x y : Nat) (p : Buf) : Prop :=
  Q x (at' i.y i.yStride x y)
    (fun x => at' i.uv i.uvStride (2 * (x / hdiv s) + o.uPos) (y / vdiv s))
    (fun x => at' i.uv i.uvStride (2 * (x / hdiv s) + o.vPos) (y / vdiv s)) p

section
variable {guard : Bool} {B w cn stride : Nat} {o : NVOrder}
  {put : Nat → Nat → Nat → Buf → Outcome Buf} {px : Nat → Nat → Nat → Buf} {i : BiPlanar}
  {s : Sampling} {Q : Nat → Nat → (Nat → Nat) → (Nat → Nat) → Buf → Prop} {hd : RowHandlerNV}

theorem nvHalvedRow_row (hcn : 0 < cn) (hw : 0 < w) (hput : PutOk B cn put px)
    (hhd : hd.FillsRow guard B cn w 2 o.uPos o.vPos px Q) {y uv row : Buf} (ly : y.length = w)
    (lu : uv.length = ceil2 w * 2) (by' : ∀ s ∈ y, s < B) (bu : ∀ s ∈ uv, s < B)
    (lr : row.length = w * cn) {fu fv : Nat → Nat}
    (hu : ∀ x, x < w → fu x = uv.getD (2 * (x / 2) + o.uPos) 0)
    (hv : ∀ x, x < w → fv x = uv.getD (2 * (x / 2) + o.vPos) 0) :
    RowOk cn w (fun x p => Q x (y.getD x 0) fu fv p) row
      (nvHalvedRow guard w cn o put hd y uv row) := by
  have lc : ceil2 w = (w + 1) / 2 := rfl
  obtain ⟨row', cx, e, hdone, hpq⟩ := hhd y uv row fu fv by' bu (by omega) (by omega) (by omega) hu hv
  obtain ⟨vp, v1, v2, v3, v4, v5⟩ := rowDone_paint hcn (by omega) hdone
  unfold nvHalvedRow
  rw [e, Outcome.bind_ok]
  simp only
  have hlr : row'.length = w * cn := by
    rw [v5, paintRow_length v1 (by rw [lr]; exact Nat.mul_le_mul_right _ v3), lr]
  have hk : row'.length / (2 * cn) = w / 2 := by
    rw [hlr, Nat.mul_comm 2 cn, ← Nat.div_div_eq_div_mul, Nat.mul_div_cancel _ hcn]
  have hk2 : min3 (row'.length / (2 * cn)) (y.length / 2) (uv.length / 2) = w / 2 := by
    rw [hk, ly, lu]; unfold min3 ceil2; omega
  rw [hk2, v5]
  refine nvRow_rel hcn hw hput (Q := fun x _ _ _ p => Q x (y.getD x 0) fu fv p) ly lu by' bu lr v1 v2
    (fun x hx hxw => ?_) v3 v4 rfl
  rw [← hu x hxw, ← hv x hxw]
  exact hpq x hx hxw

/-- A halved row on the sliced source rows `r` and `rc`. -/
theorem nvHalved_slicedRow (hs : hdiv s = 2)
    (hp : BiRows i s B) (hcn : 0 < cn) (hput : PutOk B cn put px)
    (hhd : hd.FillsRow guard B cn i.width 2 o.uPos o.vPos px Q) {r rc : Nat}
    (hr : r < i.height) (hrc : rc = r / vdiv s) {row : Buf} (hrow : row.length = i.width * cn) :
    RowOk cn i.width (fun x p => NvRowQ i s o Q x r p) row
      (nvHalvedRow guard i.width cn o put hd ((chunk i.yStride i.y r).take i.width)
        ((chunk i.uvStride i.uv rc).take (ceil2 i.width * 2)) row) := by
  have hcw : s.chromaWidth i.width = ceil2 i.width := by
    cases s <;> simp_all [hdiv, Sampling.chromaWidth]
  have hrc' : rc < s.chromaHeight i.height := by rw [hrc]; exact div_vdiv_lt hr
  have cy := chunk_length (fullRows_row hp.yr hr)
  have cu := chunk_length (fullRows_row hp.ur hrc')
  have hyw := hp.yw
  have huw := hp.uw
  rw [hcw] at huw
  have hwp := hp.wpos
  have := uPos_lt o
  have := vPos_lt o
  refine RowOk.mono (nvHalvedRow_row hcn hwp hput hhd
    (by rw [List.length_take]; omega) (by rw [List.length_take]; omega)
    (bnd_take (bnd_chunk hp.yb)) (bnd_take (bnd_chunk hp.ub)) hrow
    (fu := fun x => at' i.uv i.uvStride (2 * (x / hdiv s) + o.uPos) (r / vdiv s))
    (fv := fun x => at' i.uv i.uvStride (2 * (x / hdiv s) + o.vPos) (r / vdiv s)) ?_ ?_) ?_
  · intro x hx
    rw [row_getD (by unfold ceil2; omega) huw, hs, ← hrc]
  · intro x hx
    rw [row_getD (by unfold ceil2; omega) huw, hs, ← hrc]
  · intro x p hx
    rw [row_getD hx hyw]
    exact id

theorem nvHalvedSlice_row (hs : hdiv s = 2)
    (hp : BiRows i s B) (hcn : 0 < cn) (hput : PutOk B cn put px)
    (hhd : hd.FillsRow guard B cn i.width 2 o.uPos o.vPos px Q) (hw : i.width * cn ≤ stride)
    {r rc : Nat} (hr : r < i.height) (hrc : rc = r / vdiv s) {row : Buf} (hrow : row.length = stride) :
    RowOk cn i.width (fun x p => NvRowQ i s o Q x r p) row
      (nvHalvedSlice guard i.width cn o put hd (chunk i.yStride i.y r) (chunk i.uvStride i.uv rc) row) := by
  have hcw : s.chromaWidth i.width = ceil2 i.width := by
    cases s <;> simp_all [hdiv, Sampling.chromaWidth]
  have hrc' : rc < s.chromaHeight i.height := by rw [hrc]; exact div_vdiv_lt hr
  have cy := chunk_length (fullRows_row hp.yr hr)
  have cu := chunk_length (fullRows_row hp.ur hrc')
  have hyw := hp.yw
  have huw := hp.uw
  rw [hcw] at huw
  unfold nvHalvedSlice
  rw [slice_take (by omega), slice_take (by omega)]
  simp only [Outcome.bind_ok]
  apply rowOk_prefix (by omega)
  exact nvHalved_slicedRow hs hp hcn hput hhd hr hrc (by rw [List.length_take]; omega)

theorem nvDecode422_row {rgba : Buf} (hp : BiRows i .yuv422 B) (hcn : 0 < cn)
    (hput : PutOk B cn put px)
    (hhd : hd.FillsRow guard B cn i.width 2 o.uPos o.vPos px Q) (hw : i.width * cn ≤ stride)
    (hd' : FullRows rgba.length stride i.height) :
    FrameOk stride i.height cn i.width (NvRowQ i .yuv422 o Q) rgba
      (nvDecode422 guard cn o put hd i rgba stride) := by
  have hst : 0 < stride := Nat.lt_of_lt_of_le (Nat.mul_pos hp.wpos hcn) hw
  unfold nvDecode422
  have hk : min3 (rgba.length / stride) (i.y.length / i.yStride) (i.uv.length / i.uvStride)
      = i.height := by
    rw [fullRows_div hd', fullRows_div hp.yr, fullRows_div hp.ur]
    simp [min3, Sampling.chromaHeight]
  rw [hk]
  refine eachChunk_rows hst hw (by omega) (by rw [Nat.mul_comm]; exact hd'.1) ?_
  intro r c _ hr hc
  exact nvHalvedSlice_row rfl hp hcn hput hhd hw hr (by simp [vdiv]) hc

theorem nvDecode444_row {rgba : Buf} (hp : BiRows i .yuv444 B) (hcn : 0 < cn)
    (hput : PutOk B cn put px)
    (hhd : hd.FillsRow true B cn i.width 1 o.uPos o.vPos px Q) (hw : i.width * cn ≤ stride)
    (hd' : FullRows rgba.length stride i.height) :
    FrameOk stride i.height cn i.width (NvRowQ i .yuv444 o Q) rgba
      (nvDecode444 guard cn o put hd i rgba stride) := by
  have hst : 0 < stride := Nat.lt_of_lt_of_le (Nat.mul_pos hp.wpos hcn) hw
  unfold nvDecode444
  have hk : min3 (rgba.length / stride) (i.y.length / i.yStride) (i.uv.length / i.uvStride)
      = i.height := by
    rw [fullRows_div hd', fullRows_div hp.yr, fullRows_div hp.ur]
    simp [min3, Sampling.chromaHeight]
  rw [hk]
  refine eachChunk_rows hst hw (by omega) (by rw [Nat.mul_comm]; exact hd'.1) ?_
  intro r row _ hr hrow
  have cy := chunk_length (fullRows_row hp.yr hr)
  have cu := chunk_length (fullRows_row hp.ur hr)
  have hyw := hp.yw
  have huw := hp.uw
  simp only [Sampling.chromaWidth] at huw
  have hwp := hp.wpos
  have hu1 := uPos_lt o
  have hv1 := vPos_lt o
  rw [slice_take (by omega)]
  simp only [Outcome.bind_ok]
  have ly : ((chunk i.yStride i.y r).take i.width).length = i.width := by
    rw [List.length_take]; omega
  have bY := bnd_take (n := i.width) (bnd_chunk (n := i.yStride) (k := r) hp.yb)
  have bU := bnd_chunk (n := i.uvStride) (k := r) hp.ub
  have key : ∀ x, x < i.width →
      ((chunk i.yStride i.y r).take i.width).getD x 0 = at' i.y i.yStride x r ∧
      (chunk i.uvStride i.uv r).getD (2 * x + o.uPos) 0 = at' i.uv i.uvStride (2 * x + o.uPos) r ∧
      (chunk i.uvStride i.uv r).getD (2 * x + o.vPos) 0 = at' i.uv i.uvStride (2 * x + o.vPos) r := by
    intro x hx
    refine ⟨row_getD hx hyw, ?_, ?_⟩
    · rw [chunk_getD (by omega)]; rfl
    · rw [chunk_getD (by omega)]; rfl
  obtain ⟨row', cx, e, hdone, hpq⟩ := hhd ((chunk i.yStride i.y r).take i.width)
    (chunk i.uvStride i.uv r) row (fun x => at' i.uv i.uvStride (2 * (x / 1) + o.uPos) r)
    (fun x => at' i.uv i.uvStride (2 * (x / 1) + o.vPos) r) bY bU (by omega) (by rw [cu]; omega)
    (by omega) (fun x hx => by rw [Nat.div_one]; exact (key x hx).2.1.symm)
    (fun x hx => by rw [Nat.div_one]; exact (key x hx).2.2.symm)
  obtain ⟨vp, v1, v2, v3, v4, v5⟩ := rowDone_paint hcn (by omega) hdone
  rw [e, Outcome.bind_ok]
  simp only
  have hlr : row'.length = stride := by
    rw [v5, paintRow_length v1 (by rw [hrow]; exact Nat.le_trans (Nat.mul_le_mul_right _ v3) hw),
      hrow]
  have hk1 : i.width ≤ row'.length / cn := by
    rw [hlr]; exact (Nat.le_div_iff_mul_le hcn).2 hw
  have hk2 : min3 (row'.length / cn) ((chunk i.yStride i.y r).take i.width).length
      ((chunk i.uvStride i.uv r).length / 2) = i.width := by
    rw [ly, cu]; unfold min3; omega
  rw [hk2, v5]
  refine rowSingles_rel hcn (px := fun x => px (at' i.y i.yStride x r)
      (at' i.uv i.uvStride (2 * x + o.uPos) r)
      (at' i.uv i.uvStride (2 * x + o.vPos) r)) (by omega) v1 ?_ v3 rfl (fun x => hput.len ..) ?_ ?_
  · intro x hx
    have := v2 x hx
    rw [(key x (by omega)).1] at this
    simpa [NvRowQ, hdiv, vdiv] using this
  · intro x hcx hx
    have := hpq x (.inl hcx) hx
    rw [(key x hx).1] at this
    simpa [NvRowQ, hdiv, vdiv] using this
  · intro x c hx hc
    obtain ⟨k1, k2, k3⟩ := key x hx
    rw [idx_ok (by omega), pair_idx hu1 (by omega), pair_idx hv1 (by omega)]
    simp only [Outcome.bind_ok]
    rw [hput.ok _ _ _ _ (bnd_getD bY (by omega)) (bnd_getD bU (by omega))
      (bnd_getD bU (by omega)) hc, k1, k2, k3]

theorem nvDecode420Halved_row {rgba : Buf} (hp : BiRows i .yuv420 B) (hcn : 0 < cn)
    (hput : PutOk B cn put px) (hhd : hd.FillsRow guard B cn i.width 2 o.uPos o.vPos px Q)
    (hw : i.width * cn ≤ stride) (hd' : FullRows rgba.length stride i.height) :
    FrameOk stride i.height cn i.width (NvRowQ i .yuv420 o Q) rgba
      (nvDecode420Halved guard cn o put hd i rgba stride) := by
  have hst : 0 < stride := Nat.lt_of_lt_of_le (Nat.mul_pos hp.wpos hcn) hw
  have hyw := hp.yw
  have huw := hp.uw
  simp only [Sampling.chromaWidth] at huw
  have hwp := hp.wpos
  have hhp := hp.hpos
  unfold nvDecode420Halved
  have hk : min3 (rgba.length / (stride * 2)) (i.y.length / (i.yStride * 2))
      (i.uv.length / i.uvStride) = i.height / 2 := by
    rw [fullRows_div2 hd', fullRows_div2 hp.yr, fullRows_div hp.ur]
    simp only [min3, Sampling.chromaHeight, ceil2]; omega
  have hcp := chromaHeight_pos (s := .yuv420) hhp
  have hcw : 0 < ceil2 i.width := ceil2_pos hwp
  have hcl : ceil2 i.width = (i.width + 1) / 2 := rfl
  rw [hk, Nat.mul_comm stride 2, lastChunk_rows (by omega) hcp hp.ur]
  simp only [Outcome.bind_ok]
  have hlast : i.height % 2 = 1 → ∀ d : Buf,
      onRemainder (2 * stride) (nvHalvedSlice guard i.width cn o put hd
        (remainder (i.yStride * 2) i.y)
        (chunk i.uvStride i.uv (Sampling.yuv420.chromaHeight i.height - 1))) d
      = onRemainder (2 * stride) (fun r => onPrefix r (i.width * cn)
          (nvHalvedRow guard i.width cn o put hd ((chunk i.yStride i.y (i.height - 1)).take i.width)
        ((chunk i.uvStride i.uv (Sampling.yuv420.chromaHeight i.height - 1)).take
          (ceil2 i.width * 2)))) d := by
    intro hodd d
    congr 1
    funext r
    obtain ⟨q1, q2⟩ := remainder_take hp.yr hodd hyw
    have cu := chunk_length (fullRows_row hp.ur
      (show Sampling.yuv420.chromaHeight i.height - 1 < _ by omega))
    unfold nvHalvedSlice
    rw [slice_take q1, q2, slice_take (by omega)]
    rfl
  have hbody : (fun d => if i.height % 2 = 0 then pure d else
      onRemainder (2 * stride) (nvHalvedSlice guard i.width cn o put hd
        (remainder (i.yStride * 2) i.y)
        (chunk i.uvStride i.uv (Sampling.yuv420.chromaHeight i.height - 1))) d)
      = (fun d => if i.height % 2 = 0 then (pure d : Outcome Buf) else
        onRemainder (2 * stride) (fun r => onPrefix r (i.width * cn)
          (nvHalvedRow guard i.width cn o put hd ((chunk i.yStride i.y (i.height - 1)).take i.width)
        ((chunk i.uvStride i.uv (Sampling.yuv420.chromaHeight i.height - 1)).take
          (ceil2 i.width * 2)))) d) := by
    funext d
    split
    · rfl
    · exact hlast (by omega) d
  rw [hbody]
  refine frame420_rem hst hw hd' ?_ ?_
  · intro r rows hr hrows
    rw [two_rows hst (by omega) (by omega) (chunk2_length hp.yr hr)]
    refine pairOk_rows hst hrows ?_ ?_
    · intro c hc
      rw [chunk2_0]
      exact nvHalvedSlice_row rfl hp hcn hput hhd hw (by omega) (by simp only [vdiv]; omega) hc
    · intro c hc
      rw [chunk2_1]
      exact nvHalvedSlice_row rfl hp hcn hput hhd hw (by omega) (by simp only [vdiv]; omega) hc
  · intro hodd c hc
    have e2 : ceil2 i.height - 1 = (i.height - 1) / 2 := by unfold ceil2; omega
    exact nvHalved_slicedRow rfl hp hcn hput hhd (by omega)
      (by simp only [Sampling.chromaHeight, vdiv]; exact e2) hc

theorem nvDeepFrame_row {rgba : Buf} (hp : BiRows i s B) (hcn : 0 < cn)
    (hput : PutOk B cn put px)
    (hhd : hd.FillsRow guard B cn i.width (hdiv s) o.uPos o.vPos px Q) (hw : i.width * cn ≤ stride)
    (hd' : FullRows rgba.length stride i.height) :
    FrameOk stride i.height cn i.width (NvRowQ i s o Q) rgba
      (nvDeepFrame guard cn o put hd s i rgba stride) := by
  cases s with
  | yuv444 => exact nvDecode444_row hp hcn hput hhd.guarded hw hd'
  | yuv422 => exact nvDecode422_row hp hcn hput hhd hw hd'
  | yuv420 => exact nvDecode420Halved_row hp hcn hput hhd hw hd'
end

end Verif
