import Verif.Spec.Yuy2
import Verif.Lemmas.NvDecode
import Verif.Lemmas.DeepDecode
import Verif.Lemmas.FillRows
import Verif.Props.Validation
/-! # The loops of the packed 4:2:2 converters -/
namespace Verif
open Spec

theorem lumaAt_even (t : Yuy2) (j : Nat) : lumaAt t (2 * j) = 4 * j + t.y0Pos := by
  cases t <;> simp only [lumaAt, Yuy2.y0Pos] <;> omega
theorem lumaAt_odd (t : Yuy2) (j : Nat) : lumaAt t (2 * j + 1) = 4 * j + t.y1Pos := by
  cases t <;> simp only [lumaAt, Yuy2.y1Pos] <;> omega
theorem cbAt_eq (t : Yuy2) (x : Nat) : cbAt t x = 4 * (x / 2) + t.uPos := by
  cases t <;> simp only [cbAt, Yuy2.uPos] <;> omega
theorem crAt_eq (t : Yuy2) (x : Nat) : crAt t x = 4 * (x / 2) + t.vPos := by
  cases t <;> simp only [crAt, Yuy2.vPos] <;> omega
theorem y0Pos_lt (t : Yuy2) : t.y0Pos < 4 := by cases t <;> decide
theorem y1Pos_lt (t : Yuy2) : t.y1Pos < 4 := by cases t <;> decide
theorem yuyU_lt (t : Yuy2) : t.uPos < 4 := by cases t <;> decide
theorem yuyV_lt (t : Yuy2) : t.vPos < 4 := by cases t <;> decide
theorem lumaAt_lt {t : Yuy2} {x w : Nat} (h : x < w) : lumaAt t x < 4 * ceil2 w := by
  cases t <;> simp only [lumaAt, ceil2] <;> omega
theorem cbAt_lt {t : Yuy2} {x w : Nat} (h : x < w) : cbAt t x < 4 * ceil2 w := by
  cases t <;> simp only [cbAt, ceil2] <;> omega
theorem crAt_lt {t : Yuy2} {x w : Nat} (h : x < w) : crAt t x < 4 * ceil2 w := by
  cases t <;> simp only [crAt, ceil2] <;> omega

theorem quad_idx {yuy : Buf} {j k : Nat} (hk : k < 4) (h : 4 * j + 4 ≤ yuy.length) :
    idx (chunk 4 yuy j) k = .ok (yuy.getD (4 * j + k) 0) := by
  have hc : (chunk 4 yuy j).length = 4 := chunk_length (by omega)
  rw [idx_ok (by omega), chunk_getD hk, Nat.mul_comm]

theorem yuy2Width_eq (w : Nat) : yuy2Width w = ceil2 w * 4 := by
  unfold yuy2Width ceil2; split <;> omega

theorem lastQuad {yuy : Buf} {w : Nat} (hw : 0 < w) (h : yuy.length = ceil2 w * 4) :
    lastChunk 4 yuy = .ok (chunk 4 yuy ((w - 1) / 2)) := by
  rw [lastChunk_ok (by omega) (by unfold ceil2 at h; omega), h]
  congr 2; unfold ceil2; omega

/-! ## Images -/

theorem Spec.GoodPacked.stride' {i : Packed} {B : Nat} (h : GoodPacked i B) :
    i.yuyStride = ceil2 i.width * 4 := by
  have := h.stride
  have := h.wpos
  unfold cover at *; unfold ceil2; omega

theorem Spec.GoodPacked.spos {i : Packed} {B : Nat} (h : GoodPacked i B) : 0 < i.yuyStride := by
  have := h.stride; unfold cover at this; omega

theorem Spec.GoodPacked.full {i : Packed} {B : Nat} (h : GoodPacked i B) :
    FullRows i.yuy.length i.yuyStride i.height := by
  have := h.spos
  refine ⟨by rw [h.len], ?_⟩
  rw [h.len, Nat.mul_add]; omega

theorem Spec.GoodPacked.accepted {i : Packed} {B : Nat} (h : GoodPacked i B) :
    i.check x64 = .ok () := by
  have h1 := h.stride'
  have h2 := h.len
  have h3 := h.addressable
  have h4 := h.wpos
  have hs : 2 * (i.width + 1) * i.height < 2 ^ 64 := by
    have a : 2 * (i.width + 1) ≤ 2 * i.yuyStride := by rw [h1]; unfold ceil2; omega
    have b := Nat.mul_le_mul_right i.height a
    rw [Nat.mul_assoc 2 i.yuyStride, ← h2] at b
    omega
  refine (packed422_check_iff i ⟨h.stride32, h.w32, h.h32⟩ hs).2 ⟨h4, h.hpos, ?_⟩
  rw [h2, h1, Nat.mul_comm (ceil2 i.width)]

/-! ## RGB -/

section
variable {B w cn : Nat} {t : Yuy2} {put : Nat → Nat → Nat → Buf → Outcome Buf}
  {px : Nat → Nat → Nat → Buf}

theorem yuyPixel_ok (hput : PutOk B cn put px) {yuy c : Buf} {j yp : Nat} (hy : yp < 4)
    (hb : ∀ s ∈ yuy, s < B) (hl : 4 * j + 4 ≤ yuy.length) (hc : c.length = cn) :
    yuyPixel t put yp (chunk 4 yuy j) c
      = .ok (px (yuy.getD (4 * j + yp) 0) (yuy.getD (4 * j + t.uPos) 0)
          (yuy.getD (4 * j + t.vPos) 0)) := by
  have := yuyU_lt t
  have := yuyV_lt t
  unfold yuyPixel
  rw [quad_idx hy hl, quad_idx (yuyU_lt t) hl, quad_idx (yuyV_lt t) hl]
  simp only [Outcome.bind_ok]
  exact hput.ok _ _ _ _ (bnd_getD hb (by omega)) (bnd_getD hb (by omega)) (bnd_getD hb (by omega)) hc

theorem yuyRgbRow_rel (hcn : 0 < cn) (hw : 0 < w) (hput : PutOk B cn put px)
    {R : Nat → Nat → Nat → Buf → Prop} {hd : YuyRgbHandler} (hhd : hd.Ok B cn w t R)
    {yuy row : Buf} (ly : yuy.length = ceil2 w * 4) (hb : ∀ s ∈ yuy, s < B)
    (lr : row.length = w * cn) :
    RowOk cn w (fun x p =>
      p = px (yuy.getD (lumaAt t x) 0) (yuy.getD (cbAt t x) 0) (yuy.getD (crAt t x) 0) ∨
      R (yuy.getD (lumaAt t x) 0) (yuy.getD (cbAt t x) 0) (yuy.getD (crAt t x) 0) p) row
      (yuyRgbRow w cn t put hd yuy row) := by
  have lc : ceil2 w = (w + 1) / 2 := rfl
  obtain ⟨row', cx, e, hdone⟩ := hhd yuy row hb (by omega) (by omega)
  obtain ⟨vp, v1, v2, v3, v4, v5⟩ := rowDone_paint hcn (by omega) hdone
  unfold yuyRgbRow
  rw [e, Outcome.bind_ok]
  simp only
  have hlr : row'.length = w * cn := by
    rw [v5, paintRow_length v1 (by rw [lr]; exact Nat.mul_le_mul_right _ v3), lr]
  have hk : row'.length / (2 * cn) = w / 2 := by
    rw [hlr, Nat.mul_comm 2 cn, ← Nat.div_div_eq_div_mul, Nat.mul_div_cancel _ hcn]
  have hk2 : min (row'.length / (2 * cn)) (yuy.length / 4) = w / 2 := by
    rw [hk, ly]; omega
  rw [hk2, v5, lastQuad hw ly]
  refine rowPairsRem_rel hcn (px := fun x => px (yuy.getD (lumaAt t x) 0) (yuy.getD (cbAt t x) 0)
      (yuy.getD (crAt t x) 0)) lr v1 (fun x hx => Or.inr (v2 x hx)) v3 v4 rfl
    (fun x => hput.len ..) (fun x _ _ => Or.inl rfl) ?_ ?_ ?_
  · intro j c hj hc
    rw [yuyPixel_ok hput (y0Pos_lt t) hb (by omega) hc, lumaAt_even, cbAt_eq, crAt_eq,
      show 2 * j / 2 = j by omega]
  · intro j c hj hc
    rw [yuyPixel_ok hput (y1Pos_lt t) hb (by omega) hc, lumaAt_odd, cbAt_eq, crAt_eq,
      show (2 * j + 1) / 2 = j by omega]
  · intro c hodd hc
    have hl := lumaAt_even t ((w - 1) / 2)
    rw [show 2 * ((w - 1) / 2) = w - 1 by omega] at hl
    simp only [Outcome.bind_ok]
    rw [yuyPixel_ok hput (y0Pos_lt t) hb (by omega) hc, hl, cbAt_eq, crAt_eq]

/-- Pixel relation of a frame. -/
def YuyRel (i : Packed) (t : Yuy2) (px : Nat → Nat → Nat → Buf)
    (R : Nat → Nat → Nat → Buf → Prop) (x y : Nat) (p : Buf) : Prop :=
  p = px (Packed.Y t i x y) (Packed.U t i x y) (Packed.V t i x y) ∨
  R (Packed.Y t i x y) (Packed.U t i x y) (Packed.V t i x y) p

theorem packed_row {i : Packed} (hi : GoodPacked i B) {r k : Nat} (hk : k < i.yuyStride) :
    (chunk i.yuyStride i.yuy r).getD k 0 = at' i.yuy i.yuyStride k r := by
  rw [chunk_getD hk]; rfl

theorem yuyRgbFrame_rel {i : Packed} (hi : GoodPacked i B) (hcn : 0 < cn)
    (hput : PutOk B cn put px) {R : Nat → Nat → Nat → Buf → Prop} {hd : YuyRgbHandler}
    (hhd : hd.Ok B cn i.width t R) {rgb : Buf} {stride : Nat} (hw : i.width * cn ≤ stride)
    (hd' : FullRows rgb.length stride i.height) :
    FrameOk stride i.height cn i.width (YuyRel i t px R) rgb
      (yuyRgbFrame cn t put hd i rgb stride) := by
  have hst : 0 < stride := Nat.lt_of_lt_of_le (Nat.mul_pos hi.wpos hcn) hw
  have hsp := hi.spos
  have hs := hi.stride'
  unfold yuyRgbFrame
  rw [if_neg (by omega), fullRows_div hd', fullRows_div hi.full, Nat.min_self]
  refine eachChunk_rows hst hw (by omega) (by rw [Nat.mul_comm]; exact hd'.1) ?_
  intro r row _ hr hrow
  have cy := chunk_length (fullRows_row hi.full hr)
  have ht : (chunk i.yuyStride i.yuy r).take (yuy2Width i.width) = chunk i.yuyStride i.yuy r :=
    List.take_of_length_le (by rw [yuy2Width_eq]; omega)
  rw [slice_take (by rw [yuy2Width_eq]; omega), ht]
  simp only [Outcome.bind_ok]
  apply rowOk_prefix (by omega)
  refine RowOk.mono (yuyRgbRow_rel hcn hi.wpos hput hhd (by omega) (bnd_chunk hi.bound)
    (by rw [List.length_take]; omega)) ?_
  intro x p hx
  have a := lumaAt_lt (t := t) hx
  have b := cbAt_lt (t := t) hx
  have c := crAt_lt (t := t) hx
  rw [packed_row hi (by omega), packed_row hi (by omega), packed_row hi (by omega)]
  exact id

theorem noYuyRgb_ok {R : Nat → Nat → Nat → Buf → Prop} : noYuyRgb.Ok B cn w t R := by
  intro yuy row _ _ _
  exact ⟨row, 0, rfl, by omega, Or.inl (by simp), rfl, by intros; omega, fun _ _ => rfl⟩
end

/-! ## Packing -/

theorem putQuad_ok (t : Yuy2) (y0 y1 u v : Nat) {c : Buf} (h : c.length = 4) :
    putQuad t y0 y1 u v c = .ok (quad t y0 y1 u v) := by
  match c, h with
  | [a, b, c, d], _ => cases t <;> rfl

theorem quad_length (t : Yuy2) (a b c d : Nat) : (quad t a b c d).length = 4 := by cases t <;> rfl

/-- The scalar part of a packed row, the first `s` quads being done. -/
theorem packRest_ok {w s : Nat} {t : Yuy2} {cf : ChromaFetch} {row y u v : Buf} {Cu Cv : Nat → Nat}
    {px : Nat → Buf} (hw : 0 < w) (ly : y.length = w) (lr : row.length = ceil2 w * 4)
    (hs : s ≤ w / 2)
    (hu : ∀ j, j < w / 2 → cf.at' u j = .ok (Cu j)) (hv : ∀ j, j < w / 2 → cf.at' v j = .ok (Cv j))
    (nu : w / 2 ≤ cf.count u) (nv : w / 2 ≤ cf.count v)
    (eu : w % 2 = 1 → lastElem u = .ok (Cu (w / 2))) (ev : w % 2 = 1 → lastElem v = .ok (Cv (w / 2)))
    (hpx : ∀ j, px j = quad t (y.getD (2 * j) 0) (if 2 * j + 1 < w then y.getD (2 * j + 1) 0 else 0)
      (Cu j) (Cv j)) :
    packRest w t cf s (paintRow 4 s px row) y u v = .ok (paintRow 4 (ceil2 w) px row) := by
  have lc : ceil2 w = (w + 1) / 2 := rfl
  have hl : ∀ j, (px j).length = 4 := fun j => by rw [hpx]; exact quad_length ..
  have hK : KeepsLen 4 (fun x _ => px x) := fun j c _ => hl j
  have hlen : (paintRow 4 s px row).length = ceil2 w * 4 := by
    rw [paintRow_length hl (by omega), lr]
  have hk : min4 ((paintRow 4 s px row).length / 4) (y.length / 2) (cf.count u) (cf.count v)
      = w / 2 := by rw [hlen, ly]; unfold min4; omega
  unfold packRest
  rw [hk, eachChunk_ok (by omega) (P := fun j _ => px j) (by omega) (fun j c _ h2 h3 => by
    rw [idx_ok (by omega), idx_ok (by omega), hu j h2, hv j h2]
    simp only [Outcome.bind_ok]
    rw [putQuad_ok _ _ _ _ _ h3, hpx, if_pos (by omega)])]
  simp only [Outcome.bind_ok]
  unfold paintRow
  rw [mapChunks_mapChunks (by omega) hK (by omega) hs (by omega)]
  by_cases hodd : w % 2 = 0
  · rw [if_pos hodd, show ceil2 w = w / 2 by omega]; rfl
  · rw [if_neg hodd]
    have hl2 : (mapChunks 4 0 (w / 2) (fun x _ => px x) row).length = ceil2 w * 4 := by
      rw [mapChunks_length hK (by omega) (by omega), lr]
    rw [onLastChunk_ok (k := ceil2 w) (by omega) (by omega) (by rw [hl2]; omega)
      (P := fun x _ => px x) (fun c hc => by
        rw [lastElem_ok (by omega), eu (by omega), ev (by omega)]
        simp only [Outcome.bind_ok]
        rw [putQuad_ok _ _ _ _ _ hc, hpx, if_neg (by omega), show ceil2 w - 1 = w / 2 by omega]
        congr 3; omega)]
    rw [show ceil2 w - 1 = w / 2 by omega,
      mapChunks_mapChunks (by omega) hK (by omega) (by omega) (by omega)]

theorem paintRow_vec {s : Nat} {vp px : Nat → Buf} {row : Buf} (hrow : s * 4 ≤ row.length)
    (h : ∀ j, j < s → vp j = px j) : paintRow 4 s vp row = paintRow 4 s px row :=
  paintRow_congr hrow h

/-- The vector prefix of a row as painted quads. -/
theorem packer_paint {w cw : Nat} {t : Yuy2} {C : Buf → Nat → Nat} {hd : YuyPacker}
    (hh : hd.Ok w cw t C) (hw : 0 < w) {row y u v : Buf} (ly : w ≤ y.length)
    (lr : ceil2 w * 4 ≤ row.length) (lu : cw ≤ u.length) (lv : cw ≤ v.length) {px : Nat → Buf}
    (hpx : ∀ j, j < w / 2 → px j = quad t (y.getD (2 * j) 0) (y.getD (2 * j + 1) 0) (C u j) (C v j)) :
    ∃ cx, hd row y u v = .ok (paintRow 4 (cx / 2) px row, cx) ∧ cx / 2 ≤ w / 2 := by
  have lc : ceil2 w = (w + 1) / 2 := rfl
  obtain ⟨yuy', cx, e, hdone⟩ := hh row y u v (by omega) ly lu lv
  obtain ⟨vp, v1, v2, v3, v4, v5⟩ := rowDone_paint (by omega) (by omega) hdone
  refine ⟨cx, ?_, v3⟩
  rw [e, v5, paintRow_vec (px := px) (by omega) (fun j hj => by rw [v2 j hj, hpx j (by omega)])]

theorem noPack_ok {w cw : Nat} {t : Yuy2} {C : Buf → Nat → Nat} : noPack.Ok w cw t C := by
  intro yuy y u v _ _ _ _
  exact ⟨yuy, 0, rfl, by omega, Or.inl (by simp), rfl, by intros; omega, fun _ _ => rfl⟩

/-- One quad of a 4:2:2 row. -/
def quad422 (t : Yuy2) (w : Nat) (y u v : Buf) (j : Nat) : Buf :=
  quad t (y.getD (2 * j) 0) (if 2 * j + 1 < w then y.getD (2 * j + 1) 0 else 0) (u.getD j 0)
    (v.getD j 0)
theorem quad422_length (t : Yuy2) (w : Nat) (y u v : Buf) (j : Nat) :
    (quad422 t w y u v j).length = 4 := quad_length ..
/-- One quad of a 4:4:4 row. -/
def quad444 (t : Yuy2) (w : Nat) (y u v : Buf) (j : Nat) : Buf :=
  quad t (y.getD (2 * j) 0) (if 2 * j + 1 < w then y.getD (2 * j + 1) 0 else 0)
    (if 2 * j + 1 < w then chroma444 u j else u.getD (2 * j) 0)
    (if 2 * j + 1 < w then chroma444 v j else v.getD (2 * j) 0)

theorem packRest422 {w s : Nat} {t : Yuy2} {row y u v : Buf} (hw : 0 < w) (ly : y.length = w)
    (lr : row.length = ceil2 w * 4) (hs : s ≤ w / 2) (lu : u.length = ceil2 w)
    (lv : v.length = ceil2 w) :
    packRest w t fetch422 s (paintRow 4 s (quad422 t w y u v) row) y u v
      = .ok (paintRow 4 (ceil2 w) (quad422 t w y u v) row) := by
  have lc : ceil2 w = (w + 1) / 2 := rfl
  refine packRest_ok (Cu := fun j => u.getD j 0) (Cv := fun j => v.getD j 0) hw ly lr hs
    (fun j hj => idx_ok (by omega)) (fun j hj => idx_ok (by omega)) (by simp only [fetch422]; omega)
    (by simp only [fetch422]; omega) ?_ ?_ (fun j => rfl)
  · intro h; rw [lastElem_ok (by omega)]; congr 2; omega
  · intro h; rw [lastElem_ok (by omega)]; congr 2; omega

theorem packRest444 {w s : Nat} {t : Yuy2} {row y u v : Buf} (hw : 0 < w) (ly : y.length = w)
    (lr : row.length = ceil2 w * 4) (hs : s ≤ w / 2) (lu : u.length = w) (lv : v.length = w) :
    packRest w t fetch444 s (paintRow 4 s (quad444 t w y u v) row) y u v
      = .ok (paintRow 4 (ceil2 w) (quad444 t w y u v) row) := by
  have key : ∀ c : Buf, c.length = w → ∀ j, j < w / 2 → fetch444.at' c j
      = .ok (if 2 * j + 1 < w then chroma444 c j else c.getD (2 * j) 0) := by
    intro c hc j hj
    simp only [fetch444]
    rw [idx_ok (by omega), idx_ok (by omega), if_pos (by omega)]
    rfl
  refine packRest_ok (Cu := fun j => if 2 * j + 1 < w then chroma444 u j else u.getD (2 * j) 0)
    (Cv := fun j => if 2 * j + 1 < w then chroma444 v j else v.getD (2 * j) 0) hw ly lr hs
    (key u lu) (key v lv) (by simp only [fetch444]; omega)
    (by simp only [fetch444]; omega) ?_ ?_ (fun j => rfl)
  · intro h; rw [lastElem_ok (by omega), if_neg (by omega)]; congr 2; omega
  · intro h; rw [lastElem_ok (by omega), if_neg (by omega)]; congr 2; omega

/-- A 4:2:2 or 4:2:0 row. -/
theorem packRow422 {w : Nat} {t : Yuy2} {hd : YuyPacker} (hh : hd.Ok w (ceil2 w) t chroma422)
    {row y u v : Buf} (hw : 0 < w) (ly : y.length = w) (lr : row.length = ceil2 w * 4)
    (lu : u.length = ceil2 w) (lv : v.length = ceil2 w) :
    packRow w t fetch422 (· / 2) hd row y u v
      = .ok (paintRow 4 (ceil2 w) (quad422 t w y u v) row) := by
  obtain ⟨cx, e, h⟩ := packer_paint hh hw (row := row) (y := y) (u := u) (v := v) (by omega) (by omega)
    (by omega) (by omega) (px := quad422 t w y u v)
    (fun j hj => by unfold quad422; rw [if_pos (by omega)]; rfl)
  unfold packRow
  rw [e, Outcome.bind_ok]
  exact packRest422 hw ly lr h lu lv

theorem paintRow_zero {cn : Nat} {px : Nat → Buf} {row : Buf} : paintRow cn 0 px row = row := by
  simp [paintRow, mapChunks_empty]

/-- A 4:4:4 row without vector code. -/
theorem packRow444 {w : Nat} {t : Yuy2} {row y u v : Buf} (hw : 0 < w) (ly : y.length = w)
    (lr : row.length = ceil2 w * 4) (lu : u.length = w) (lv : v.length = w) :
    packRow w t fetch444 id noPack row y u v
      = .ok (paintRow 4 (ceil2 w) (quad444 t w y u v) row) := by
  have := packRest444 (t := t) (s := 0) hw ly lr (by omega) lu lv
  rw [paintRow_zero] at this
  exact this

/-- One row of the packers in terms of the source planes. -/
theorem packSlice_ok {w cw st1 st2 st3 a b c : Nat} {t : Yuy2} {cf : ChromaFetch} {sk : Nat → Nat}
    {hd : YuyPacker} {Y U V row : Buf} {P : Buf → Buf → Buf → Nat → Buf}
    (hrow : ∀ y u v : Buf, y.length = w → u.length = cw → v.length = cw →
      packRow w t cf sk hd row y u v = .ok (paintRow 4 (ceil2 w) (P y u v) row))
    (hP : ∀ y u v j, (P y u v j).length = 4)
    (hw : w ≤ st1) (hu : cw ≤ st2) (hv : cw ≤ st3) (lr : row.length = ceil2 w * 4)
    (ly : (chunk st1 Y a).length = st1) (lu : (chunk st2 U b).length = st2)
    (lv : (chunk st3 V c).length = st3) :
    RowOk 4 (ceil2 w) (fun j p => p = P ((chunk st1 Y a).take w) ((chunk st2 U b).take cw)
        ((chunk st3 V c).take cw) j) row
      (packSlice w cw t cf sk hd (chunk st1 Y a) (chunk st2 U b) (chunk st3 V c) row) := by
  unfold packSlice
  rw [slice_take (by omega), slice_take (by omega), slice_take (by omega)]
  simp only [Outcome.bind_ok]
  rw [yuy2Width_eq, onPrefix_all lr,
    hrow _ _ _ (by rw [List.length_take]; omega) (by rw [List.length_take]; omega)
      (by rw [List.length_take]; omega)]
  exact ⟨_, fun x => hP .., fun x _ => rfl, rfl⟩

section
variable {i : Planar} {d : Packed} {B B' : Nat} {t : Yuy2}

theorem pack422_slice {s : Sampling} {hd : YuyPacker} (hs : hdiv s = 2) (hp : PlanarRows i s B)
    (hh : hd.Ok i.width (ceil2 i.width) t chroma422) {row : Buf}
    (hrow : row.length = ceil2 i.width * 4) {r rc : Nat} (hr : r < i.height) (hrc : rc = r / vdiv s) :
    RowOk 4 (ceil2 i.width) (fun j p => p = planarQuad t i s j r) row
      (packSlice i.width (ceil2 i.width) t fetch422 (· / 2) hd (chunk i.yStride i.y r)
        (chunk i.uStride i.u rc) (chunk i.vStride i.v rc) row) := by
  have hcw : s.chromaWidth i.width = ceil2 i.width := by
    cases s <;> simp_all [hdiv, Sampling.chromaWidth]
  have hrc' : rc < s.chromaHeight i.height := by rw [hrc]; exact div_vdiv_lt hr
  have huw := hp.uw
  have hvw := hp.vw
  rw [hcw] at huw hvw
  refine RowOk.mono (packSlice_ok (P := quad422 t i.width)
    (fun y u v a b c => packRow422 hh hp.wpos a hrow b c) (fun _ _ _ _ => quad_length ..)
    hp.yw huw hvw hrow (chunk_length (fullRows_row hp.yr hr)) (chunk_length (fullRows_row hp.ur hrc'))
    (chunk_length (fullRows_row hp.vr hrc'))) ?_
  intro j p hj
  have lc : ceil2 i.width = (i.width + 1) / 2 := rfl
  rintro rfl
  unfold quad422 planarQuad Planar.Y Planar.U Planar.V
  rw [row_getD (by omega) hp.yw, row_getD hj huw, row_getD hj hvw, hs, ← hrc,
    show 2 * j / 2 = j by omega]
  by_cases h : 2 * j + 1 < i.width
  · rw [if_pos h, if_pos h, row_getD h hp.yw]
  · rw [if_neg h, if_neg h]

theorem packRows422_rel {hd : YuyPacker} (hp : PlanarRows i .yuv422 B) (hd' : GoodPacked d B')
    (hw : i.width = d.width) (hhh : i.height = d.height)
    (hh : hd.Ok i.width (ceil2 i.width) t chroma422) :
    FrameOk d.yuyStride i.height 4 (ceil2 i.width) (fun j y p => p = planarQuad t i .yuv422 j y) d.yuy
      (packRows (ceil2 i.width) t fetch422 (· / 2) hd i d.yuy d.yuyStride) := by
  have hs := hd'.stride'
  have hsp := hd'.spos
  have hf := hd'.full
  have h1 := hp.wpos
  have h2 := hp.yw
  have h3 := hp.uw
  have h4 := hp.vw
  have lc : ceil2 i.width = (i.width + 1) / 2 := rfl
  simp only [Sampling.chromaWidth] at h3 h4
  rw [← hw] at hs
  rw [← hhh] at hf
  unfold packRows
  rw [if_neg (by omega), fullRows_div hf, fullRows_div hp.yr, fullRows_div hp.ur, fullRows_div hp.vr,
    show min4 i.height i.height (Sampling.yuv422.chromaHeight i.height)
      (Sampling.yuv422.chromaHeight i.height) = i.height by simp [min4, Sampling.chromaHeight]]
  refine eachChunk_rows hsp (by omega) (by omega) (by rw [Nat.mul_comm]; exact hf.1) ?_
  intro r row _ hr hrow
  exact pack422_slice rfl hp hh (by omega) hr (by simp [vdiv])

theorem packRows444_rel (hp : PlanarRows i .yuv444 B) (hd' : GoodPacked d B')
    (hw : i.width = d.width) (hhh : i.height = d.height) :
    FrameOk d.yuyStride i.height 4 (ceil2 i.width) (fun j y p => p = planarQuad444 t i j y) d.yuy
      (packRows i.width t fetch444 id noPack i d.yuy d.yuyStride) := by
  have hs := hd'.stride'
  have hsp := hd'.spos
  have hf := hd'.full
  have h1 := hp.wpos
  have h2 := hp.yw
  have h3 := hp.uw
  have h4 := hp.vw
  have lc : ceil2 i.width = (i.width + 1) / 2 := rfl
  simp only [Sampling.chromaWidth] at h3 h4
  rw [← hw] at hs
  rw [← hhh] at hf
  unfold packRows
  rw [if_neg (by omega), fullRows_div hf, fullRows_div hp.yr, fullRows_div hp.ur, fullRows_div hp.vr,
    show min4 i.height i.height (Sampling.yuv444.chromaHeight i.height)
      (Sampling.yuv444.chromaHeight i.height) = i.height by simp [min4, Sampling.chromaHeight]]
  refine eachChunk_rows hsp (by omega) (by omega) (by rw [Nat.mul_comm]; exact hf.1) ?_
  intro r row _ hr hrow
  refine RowOk.mono (packSlice_ok (P := quad444 t i.width)
    (fun y u v a b c => packRow444 hp.wpos a (by omega) b c) (fun _ _ _ _ => quad_length ..)
    h2 h3 h4 (by omega) (chunk_length (fullRows_row hp.yr hr)) (chunk_length (fullRows_row hp.ur hr))
    (chunk_length (fullRows_row hp.vr hr))) ?_
  intro j p hj
  rintro rfl
  unfold quad444 planarQuad444 Planar.Y Planar.U Planar.V chroma444
  simp only [hdiv, vdiv, Nat.div_one]
  rw [row_getD (by omega) hp.yw, row_getD (by omega) h3, row_getD (by omega) h4]
  by_cases h : 2 * j + 1 < i.width
  · rw [if_pos h, if_pos h, if_pos h, if_pos h, if_pos h, if_pos h, row_getD h hp.yw, row_getD h h3,
      row_getD h h4]
  · rw [if_neg h, if_neg h, if_neg h, if_neg h, if_neg h, if_neg h]

theorem pack420_rel {hd : YuyPacker} (hp : PlanarRows i .yuv420 B) (hd' : GoodPacked d B')
    (hw : i.width = d.width) (hhh : i.height = d.height)
    (hh : hd.Ok i.width (ceil2 i.width) t chroma422) :
    FrameOk d.yuyStride i.height 4 (ceil2 i.width) (fun j y p => p = planarQuad t i .yuv420 j y) d.yuy
      (pack420 t hd i d.yuy d.yuyStride) := by
  have hs := hd'.stride'
  have hsp := hd'.spos
  have hf := hd'.full
  have h1 := hp.wpos
  have hhp := hp.hpos
  have h2 := hp.yw
  have h3 := hp.uw
  have h4 := hp.vw
  have lc : ceil2 i.width = (i.width + 1) / 2 := rfl
  simp only [Sampling.chromaWidth] at h3 h4
  rw [← hw] at hs
  rw [← hhh] at hf
  have hcp := chromaHeight_pos (s := .yuv420) hhp
  unfold pack420
  simp only
  rw [if_neg (by omega)]
  have hk : min4 (d.yuy.length / (d.yuyStride * 2)) (i.y.length / (i.yStride * 2))
      (i.u.length / i.uStride) (i.v.length / i.vStride) = i.height / 2 := by
    rw [fullRows_div2 hf, fullRows_div2 hp.yr, fullRows_div hp.ur, fullRows_div hp.vr]
    simp only [min4, Sampling.chromaHeight, ceil2]; omega
  rw [hk, Nat.mul_comm d.yuyStride 2, lastChunk_rows (by omega) hcp hp.ur,
    lastChunk_rows (by omega) hcp hp.vr]
  simp only [Outcome.bind_ok]
  have hpairs : RowsOk d.yuyStride 0 (2 * (i.height / 2)) 4 (ceil2 i.width)
      (fun j y p => p = planarQuad t i .yuv420 j y) d.yuy
      (eachChunk (2 * d.yuyStride) 0 (i.height / 2) (fun r rows =>
        eachChunk d.yuyStride 0 (min (rows.length / d.yuyStride)
          ((chunk (i.yStride * 2) i.y r).length / i.yStride))
          (fun j row => packSlice i.width (ceil2 i.width) t fetch422 (· / 2) hd
            (chunk i.yStride (chunk (i.yStride * 2) i.y r) j)
            (chunk i.uStride i.u r) (chunk i.vStride i.v r) row) rows) d.yuy) := by
    refine eachChunk_rowPairs hsp (by omega) ?_ ?_
    · have : i.height / 2 * (2 * d.yuyStride) ≤ d.yuyStride * i.height := by
        rw [← Nat.mul_assoc, Nat.mul_comm d.yuyStride]; exact Nat.mul_le_mul_right _ (by omega)
      exact Nat.le_trans this hf.1
    · intro r rows hr hrows
      rw [two_rows hsp (by omega) (by omega) (chunk2_length hp.yr hr)]
      refine pairOk_rows hsp hrows ?_ ?_
      · intro c hc
        rw [chunk2_0]
        exact pack422_slice rfl hp hh (by omega) (by omega) (by simp only [vdiv]; omega)
      · intro c hc
        rw [chunk2_1]
        exact pack422_slice rfl hp hh (by omega) (by omega) (by simp only [vdiv]; omega)
  have hmul : i.height * d.yuyStride ≤ d.yuy.length := by rw [Nat.mul_comm]; exact hf.1
  refine rowsOk_trans hsp (by omega) (b := 2 * (i.height / 2)) (by omega) (by omega) hmul hpairs ?_
  intro buf hbuf
  by_cases hev : i.height % 2 = 0
  · rw [if_pos hev, show 2 * (i.height / 2) = i.height by omega]
    exact ⟨fun _ _ => List.replicate 4 0, by simp, by intros; omega, by
      simp [paintFrom, mapChunks_empty]⟩
  · rw [if_neg hev, show 2 * (i.height / 2) = i.height - 1 by omega]
    have hdl : buf.length / d.yuyStride = i.height := by rw [hbuf]; exact fullRows_div hf
    have hlen : buf.length = i.height * d.yuyStride := by
      rw [hbuf, hd'.len, ← hhh, Nat.mul_comm]
    -- the remainder is one row
    have hrem : ∀ g : Buf → Outcome Buf, onRemainder (2 * d.yuyStride) g buf
        = onRemainder (2 * d.yuyStride) (fun r => onPrefix r d.yuyStride g) buf := by
      intro g
      have e2 : buf.length / (2 * d.yuyStride) = i.height / 2 := by
        rw [Nat.mul_comm 2, ← Nat.div_div_eq_div_mul, hdl]
      have e3 : i.height / 2 * (2 * d.yuyStride) = (i.height - 1) * d.yuyStride := by
        rw [← Nat.mul_assoc]; congr 1; omega
      have e4 : i.height * d.yuyStride = (i.height - 1) * d.yuyStride + d.yuyStride := by
        rw [← Nat.succ_mul]; congr 1; omega
      unfold onRemainder
      rw [if_neg (by omega), if_neg (by omega), e2, e3]
      simp only
      rw [onPrefix_all (l := buf.drop _) (by rw [List.length_drop]; omega)]
    rw [hrem, onRemainder_prefix_eq (k := i.height) hsp (Nat.le_refl _) hdl (by omega)]
    refine onLastChunk_rows hsp (by omega) (by omega) hdl ?_
    intro c hc
    rw [onPrefix_all hc]
    obtain ⟨q1, q2⟩ := remainder_take hp.yr (by omega) hp.yw
    have hrc : (Sampling.yuv420.chromaHeight i.height - 1) < Sampling.yuv420.chromaHeight i.height := by omega
    have cu := chunk_length (fullRows_row hp.ur hrc)
    have cv := chunk_length (fullRows_row hp.vr hrc)
    have hr2 : Sampling.yuv420.chromaHeight i.height - 1 = (i.height - 1) / 2 := by
      simp only [Sampling.chromaHeight, ceil2]; omega
    have hYg : ∀ x, x < i.width → (remainder (i.yStride * 2) i.y).getD x 0
        = ((chunk i.yStride i.y (i.height - 1)).take i.width).getD x 0 := by
      intro x hx; rw [← q2, take_getD hx]
    obtain ⟨cx, e, h⟩ := packer_paint hh h1 (row := c) (y := remainder (i.yStride * 2) i.y)
      (u := chunk i.uStride i.u (Sampling.yuv420.chromaHeight i.height - 1))
      (v := chunk i.vStride i.v (Sampling.yuv420.chromaHeight i.height - 1)) q1 (by omega)
      (by omega) (by omega)
      (px := quad422 t i.width ((chunk i.yStride i.y (i.height - 1)).take i.width)
        ((chunk i.uStride i.u (Sampling.yuv420.chromaHeight i.height - 1)).take (ceil2 i.width))
        ((chunk i.vStride i.v (Sampling.yuv420.chromaHeight i.height - 1)).take (ceil2 i.width)))
      (fun j hj => by
        unfold quad422
        rw [if_pos (by omega), hYg _ (by omega), hYg _ (by omega)]
        simp only [take_getD (show j < ceil2 i.width by omega)]
        rfl)
    rw [e]
    simp only [Outcome.bind_ok]
    rw [slice_take q1, q2, slice_take (by omega), slice_take (by omega)]
    simp only [Outcome.bind_ok]
    rw [yuy2Width_eq, onPrefix_all
        ((paintRow_length (fun x => quad422_length t i.width _ _ _ x) (by omega)).trans (by omega)),
      packRest422 h1 (by rw [List.length_take, chunk_length (fullRows_row hp.yr (by omega))]; omega)
        (by omega) h (by rw [List.length_take]; omega) (by rw [List.length_take]; omega)]
    refine ⟨_, fun _ => quad_length .., fun j hj => ?_, rfl⟩
    simp only
    unfold planarQuad Planar.Y Planar.U Planar.V
    rw [row_getD (by omega) hp.yw, row_getD hj h3, row_getD hj h4, hr2]
    simp only [hdiv, vdiv]
    rw [show 2 * j / 2 = j by omega]
    by_cases h : 2 * j + 1 < i.width
    · rw [if_pos h, if_pos h, row_getD h hp.yw]
    · rw [if_neg h, if_neg h]
end

end Verif
