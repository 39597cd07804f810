import Verif.Spec.PixelMap
import Verif.Lemmas.Decode
/-! # Pixelwise converters: frames -/
namespace Verif
open Spec

theorem noMap_ok {B w cn : Nat} {srcs : List Src} {R : List Buf → Buf → Prop} :
    noMap.Ok B w cn srcs R := by
  intro rows row _ _ _
  exact ⟨row, 0, rfl, by omega, Or.inl (by simp), rfl, by intros; omega, fun _ _ => rfl⟩

theorem zipCount_le {k : Nat} : ∀ {l : List (Nat × Nat)} {w : Nat}, w ≤ k →
    (∀ p ∈ l, w ≤ p.2 / p.1) → w ≤ zipCount k l
  | [], _, h, _ => h
  | (n, len) :: r, w, h, h' => by
    have h1 := h' (n, len) (by simp)
    have h2 := zipCount_le (l := r) h (fun p hp => h' p (by simp [hp]))
    simp only [zipCount]
    simp only at h1
    omega

theorem zipCount_ge {k : Nat} : ∀ {l : List (Nat × Nat)} {w : Nat},
    (k ≤ w ∨ ∃ p ∈ l, p.2 / p.1 ≤ w) → zipCount k l ≤ w
  | [], _, h => by rcases h with h | ⟨p, hp, _⟩
                   · exact h
                   · simp at hp
  | (n, len) :: r, w, h => by
    simp only [zipCount]
    rcases h with h | ⟨p, hp, hle⟩
    · have := zipCount_ge (l := r) (Or.inl h); omega
    · rcases List.mem_cons.1 hp with rfl | hp
      · simp only at hle; omega
      · have := zipCount_ge (k := k) (l := r) (Or.inr ⟨p, hp, hle⟩); omega

/-- The row of a source as a prefix of the chunk. -/
def Src.rowOf (w r : Nat) (s : Src) : Buf :=
  if s.cut then (chunk s.stride s.buf r).take (w * s.cn) else chunk s.stride s.buf r

theorem srcRows_ok {w h r B : Nat} (hr : r < h) : ∀ {srcs : List Src},
    (∀ s ∈ srcs, GoodSrc s w h B) → srcRows w r srcs = .ok (srcs.map (Src.rowOf w r))
  | [], _ => rfl
  | s :: ss, hs => by
    have g := hs s (by simp)
    have hc := chunk_length (fullRows_row g.plane.full hr)
    have hle := g.plane.cols_le
    have ih := srcRows_ok hr (srcs := ss) (fun s h => hs s (by simp [h]))
    have e : s.row w r = .ok (s.rowOf w r) := by
      unfold Src.row Src.rowOf
      split
      · exact slice_take (by omega)
      · rfl
    simp [srcRows, e, ih]

theorem rowOf_length {w h r B : Nat} (hr : r < h) {s : Src} (g : GoodSrc s w h B) :
    (s.rowOf w r).length = if s.cut then w * s.cn else s.stride := by
  have hc := chunk_length (fullRows_row g.plane.full hr)
  have hle := g.plane.cols_le
  unfold Src.rowOf
  split
  · rw [List.length_take]; omega
  · exact hc

theorem chunk_rowOf {w h r x B : Nat} (hx : x < w) {s : Src} (g : GoodSrc s w h B) :
    chunk s.cn (s.rowOf w r) x = pixelAt s.buf s.stride s.cn x r := by
  have hle := g.plane.cols_le
  have := succ_mul_le_of_lt s.cn hx
  apply List.ext_getElem?
  intro i
  rw [chunk_getElem?, pixelAt, List.getElem?_take]
  by_cases hi : i < s.cn
  · rw [if_pos hi, if_pos hi, List.getElem?_drop]
    have : x * s.cn + i < s.stride := by omega
    unfold Src.rowOf
    split
    · rw [List.getElem?_take, if_pos (by omega), chunk_getElem?, if_pos (by omega)]
      congr 1; omega
    · rw [chunk_getElem?, if_pos (by omega)]
      congr 1; omega
  · rw [if_neg hi, if_neg hi]

theorem pixels_rowOf {w h r x B : Nat} (hx : x < w) : ∀ {srcs : List Src},
    (∀ s ∈ srcs, GoodSrc s w h B) →
    pixels srcs (srcs.map (Src.rowOf w r)) x = pixelsAt srcs x r
  | [], _ => rfl
  | s :: ss, hs => by
    have ih := pixels_rowOf hx (r := r) (srcs := ss) (fun s h => hs s (by simp [h]))
    have e := chunk_rowOf (r := r) hx (hs s (by simp))
    simp only [pixels, pixelsAt] at ih
    simp [pixels, pixelsAt, e, ih]

theorem zip_map_mem {α β : Type} {f : α → β} : ∀ {l : List α} {s : α} {p : β},
    (s, p) ∈ l.zip (l.map f) → s ∈ l ∧ p = f s
  | [], _, _, h => by simp at h
  | a :: l, s, p, h => by
    simp only [List.map_cons, List.zip_cons_cons, List.mem_cons] at h
    rcases h with h | h
    · cases h; simp
    · have := zip_map_mem h
      exact ⟨by simp [this.1], this.2⟩

theorem pixelAt_length {buf : Buf} {stride cn x y w h B : Nat} (hx : x < w) (hy : y < h)
    (g : GoodPlane buf stride (w * cn) h B) : (pixelAt buf stride cn x y).length = cn := by
  have h1 := fullRows_row g.full hy
  have h2 := succ_mul_le_of_lt cn hx
  have h3 := g.cols_le
  simp only [pixelAt, List.length_take, List.length_drop]; omega

theorem pixelsAt_shape {w h B x y : Nat} (hx : x < w) (hy : y < h) {srcs : List Src}
    (hs : ∀ s ∈ srcs, GoodSrc s w h B) : PixelShape B srcs (pixelsAt srcs x y) := by
  refine ⟨by simp [pixelsAt], ?_⟩
  intro s p hm
  obtain ⟨h1, rfl⟩ := zip_map_mem hm
  have g := hs s h1
  exact ⟨pixelAt_length hx hy g.plane, bnd_take (bnd_drop g.plane.bound)⟩

/-- The body of the inner loop computes `F` on pixels of the right shape. -/
structure BodyOk (B cn : Nat) (srcs : List Src) (f : List Buf → Buf → Outcome Buf)
    (F : List Buf → Buf) : Prop where
  len : ∀ px, (F px).length = cn
  ok : ∀ px c, PixelShape B srcs px → c.length = cn → f px c = .ok (F px)

/-- The body computes `F` on the pixels of a particular image. -/
structure BodyAt (w h cn : Nat) (srcs : List Src) (f : List Buf → Buf → Outcome Buf)
    (F : List Buf → Buf) : Prop where
  len : ∀ px, (F px).length = cn
  ok : ∀ x y c, x < w → y < h → c.length = cn →
    f (pixelsAt srcs x y) c = .ok (F (pixelsAt srcs x y))

theorem BodyOk.on {w h B cn : Nat} {srcs : List Src} {f : List Buf → Buf → Outcome Buf}
    {F : List Buf → Buf} (hf : BodyOk B cn srcs f F) (hs : ∀ s ∈ srcs, GoodSrc s w h B) :
    BodyAt w h cn srcs f F :=
  ⟨hf.len, fun _ _ _ hx hy hc => hf.ok _ _ (pixelsAt_shape hx hy hs) hc⟩

/-- As `MapHandler.Ok`, with the relation of the finished row: `Q` holds of the pixels of the handler
and of what the scalar code (`F`) puts after them. -/
def MapHandler.Fills (hd : MapHandler) (B w cn : Nat) (srcs : List Src) (F : List Buf → Buf)
    (Q : Nat → List Buf → Buf → Prop) : Prop :=
  ∀ (rows : List Buf) (row : Buf), rows.length = srcs.length →
    (∀ s l, (s, l) ∈ srcs.zip rows → w * s.cn ≤ l.length ∧ ∀ a ∈ l, a < B) →
    w * cn ≤ row.length →
    ∃ row' cx, hd rows row = .ok (row', cx) ∧
      RowDone cn w 1 (fun x p => Q x (pixels srcs rows x) p) row row' cx ∧
      ∀ x, cx ≤ x → x < w → Q x (pixels srcs rows x) (F (pixels srcs rows x))

/-- As `MapHandler.Fills`, for handlers that depend on the length of the rows: the row of the
destination has `L` elements and the rows of the sources that are cut have exactly the pixels. -/
def MapHandler.FillsLen (hd : MapHandler) (L B w cn : Nat) (srcs : List Src) (F : List Buf → Buf)
    (Q : Nat → List Buf → Buf → Prop) : Prop :=
  ∀ (rows : List Buf) (row : Buf), rows.length = srcs.length →
    (∀ s l, (s, l) ∈ srcs.zip rows → w * s.cn ≤ l.length ∧ ∀ a ∈ l, a < B) →
    (∀ s l, (s, l) ∈ srcs.zip rows → s.cut = true → l.length = w * s.cn) →
    w * cn ≤ row.length → row.length = L →
    ∃ row' cx, hd rows row = .ok (row', cx) ∧
      RowDone cn w 1 (fun x p => Q x (pixels srcs rows x) p) row row' cx ∧
      ∀ x, cx ≤ x → x < w → Q x (pixels srcs rows x) (F (pixels srcs rows x))

theorem MapHandler.Fills.len {hd : MapHandler} {B w cn : Nat} {srcs : List Src} {F : List Buf → Buf}
    {Q : Nat → List Buf → Buf → Prop} (h : hd.Fills B w cn srcs F Q) (L : Nat) :
    hd.FillsLen L B w cn srcs F Q := fun rows row h1 h2 _ h3 _ => h rows row h1 h2 h3

theorem MapHandler.Ok.fills {hd : MapHandler} {B w cn : Nat} {srcs : List Src}
    {R : List Buf → Buf → Prop} (h : hd.Ok B w cn srcs R) (F : List Buf → Buf) :
    hd.Fills B w cn srcs F (fun _ px p => p = F px ∨ R px p) := by
  intro rows row h1 h2 h3
  obtain ⟨row', cx, e, hdone⟩ := h rows row h1 h2 h3
  exact ⟨row', cx, e, rowDone_imp hdone fun _ _ _ => Or.inr, fun _ _ _ => Or.inl rfl⟩

/-- What `MapHandler.FillsLen` says of one row. -/
def MapHandler.FillsRow (hd : MapHandler) (w cn : Nat) (srcs : List Src) (F : List Buf → Buf)
    (Q : Nat → List Buf → Buf → Prop) (rows : List Buf) (row : Buf) : Prop :=
  ∃ row' cx, hd rows row = .ok (row', cx) ∧
    RowDone cn w 1 (fun x p => Q x (pixels srcs rows x) p) row row' cx ∧
    ∀ x, cx ≤ x → x < w → Q x (pixels srcs rows x) (F (pixels srcs rows x))

theorem MapHandler.FillsLen.row {w h r B cn stride : Nat} (hr : r < h) {srcs : List Src}
    (hs : ∀ s ∈ srcs, GoodSrc s w h B) {F : List Buf → Buf} {Q : Nat → List Buf → Buf → Prop}
    {hd : MapHandler} (hhd : hd.FillsLen stride B w cn srcs F Q) {row : Buf}
    (hrow : row.length = stride) (hw : w * cn ≤ stride) :
    hd.FillsRow w cn srcs F Q (srcs.map (Src.rowOf w r)) row :=
  hhd (srcs.map (Src.rowOf w r)) row (by simp) (by
    intro s l hm
    obtain ⟨h1, rfl⟩ := zip_map_mem hm
    have g := hs s h1
    have := g.plane.cols_le
    refine ⟨?_, ?_⟩
    · rw [rowOf_length hr g]; split <;> omega
    · unfold Src.rowOf
      split
      · exact bnd_take (bnd_chunk g.plane.bound)
      · exact bnd_chunk g.plane.bound) (by
    intro s l hm hc
    obtain ⟨h1, rfl⟩ := zip_map_mem hm
    rw [rowOf_length hr (hs s h1), if_pos hc]) (by omega) hrow

theorem mapRow_q {w h r B cn stride : Nat} (hcn : 0 < cn) (hr : r < h) {srcs : List Src}
    (hs : ∀ s ∈ srcs, GoodSrc s w h B) {f : List Buf → Buf → Outcome Buf} {F : List Buf → Buf}
    (hf : BodyAt w h cn srcs f F) {Q : Nat → List Buf → Buf → Prop} {hd : MapHandler} {row : Buf}
    (hhd : hd.FillsRow w cn srcs F Q (srcs.map (Src.rowOf w r)) row) (hrow : row.length = stride) (hw : w * cn ≤ stride)
    (hcut : stride = w * cn ∨ ∃ s ∈ srcs, s.cut = true) :
    RowOk cn w (fun x p => Q x (pixelsAt srcs x r) p) row
      (mapRow cn hd f srcs (srcs.map (Src.rowOf w r)) row) := by
  obtain ⟨row', cx, e, hdone, hF⟩ := hhd
  obtain ⟨vp, v1, v2, v3, v4, v5⟩ := rowDone_paint hcn (by omega) hdone
  unfold mapRow
  rw [e, Outcome.bind_ok]
  simp only
  have hlr : row'.length = stride := by
    rw [v5, paintRow_length v1 (by rw [hrow]; exact Nat.le_trans (Nat.mul_le_mul_right _ v3) hw),
      hrow]
  have hk : zipCount (row'.length / cn)
      (List.zipWith (fun s l => (s.cn, l.length)) srcs (srcs.map (Src.rowOf w r))) = w := by
    have hz : List.zipWith (fun s l => (s.cn, l.length)) srcs (srcs.map (Src.rowOf w r))
        = srcs.map (fun s => (s.cn, (s.rowOf w r).length)) := by
      clear hs hf e hdone hcut v2 hF
      induction srcs with
      | nil => rfl
      | cons a l ih => simp only [List.map_cons, List.zipWith_cons_cons, ih]
    rw [hz, hlr]
    apply Nat.le_antisymm
    · apply zipCount_ge
      rcases hcut with h | ⟨s, h1, h2⟩
      · left; rw [h, Nat.mul_div_cancel _ hcn]
      · right
        refine ⟨_, List.mem_map_of_mem h1, ?_⟩
        have g := hs s h1
        simp only
        rw [rowOf_length hr g, if_pos h2, Nat.mul_div_cancel _ g.cn_pos]
    · apply zipCount_le
      · exact (Nat.le_div_iff_mul_le hcn).2 hw
      · intro p hp
        obtain ⟨s, h1, rfl⟩ := List.mem_map.1 hp
        have g := hs s h1
        have := g.plane.cols_le
        simp only
        rw [Nat.le_div_iff_mul_le g.cn_pos, rowOf_length hr g]
        split <;> omega
  rw [hk, v5]
  have hpx : ∀ x, x < w → pixels srcs (srcs.map (Src.rowOf w r)) x = pixelsAt srcs x r :=
    fun x hx => pixels_rowOf hx hs
  have := rowSingles_rel (guard := false) (w := w) (cn := cn) (cx := cx) (k := w) hcn
    (p := fun x c => f (pixels srcs (srcs.map (Src.rowOf w r)) x) c)
    (R := fun x p => Q x (pixelsAt srcs x r) p)
    (vp := vp) (px := fun x => F (pixelsAt srcs x r)) (row := row) (by omega) v1
    (fun x hx => by have := v2 x hx; rwa [hpx x (by omega)] at this) v3 rfl
    (fun x => hf.len _) (fun x h1 h2 => by have := hF x h1 h2; rwa [hpx x h2] at this)
    (fun x c hx hc => by rw [hpx x hx]; exact hf.ok _ _ _ hx hr hc)
  simpa [rowSingles] using this

/-- The frame of a pixelwise converter whose handler is right on the rows of the image. -/
theorem mapFrame_rows {cutDst : Bool} {w h B cn stride : Nat} (hw0 : 0 < w) (hcn : 0 < cn)
    {srcs : List Src}
    (hs : ∀ s ∈ srcs, GoodSrc s w h B) {f : List Buf → Buf → Outcome Buf} {F : List Buf → Buf}
    (hf : BodyAt w h cn srcs f F) {Q : Nat → List Buf → Buf → Prop} {hd : MapHandler}
    (hhd : ∀ r row, r < h → row.length = (if cutDst then w * cn else stride) →
      hd.FillsRow w cn srcs F Q (srcs.map (Src.rowOf w r)) row)
    {dst : Buf} (hw : w * cn ≤ stride)
    (hdst : FullRows dst.length stride h)
    (hcut : cutDst = true ∨ ∃ s ∈ srcs, s.cut = true) :
    FrameOk stride h cn w (fun x y p => Q x (pixelsAt srcs x y) p) dst
      (mapFrame cutDst w cn hd f srcs dst stride) := by
  have hst : 0 < stride := Nat.lt_of_lt_of_le (Nat.mul_pos hw0 hcn) hw
  have hpos : ∀ s ∈ srcs, 0 < s.stride := fun s hm =>
    Nat.lt_of_lt_of_le (Nat.mul_pos hw0 (hs s hm).cn_pos) (hs s hm).plane.cols_le
  unfold mapFrame
  rw [if_neg (by
    simp only [List.any_eq_true, beq_iff_eq, not_exists, not_and]
    intro s hm; have := hpos s hm; omega)]
  have hk : zipCount (dst.length / stride) (srcs.map (fun s => (s.stride, s.buf.length))) = h := by
    apply Nat.le_antisymm
    · exact zipCount_ge (Or.inl (by rw [fullRows_div hdst]))
    · apply zipCount_le
      · rw [fullRows_div hdst]
      · intro p hp
        obtain ⟨s, h1, rfl⟩ := List.mem_map.1 hp
        simp only
        rw [fullRows_div (hs s h1).plane.full]
  rw [hk]
  refine eachChunk_rows hst hw (by omega) (by rw [Nat.mul_comm]; exact hdst.1) ?_
  intro r row _ hr hrow
  rw [srcRows_ok hr hs, Outcome.bind_ok]
  cases cutDst with
  | true =>
    rw [if_pos rfl]
    apply rowOk_prefix (by omega)
    exact mapRow_q (stride := w * cn) hcn hr hs hf
      (hhd r _ hr (by rw [List.length_take, if_pos rfl]; omega)) (by rw [List.length_take]; omega)
      (by omega) (Or.inl rfl)
  | false =>
    rw [if_neg (by simp)]
    exact mapRow_q hcn hr hs hf (hhd r row hr (by simpa using hrow)) hrow hw (Or.inr (by simpa using hcut))

/-- The frame of a pixelwise converter. -/
theorem mapFrame_q' {cutDst : Bool} {w h B cn stride : Nat} (hw0 : 0 < w) (hcn : 0 < cn)
    {srcs : List Src}
    (hs : ∀ s ∈ srcs, GoodSrc s w h B) {f : List Buf → Buf → Outcome Buf} {F : List Buf → Buf}
    (hf : BodyAt w h cn srcs f F) {Q : Nat → List Buf → Buf → Prop} {hd : MapHandler}
    (hhd : hd.FillsLen (if cutDst then w * cn else stride) B w cn srcs F Q) {dst : Buf} (hw : w * cn ≤ stride)
    (hdst : FullRows dst.length stride h)
    (hcut : cutDst = true ∨ ∃ s ∈ srcs, s.cut = true) :
    FrameOk stride h cn w (fun x y p => Q x (pixelsAt srcs x y) p) dst
      (mapFrame cutDst w cn hd f srcs dst stride) :=
  mapFrame_rows hw0 hcn hs hf
    (fun r row hr hrow => hhd.row hr hs hrow (by split <;> omega)) hw hdst hcut

theorem mapFrame_q {cutDst : Bool} {w h B cn stride : Nat} (hw0 : 0 < w) (hcn : 0 < cn)
    {srcs : List Src}
    (hs : ∀ s ∈ srcs, GoodSrc s w h B) {f : List Buf → Buf → Outcome Buf} {F : List Buf → Buf}
    (hf : BodyAt w h cn srcs f F) {Q : Nat → List Buf → Buf → Prop} {hd : MapHandler}
    (hhd : hd.Fills B w cn srcs F Q) {dst : Buf} (hw : w * cn ≤ stride)
    (hdst : FullRows dst.length stride h)
    (hcut : cutDst = true ∨ ∃ s ∈ srcs, s.cut = true) :
    FrameOk stride h cn w (fun x y p => Q x (pixelsAt srcs x y) p) dst
      (mapFrame cutDst w cn hd f srcs dst stride) :=
  mapFrame_q' hw0 hcn hs hf (hhd.len _) hw hdst hcut

/-- The frame of a handler that needs rows cut to the width. -/
theorem mapFrame_cut {w h B cn stride : Nat} (hw0 : 0 < w) (hcn : 0 < cn)
    {srcs : List Src}
    (hs : ∀ s ∈ srcs, GoodSrc s w h B) {f : List Buf → Buf → Outcome Buf} {F : List Buf → Buf}
    (hf : BodyOk B cn srcs f F) {Q : Nat → List Buf → Buf → Prop} {hd : MapHandler}
    (hhd : hd.FillsLen (w * cn) B w cn srcs F Q) {dst : Buf} (hw : w * cn ≤ stride)
    (hdst : FullRows dst.length stride h) :
    ∃ out, mapFrame true w cn hd f srcs dst stride = .ok out ∧
      FrameRel out dst stride w h cn (fun x y p => Q x (pixelsAt srcs x y) p) :=
  (mapFrame_q' (cutDst := true) hw0 hcn hs (hf.on hs) hhd hw hdst (Or.inl rfl)).spec hcn
    (Nat.lt_of_lt_of_le (Nat.mul_pos hw0 hcn) hw) hw hdst.1

/-- The frame when the pixels are related column by column. -/
theorem mapFrame_cols {cutDst : Bool} {w h B cn stride : Nat} (hw0 : 0 < w) (hcn : 0 < cn)
    {srcs : List Src}
    (hs : ∀ s ∈ srcs, GoodSrc s w h B) {f : List Buf → Buf → Outcome Buf} {F : List Buf → Buf}
    (hf : BodyOk B cn srcs f F) {Q : Nat → List Buf → Buf → Prop} {hd : MapHandler}
    (hhd : hd.Fills B w cn srcs F Q) {dst : Buf} (hw : w * cn ≤ stride)
    (hdst : FullRows dst.length stride h)
    (hcut : cutDst = true ∨ ∃ s ∈ srcs, s.cut = true) :
    ∃ out, mapFrame cutDst w cn hd f srcs dst stride = .ok out ∧
      FrameRel out dst stride w h cn (fun x y p => Q x (pixelsAt srcs x y) p) :=
  (mapFrame_q hw0 hcn hs (hf.on hs) hhd hw hdst hcut).spec hcn
    (Nat.lt_of_lt_of_le (Nat.mul_pos hw0 hcn) hw) hw hdst.1

theorem mapFrame_at {cutDst : Bool} {w h B cn stride : Nat} (hw0 : 0 < w) (hcn : 0 < cn)
    {srcs : List Src}
    (hs : ∀ s ∈ srcs, GoodSrc s w h B) {f : List Buf → Buf → Outcome Buf} {F : List Buf → Buf}
    (hf : BodyAt w h cn srcs f F) {R : List Buf → Buf → Prop} {hd : MapHandler}
    (hhd : hd.Ok B w cn srcs R) {dst : Buf} (hw : w * cn ≤ stride)
    (hdst : FullRows dst.length stride h)
    (hcut : cutDst = true ∨ ∃ s ∈ srcs, s.cut = true) :
    ∃ out, mapFrame cutDst w cn hd f srcs dst stride = .ok out ∧
      FrameRel out dst stride w h cn
        (fun x y p => p = F (pixelsAt srcs x y) ∨ R (pixelsAt srcs x y) p) :=
  (mapFrame_q hw0 hcn hs hf (hhd.fills F) hw hdst hcut).spec hcn
    (Nat.lt_of_lt_of_le (Nat.mul_pos hw0 hcn) hw) hw hdst.1

theorem mapFrame_spec {cutDst : Bool} {w h B cn stride : Nat} (hw0 : 0 < w) (hcn : 0 < cn)
    {srcs : List Src}
    (hs : ∀ s ∈ srcs, GoodSrc s w h B) {f : List Buf → Buf → Outcome Buf} {F : List Buf → Buf}
    (hf : BodyOk B cn srcs f F) {R : List Buf → Buf → Prop} {hd : MapHandler}
    (hhd : hd.Ok B w cn srcs R) {dst : Buf} (hw : w * cn ≤ stride)
    (hdst : FullRows dst.length stride h)
    (hcut : cutDst = true ∨ ∃ s ∈ srcs, s.cut = true) :
    ∃ out, mapFrame cutDst w cn hd f srcs dst stride = .ok out ∧
      FrameRel out dst stride w h cn
        (fun x y p => p = F (pixelsAt srcs x y) ∨ R (pixelsAt srcs x y) p) :=
  mapFrame_at hw0 hcn hs (hf.on hs) hhd hw hdst hcut

/-- A one-element pixel is the sample. -/
theorem pixelAt_one {buf : Buf} {stride x y w h B : Nat} (hx : x < w) (hy : y < h)
    (g : GoodPlane buf stride w h B) : pixelAt buf stride 1 x y = [at' buf stride x y] := by
  have h1 := fullRows_row g.full hy
  have h3 := g.cols_le
  apply List.ext_getElem?
  intro i
  rw [pixelAt, List.getElem?_take]
  by_cases hi : i < 1
  · obtain rfl : i = 0 := by omega
    rw [if_pos hi, List.getElem?_drop]
    simp only [at', Nat.mul_one, Nat.add_zero, List.getD_eq_getElem?_getD]
    have : y * stride + x < buf.length := by omega
    simp [List.getElem?_eq_getElem this]
  · rw [if_neg hi, List.getElem?_eq_none (by simp; omega)]

/-- A source of one element per pixel. -/
theorem goodSrc_plane {buf : Buf} {stride w h B : Nat} {cut : Bool}
    (g : GoodPlane buf stride w h B) : GoodSrc ⟨buf, stride, 1, cut⟩ w h B :=
  ⟨by simp, by simpa using g⟩

end Verif
