import Verif.Spec.Alpha
import Verif.Lemmas.DeepFrames
import Verif.Lemmas.Good
/-! # The loops of the decoders with an alpha plane -/
namespace Verif
open Spec

theorem noAlphaSimd_ok {B cn w hd : Nat} :
    noAlphaSimd.Ok B cn w hd (fun _ _ _ _ _ => False) := by
  intro y u v a row _ _ _ _ _ _ _ _ _
  refine ⟨row, 0, rfl, by omega, Or.inl (by simp), rfl, ?_, fun _ _ => rfl⟩
  intro x y hx; omega

/-- `put` succeeds with `px` on samples below `B`. -/
structure AlphaPutOk (B cn : Nat) (put : AlphaPut) (px : Nat → Nat → Nat → Nat → Buf) : Prop where
  ok : ∀ y u v a c, y < B → u < B → v < B → a < B → c.length = cn → put y u v a c = .ok (px y u v a)
  len : ∀ y u v a, (px y u v a).length = cn

/-- Pixel relation of a frame. -/
def AlphaRel (i : PlanarAlpha) (s : Sampling) (px : Nat → Nat → Nat → Nat → Buf)
    (R : Nat → Nat → Nat → Nat → Buf → Prop) (x y : Nat) (p : Buf) : Prop :=
  p = px (at' i.y i.yStride x y) (at' i.u i.uStride (x / hdiv s) (y / vdiv s))
      (at' i.v i.vStride (x / hdiv s) (y / vdiv s)) (at' i.a i.aStride x y) ∨
  R (at' i.y i.yStride x y) (at' i.u i.uStride (x / hdiv s) (y / vdiv s))
      (at' i.v i.vStride (x / hdiv s) (y / vdiv s)) (at' i.a i.aStride x y) p

/-- Pixel relation of a frame whose vector code depends on the column. -/
def AlphaRelQ (i : PlanarAlpha) (s : Sampling) (Q : Nat → Nat → Nat → Nat → Nat → Buf → Prop)
    (x y : Nat) (p : Buf) : Prop :=
  Q x (at' i.y i.yStride x y) (at' i.u i.uStride (x / hdiv s) (y / vdiv s))
      (at' i.v i.vStride (x / hdiv s) (y / vdiv s)) (at' i.a i.aStride x y) p

/-- As `AlphaRelQ`, with the alpha of column `src x`. -/
def AlphaRelS (i : PlanarAlpha) (s : Sampling) (src : Nat → Nat)
    (Q : Nat → Nat → Nat → Nat → Nat → Buf → Prop) (x y : Nat) (p : Buf) : Prop :=
  Q x (at' i.y i.yStride x y) (at' i.u i.uStride (x / hdiv s) (y / vdiv s))
      (at' i.v i.vStride (x / hdiv s) (y / vdiv s)) (at' i.a i.aStride (src x) y) p

/-- As `RowHandler.Fills`. -/
def AlphaHandler.Fills (f : AlphaHandler) (g : Bool) (B cn w hd : Nat)
    (px : Nat → Nat → Nat → Nat → Buf) (Q : Nat → Nat → Nat → Nat → Nat → Buf → Prop) : Prop :=
  ∀ y u v a row : Buf, (∀ s ∈ y, s < B) → (∀ s ∈ u, s < B) → (∀ s ∈ v, s < B) →
    (∀ s ∈ a, s < B) →
    w ≤ y.length → (w - 1) / hd + 1 ≤ u.length → (w - 1) / hd + 1 ≤ v.length → w ≤ a.length →
    w * cn ≤ row.length →
    ∃ row' cx, f y u v a row = .ok (row', cx) ∧
      RowDone cn w hd
        (fun x p => Q x (y.getD x 0) (u.getD (x / hd) 0) (v.getD (x / hd) 0) (a.getD x 0) p)
        row row' cx ∧
      ∀ x, ScalarCol g cx w x → x < w →
        Q x (y.getD x 0) (u.getD (x / hd) 0) (v.getD (x / hd) 0) (a.getD x 0)
          (px (y.getD x 0) (u.getD (x / hd) 0) (v.getD (x / hd) 0) (a.getD x 0))

/-- Two rows of the same length that agree from element `n` on. -/
def SamePast (n : Nat) (l m : Buf) : Prop := m.length = l.length ∧ ∀ k, n ≤ k → m[k]? = l[k]?

/-- As `AlphaHandler.Fills`, with the alpha of column `src x`, and free to leave anything in the
columns it does not complete. -/
def AlphaHandler.FillsFrom (f : AlphaHandler) (src : Nat → Nat) (g : Bool) (B cn w hd : Nat)
    (px : Nat → Nat → Nat → Nat → Buf) (Q : Nat → Nat → Nat → Nat → Nat → Buf → Prop) : Prop :=
  ∀ y u v a row : Buf, (∀ s ∈ y, s < B) → (∀ s ∈ u, s < B) → (∀ s ∈ v, s < B) →
    (∀ s ∈ a, s < B) →
    w ≤ y.length → (w - 1) / hd + 1 ≤ u.length → (w - 1) / hd + 1 ≤ v.length → w ≤ a.length →
    w * cn ≤ row.length →
    ∃ mid row' cx, f y u v a row = .ok (row', cx) ∧ SamePast (w * cn) row mid ∧
      RowDone cn w hd
        (fun x p => Q x (y.getD x 0) (u.getD (x / hd) 0) (v.getD (x / hd) 0) (a.getD (src x) 0) p)
        mid row' cx ∧
      ∀ x, ScalarCol g cx w x → x < w →
        Q x (y.getD x 0) (u.getD (x / hd) 0) (v.getD (x / hd) 0) (a.getD (src x) 0)
          (px (y.getD x 0) (u.getD (x / hd) 0) (v.getD (x / hd) 0) (a.getD x 0))

theorem AlphaHandler.Fills.from {f : AlphaHandler} {g : Bool} {B cn w hd : Nat}
    {px : Nat → Nat → Nat → Nat → Buf} {Q : Nat → Nat → Nat → Nat → Nat → Buf → Prop}
    (h : f.Fills g B cn w hd px Q) : f.FillsFrom (fun x => x) g B cn w hd px Q := by
  intro y u v a row hy hu hv ha ly lu lv la lr
  obtain ⟨row', cx, e, h1, h2⟩ := h y u v a row hy hu hv ha ly lu lv la lr
  exact ⟨row, row', cx, e, ⟨rfl, fun _ _ => rfl⟩, h1, h2⟩

theorem AlphaHandler.Ok.fills {f : AlphaHandler} {B cn w hd : Nat}
    {R : Nat → Nat → Nat → Nat → Buf → Prop} (h : f.Ok B cn w hd R) (g : Bool)
    (px : Nat → Nat → Nat → Nat → Buf) :
    f.Fills g B cn w hd px (fun _ y u v a p => p = px y u v a ∨ R y u v a p) := by
  intro y u v a row hy hu hv ha ly lu lv la lr
  obtain ⟨row', cx, e, hd⟩ := h y u v a row hy hu hv ha ly lu lv la lr
  exact ⟨row', cx, e, rowDone_imp hd fun _ _ _ => Or.inr, fun _ _ _ => Or.inl rfl⟩

/-- What the first `w` pixels held before does not matter. -/
theorem rowOk_past {cn w : Nat} (hcn : 0 < cn) {R : Nat → Buf → Prop} {row mid : Buf}
    {o : Outcome Buf} (hw : w * cn ≤ row.length) (hs : SamePast (w * cn) row mid)
    (h : RowOk cn w R mid o) : RowOk cn w R row o := by
  obtain ⟨pix, h1, h2, h3⟩ := h
  refine ⟨pix, h1, h2, h3.trans (congrArg _ ?_)⟩
  apply List.ext_getElem?
  intro k
  unfold paintRow
  rw [mapChunks_getElem? hcn (fun j _ _ => h1 j) (by omega) (by rw [hs.1]; omega),
    mapChunks_getElem? hcn (fun j _ _ => h1 j) (by omega) (by omega)]
  by_cases hk : 0 * cn ≤ k ∧ k < w * cn
  · rw [if_pos hk, if_pos hk]
  · rw [if_neg hk, if_neg hk]
    exact hs.2 k (by omega)

/-- What the loops rely on besides the pixel arithmetic. -/
structure AlphaRows (i : PlanarAlpha) (s : Sampling) (B : Nat) : Prop where
  p : PlanarRows (opaqueImage i) s B
  aw : i.width ≤ i.aStride
  ar : FullRows i.a.length i.aStride i.height
  ab : ∀ a ∈ i.a, a < B

theorem Spec.GoodPlanarAlpha.opaque {i : PlanarAlpha} {s : Sampling} {B : Nat}
    (h : GoodPlanarAlpha i s B) : GoodPlanar (opaqueImage i) s B :=
  ⟨h.wpos, h.hpos, h.w32, h.h32, h.y, h.u, h.v⟩

theorem Spec.GoodPlanarAlpha.rows {i : PlanarAlpha} {s : Sampling} {B : Nat}
    (h : GoodPlanarAlpha i s B) : AlphaRows i s B :=
  ⟨h.opaque.rows, h.a.cols_le, h.a.full, h.a.bound⟩

theorem forChunks_congr_lt {n : Nat} {f g : Nat → Buf → Outcome Buf} :
    ∀ (k j : Nat) (l : Buf), k * n ≤ l.length →
      (∀ t c, j ≤ t → t < j + k → c.length = n → f t c = g t c) →
      forChunks n f k j l = forChunks n g k j l := by
  intro k
  induction k with
  | zero => intros; rfl
  | succ k ih =>
    intro j l hl h
    rw [Nat.succ_mul] at hl
    simp only [forChunks]
    rw [h j _ (by omega) (by omega) (by rw [List.length_take]; omega),
      ih (j + 1) (l.drop n) (by rw [List.length_drop]; omega)
        (fun t c h1 h2 h3 => h t c (by omega) (by omega) h3)]

theorem eachChunk_congr {n k : Nat} {f g : Nat → Buf → Outcome Buf} {l : Buf}
    (hl : k * n ≤ l.length) (h : ∀ t c, t < k → c.length = n → f t c = g t c) :
    eachChunk n 0 k f l = eachChunk n 0 k g l := by
  unfold eachChunk
  rw [forChunks_congr_lt (k - 0) 0 _ (by simpa using hl) (fun t c _ h2 h3 => h t c (by omega) h3)]

section
variable {guard : Bool} {B cn stride : Nat} {put : AlphaPut} {px : Nat → Nat → Nat → Nat → Buf}
  {Q : Nat → Nat → Nat → Nat → Nat → Buf → Prop} {hd : AlphaHandler} {i : PlanarAlpha} {rgba : Buf}
  {src : Nat → Nat}

theorem alphaHalvedRow_src {w : Nat} (hcn : 0 < cn) (hw : 0 < w) (hput : AlphaPutOk B cn put px)
    (hhd : hd.FillsFrom src guard B cn w 2 px Q) {y u v a row : Buf} (ly : y.length = w) (lu : u.length = ceil2 w)
    (lv : v.length = ceil2 w) (la : a.length = w) (by' : ∀ s ∈ y, s < B) (bu : ∀ s ∈ u, s < B)
    (bv : ∀ s ∈ v, s < B) (ba : ∀ s ∈ a, s < B) (lr : row.length = w * cn) :
    RowOk cn w (fun x p =>
      Q x (y.getD x 0) (u.getD (x / 2) 0) (v.getD (x / 2) 0) (a.getD (src x) 0) p) row
      (alphaHalvedRow guard w cn put hd y u v a row) := by
  have hc2 : (w - 1) / 2 + 1 = ceil2 w := by unfold ceil2; omega
  obtain ⟨mid, row', cx, e, hmid, hdone, hpq⟩ := hhd y u v a row by' bu bv ba (by omega) (by omega)
    (by omega) (by omega) (by omega)
  refine rowOk_past hcn (by omega) hmid ?_
  replace lr : mid.length = w * cn := by rw [hmid.1, lr]
  obtain ⟨vp, v1, v2, v3, v4, v5⟩ := rowDone_paint hcn (by omega) hdone
  have lc : ceil2 w = (w + 1) / 2 := rfl
  unfold alphaHalvedRow
  rw [e, Outcome.bind_ok]
  simp only
  have hlr : row'.length = w * cn := by
    rw [v5, paintRow_length v1 (by rw [lr]; exact Nat.mul_le_mul_right _ v3), lr]
  have hk : row'.length / (2 * cn) = w / 2 := by
    rw [hlr, Nat.mul_comm 2 cn, ← Nat.div_div_eq_div_mul, Nat.mul_div_cancel _ hcn]
  have hk2 : min5 (row'.length / (2 * cn)) (y.length / 2) u.length v.length (a.length / 2)
      = w / 2 := by
    rw [hk, ly, lu, lv, la]; unfold min5 min4 ceil2; omega
  rw [hk2, v5]
  refine rowPairs_rel hcn
    (px := fun x => px (y.getD x 0) (u.getD (x / 2) 0) (v.getD (x / 2) 0) (a.getD x 0))
    lr v1 v2 v3 v4 rfl
    (fun x => hput.len ..) hpq ?_ ?_ ?_
  · intro j c hj hc
    rw [idx_ok (by omega), idx_ok (by omega), idx_ok (by omega), idx_ok (by omega)]
    simp only [Outcome.bind_ok]
    rw [hput.ok _ _ _ _ _ (bnd_getD by' (by omega)) (bnd_getD bu (by omega))
      (bnd_getD bv (by omega)) (bnd_getD ba (by omega)) hc, show 2 * j / 2 = j by omega]
  · intro j c hj hc
    rw [idx_ok (by omega), idx_ok (by omega), idx_ok (by omega), idx_ok (by omega)]
    simp only [Outcome.bind_ok]
    rw [hput.ok _ _ _ _ _ (bnd_getD by' (by omega)) (bnd_getD bu (by omega))
      (bnd_getD bv (by omega)) (bnd_getD ba (by omega)) hc, show (2 * j + 1) / 2 = j by omega]
  · intro c hodd hc
    rw [lastElem_ok (by omega), lastElem_ok (by omega), lastElem_ok (by omega),
      lastElem_ok (by omega)]
    simp only [Outcome.bind_ok]
    rw [hput.ok _ _ _ _ _ (bnd_getD by' (by omega)) (bnd_getD bu (by omega))
      (bnd_getD bv (by omega)) (bnd_getD ba (by omega)) hc, ly, lu, lv, la,
      show ceil2 w - 1 = (w - 1) / 2 by omega]

theorem alphaHalvedSlice_src {s : Sampling} {r rc : Nat} (hs : hdiv s = 2)
    (hp : AlphaRows i s B) (hcn : 0 < cn) (hsrc : ∀ x, x < i.width → src x < i.width)
    (hput : AlphaPutOk B cn put px)
    (hhd : hd.FillsFrom src guard B cn i.width 2 px Q) (hw : i.width * cn ≤ stride)
    (hr : r < i.height) (hrc : rc = r / vdiv s) {row : Buf} (hrow : row.length = stride) :
    RowOk cn i.width (fun x p => AlphaRelS i s src Q x r p) row
      (alphaHalvedSlice guard i.width cn put hd (chunk i.yStride i.y r) (chunk i.uStride i.u rc)
        (chunk i.vStride i.v rc) (chunk i.aStride i.a r) row) := by
  obtain ⟨⟨hwp, _, hyw, huw, hvw, yr, ur, vr, yb, ub, vb⟩, haw, ar, ab⟩ := hp
  simp only [opaqueImage] at hwp hyw huw hvw yr ur vr yb ub vb
  have hcw : s.chromaWidth i.width = ceil2 i.width := by
    cases s <;> simp_all [hdiv, Sampling.chromaWidth]
  have hrc' : rc < s.chromaHeight i.height := by rw [hrc]; exact div_vdiv_lt hr
  have cy := chunk_length (fullRows_row yr hr)
  have cu := chunk_length (fullRows_row ur hrc')
  have cv := chunk_length (fullRows_row vr hrc')
  have ca := chunk_length (fullRows_row ar hr)
  rw [hcw] at huw hvw
  unfold alphaHalvedSlice
  rw [slice_take (by omega), slice_take (by omega), slice_take (by omega), slice_take (by omega)]
  simp only [Outcome.bind_ok]
  apply rowOk_prefix (by omega)
  refine RowOk.mono (alphaHalvedRow_src hcn hwp hput hhd
    (by rw [List.length_take]; omega) (by rw [List.length_take]; omega)
    (by rw [List.length_take]; omega) (by rw [List.length_take]; omega)
    (bnd_take (bnd_chunk yb)) (bnd_take (bnd_chunk ub))
    (bnd_take (bnd_chunk vb)) (bnd_take (bnd_chunk ab)) (by rw [List.length_take]; omega)) ?_
  intro x p hx
  have hx2 : x / 2 < ceil2 i.width := by unfold ceil2; omega
  rw [row_getD hx hyw, row_getD hx2 huw, row_getD hx2 hvw, row_getD (hsrc x hx) haw]
  unfold AlphaRelS
  rw [hs, ← hrc]
  exact id

theorem alpha422_src (hp : AlphaRows i .yuv422 B) (hcn : 0 < cn)
    (hsrc : ∀ x, x < i.width → src x < i.width) (hput : AlphaPutOk B cn put px)
    (hhd : hd.FillsFrom src guard B cn i.width 2 px Q) (hw : i.width * cn ≤ stride)
    (hd' : FullRows rgba.length stride i.height) :
    FrameOk stride i.height cn i.width (AlphaRelS i .yuv422 src Q) rgba
      (alpha422 true guard cn put hd i rgba stride) := by
  have hst : 0 < stride := Nat.lt_of_lt_of_le (Nat.mul_pos hp.p.wpos hcn) hw
  have hk : min5 (rgba.length / stride) (i.y.length / i.yStride) (i.a.length / i.aStride)
      (i.u.length / i.uStride) (i.v.length / i.vStride) = i.height := by
    have h1 := fullRows_div hp.p.yr
    have h2 := fullRows_div hp.p.ur
    have h3 := fullRows_div hp.p.vr
    simp only [opaqueImage] at h1 h2 h3
    rw [fullRows_div hd', fullRows_div hp.ar, h1, h2, h3]
    simp [min5, min4, Sampling.chromaHeight]
  unfold alpha422
  rw [hk]
  refine eachChunk_rows hst hw (by omega) (by rw [Nat.mul_comm]; exact hd'.1) ?_
  intro r c _ hr hc
  exact alphaHalvedSlice_src rfl hp hcn hsrc hput hhd hw hr (by simp [vdiv]) hc

/-- Without padding it makes no difference whether rows are cut. -/
theorem alpha422_tight (hp : AlphaRows i .yuv422 B)
    (hd' : FullRows rgba.length stride i.height) (hst : stride = i.width * cn)
    (hy : i.yStride = i.width) (hu : i.uStride = ceil2 i.width) (hv : i.vStride = ceil2 i.width)
    (ha : i.aStride = i.width) :
    alpha422 false guard cn put hd i rgba stride = alpha422 true guard cn put hd i rgba stride := by
  have hk : min5 (rgba.length / stride) (i.y.length / i.yStride) (i.a.length / i.aStride)
      (i.u.length / i.uStride) (i.v.length / i.vStride) = i.height := by
    have h1 := fullRows_div hp.p.yr
    have h2 := fullRows_div hp.p.ur
    have h3 := fullRows_div hp.p.vr
    simp only [opaqueImage] at h1 h2 h3
    rw [fullRows_div hd', fullRows_div hp.ar, h1, h2, h3]
    simp [min5, min4, Sampling.chromaHeight]
  unfold alpha422
  rw [hk]
  refine eachChunk_congr (by rw [Nat.mul_comm]; exact hd'.1) ?_
  intro r c hr hc
  have cy := chunk_length (fullRows_row hp.p.yr hr)
  have cu := chunk_length (fullRows_row hp.p.ur hr)
  have cv := chunk_length (fullRows_row hp.p.vr hr)
  have ca := chunk_length (fullRows_row hp.ar hr)
  simp only [opaqueImage] at cy cu cv
  simp only [if_true, Bool.false_eq_true, if_false]
  unfold alphaHalvedSlice
  rw [slice_take (by omega), slice_take (by omega), slice_take (by omega), slice_take (by omega),
    List.take_of_length_le (by omega), List.take_of_length_le (by omega),
    List.take_of_length_le (by omega), List.take_of_length_le (by omega)]
  simp only [Outcome.bind_ok]
  rw [onPrefix_all (by omega)]

theorem alpha444_src (hp : AlphaRows i .yuv444 B) (hcn : 0 < cn)
    (hsrc : ∀ x, x < i.width → src x < i.width) (hput : AlphaPutOk B cn put px)
    (hhd : hd.FillsFrom src guard B cn i.width 1 px Q) (hw : i.width * cn ≤ stride)
    (hd' : FullRows rgba.length stride i.height) :
    FrameOk stride i.height cn i.width (AlphaRelS i .yuv444 src Q) rgba
      (alpha444 guard cn put hd i rgba stride) := by
  obtain ⟨⟨hwp, _, hyw, huw, hvw, yr, ur, vr, yb, ub, vb⟩, haw, ar, ab⟩ := hp
  simp only [opaqueImage] at hwp hyw huw hvw yr ur vr yb ub vb
  have hst : 0 < stride := Nat.lt_of_lt_of_le (Nat.mul_pos hwp hcn) hw
  unfold alpha444
  have hk : min5 (rgba.length / stride) (i.y.length / i.yStride) (i.a.length / i.aStride)
      (i.u.length / i.uStride) (i.v.length / i.vStride) = i.height := by
    rw [fullRows_div hd', fullRows_div ar, fullRows_div yr, fullRows_div ur, fullRows_div vr]
    simp [min5, min4, Sampling.chromaHeight]
  rw [hk]
  refine eachChunk_rows hst hw (by omega) (by rw [Nat.mul_comm]; exact hd'.1) ?_
  intro r row _ hr hrow
  have cy := chunk_length (fullRows_row yr hr)
  have cu := chunk_length (fullRows_row ur hr)
  have cv := chunk_length (fullRows_row vr hr)
  have ca := chunk_length (fullRows_row ar hr)
  simp only [Sampling.chromaWidth] at huw hvw
  rw [slice_take (by omega)]
  simp only [Outcome.bind_ok]
  have ly : ((chunk i.yStride i.y r).take i.width).length = i.width := by
    rw [List.length_take]; omega
  have bY := bnd_take (n := i.width) (bnd_chunk (n := i.yStride) (k := r) yb)
  have bU := bnd_chunk (n := i.uStride) (k := r) ub
  have bV := bnd_chunk (n := i.vStride) (k := r) vb
  have bA := bnd_chunk (n := i.aStride) (k := r) ab
  obtain ⟨mid, row', cx, e, hmid, hdone, hpq⟩ := hhd ((chunk i.yStride i.y r).take i.width) (chunk i.uStride i.u r)
    (chunk i.vStride i.v r) (chunk i.aStride i.a r) row bY bU bV bA (by omega) (by rw [cu]; omega)
    (by rw [cv]; omega) (by omega) (by omega)
  refine rowOk_past hcn (by omega) hmid ?_
  replace hrow : mid.length = stride := by rw [hmid.1, hrow]
  obtain ⟨vp, v1, v2, v3, v4, v5⟩ := rowDone_paint hcn (by omega) hdone
  rw [e, Outcome.bind_ok]
  simp only
  have hlr : row'.length = stride := by
    rw [v5, paintRow_length v1 (by rw [hrow]; exact Nat.le_trans (Nat.mul_le_mul_right _ v3) hw),
      hrow]
  have hk1 : i.width ≤ row'.length / cn := by
    rw [hlr]; exact (Nat.le_div_iff_mul_le hcn).2 hw
  have hk2 : min5 (row'.length / cn) ((chunk i.yStride i.y r).take i.width).length
      (chunk i.uStride i.u r).length (chunk i.vStride i.v r).length
      (chunk i.aStride i.a r).length = i.width := by
    rw [ly, cu, cv, ca]; unfold min5 min4; omega
  rw [hk2, v5]
  have key : ∀ x, x < i.width →
      ((chunk i.yStride i.y r).take i.width).getD x 0 = at' i.y i.yStride x r ∧
      (chunk i.uStride i.u r).getD x 0 = at' i.u i.uStride x r ∧
      (chunk i.vStride i.v r).getD x 0 = at' i.v i.vStride x r ∧
      (chunk i.aStride i.a r).getD x 0 = at' i.a i.aStride x r := by
    intro x hx
    refine ⟨row_getD hx hyw, ?_, ?_, ?_⟩
    · rw [chunk_getD (by omega)]; rfl
    · rw [chunk_getD (by omega)]; rfl
    · rw [chunk_getD (by omega)]; rfl
  refine rowSingles_rel hcn (px := fun x => px (at' i.y i.yStride x r) (at' i.u i.uStride x r)
      (at' i.v i.vStride x r) (at' i.a i.aStride x r)) (by omega) v1 ?_ v3 rfl
    (fun x => hput.len ..) ?_ ?_
  · intro x hx
    have := v2 x hx
    obtain ⟨k1, k2, k3, -⟩ := key x (by omega)
    have k4 := (key (src x) (hsrc x (by omega))).2.2.2
    simp only [Nat.div_one] at this
    rw [k1, k2, k3, k4] at this
    simpa [AlphaRelS, hdiv, vdiv] using this
  · intro x h1 hx
    have := hpq x (.inl h1) hx
    obtain ⟨k1, k2, k3, k5⟩ := key x hx
    have k4 := (key (src x) (hsrc x hx)).2.2.2
    simp only [Nat.div_one] at this
    rw [k1, k2, k3, k4, k5] at this
    simpa [AlphaRelS, hdiv, vdiv] using this
  · intro x c hx hc
    obtain ⟨k1, k2, k3, k4⟩ := key x hx
    rw [idx_ok (by omega), idx_ok (by omega), idx_ok (by omega), idx_ok (by omega)]
    simp only [Outcome.bind_ok]
    rw [hput.ok _ _ _ _ _ (bnd_getD bY (by omega)) (bnd_getD bU (by omega))
      (bnd_getD bV (by omega)) (bnd_getD bA (by omega)) hc, k1, k2, k3, k4]

theorem alpha420_src (hp : AlphaRows i .yuv420 B) (hcn : 0 < cn)
    (hsrc : ∀ x, x < i.width → src x < i.width) (hput : AlphaPutOk B cn put px)
    (hhd : hd.FillsFrom src guard B cn i.width 2 px Q) (hw : i.width * cn ≤ stride)
    (hd' : FullRows rgba.length stride i.height) :
    FrameOk stride i.height cn i.width (AlphaRelS i .yuv420 src Q) rgba
      (alpha420 guard cn put hd i rgba stride) := by
  have hp' := hp
  obtain ⟨⟨hwp, hhp, hyw, huw, hvw, yr, ur, vr, yb, ub, vb⟩, haw, ar, ab⟩ := hp'
  simp only [opaqueImage] at hwp hhp hyw huw hvw yr ur vr yb ub vb
  have hst : 0 < stride := Nat.lt_of_lt_of_le (Nat.mul_pos hwp hcn) hw
  simp only [Sampling.chromaWidth] at huw hvw
  unfold alpha420
  have hk : min5 (rgba.length / (stride * 2)) (i.y.length / (i.yStride * 2))
      (i.a.length / (i.aStride * 2)) (i.u.length / i.uStride) (i.v.length / i.vStride)
      = i.height / 2 := by
    rw [fullRows_div2 hd', fullRows_div2 yr, fullRows_div2 ar, fullRows_div ur, fullRows_div vr]
    simp only [min5, min4, Sampling.chromaHeight, ceil2]; omega
  have hcp := chromaHeight_pos (s := .yuv420) hhp
  have hcw : 0 < ceil2 i.width := ceil2_pos hwp
  rw [hk, Nat.mul_comm stride 2, lastChunk_rows (by omega) hcp ur,
    lastChunk_rows (by omega) hcp vr, lastChunk_rows (by omega) hhp ar,
    lastChunk_rows (by omega) hhp yr]
  simp only [Outcome.bind_ok]
  refine frame420_last hst hw hd' ?_ ?_
  · intro r rows hr hrows
    have h2 : min3 (rows.length / stride) ((chunk (i.yStride * 2) i.y r).length / i.yStride)
        ((chunk (i.aStride * 2) i.a r).length / i.aStride) = 2 := by
      have e1 := two_rows (n := stride) (m := i.yStride) hst (by omega) (k := rows.length) (by omega)
        (chunk2_length yr hr)
      have e2 := two_rows (n := stride) (m := i.aStride) hst (by omega) (k := rows.length) (by omega)
        (chunk2_length ar hr)
      unfold min3; omega
    rw [h2]
    refine pairOk_rows hst hrows ?_ ?_
    · intro c hc
      rw [chunk2_0, chunk2_0]
      exact alphaHalvedSlice_src rfl hp hcn hsrc hput hhd hw (by omega) (by simp only [vdiv]; omega) hc
    · intro c hc
      rw [chunk2_1, chunk2_1]
      exact alphaHalvedSlice_src rfl hp hcn hsrc hput hhd hw (by omega) (by simp only [vdiv]; omega) hc
  · intro hodd c hc
    have e2 : ceil2 i.height - 1 = (i.height - 1) / 2 := by unfold ceil2; omega
    exact alphaHalvedSlice_src rfl hp hcn hsrc hput hhd hw (by omega)
      (by simp only [Sampling.chromaHeight, vdiv]; exact e2) hc

theorem alphaFrame_src {s : Sampling} (hp : AlphaRows i s B) (hcn : 0 < cn)
    (hsrc : ∀ x, x < i.width → src x < i.width)
    (hput : AlphaPutOk B cn put px) (hhd : hd.FillsFrom src guard B cn i.width (hdiv s) px Q)
    (hw : i.width * cn ≤ stride) (hd' : FullRows rgba.length stride i.height) :
    FrameOk stride i.height cn i.width (AlphaRelS i s src Q) rgba
      (alphaFrame true guard cn put hd s i rgba stride) := by
  cases s with
  | yuv444 => exact alpha444_src hp hcn hsrc hput hhd hw hd'
  | yuv422 => exact alpha422_src hp hcn hsrc hput hhd hw hd'
  | yuv420 => exact alpha420_src hp hcn hsrc hput hhd hw hd'

theorem alphaFrame_q {s : Sampling} (hp : AlphaRows i s B) (hcn : 0 < cn)
    (hput : AlphaPutOk B cn put px) (hhd : hd.Fills guard B cn i.width (hdiv s) px Q)
    (hw : i.width * cn ≤ stride) (hd' : FullRows rgba.length stride i.height) :
    FrameOk stride i.height cn i.width (AlphaRelQ i s Q) rgba
      (alphaFrame true guard cn put hd s i rgba stride) :=
  alphaFrame_src hp hcn (fun _ h => h) hput hhd.from hw hd'

theorem alphaFrame_rel {s : Sampling} {R : Nat → Nat → Nat → Nat → Buf → Prop}
    (hp : AlphaRows i s B) (hcn : 0 < cn)
    (hput : AlphaPutOk B cn put px) (hhd : hd.Ok B cn i.width (hdiv s) R)
    (hw : i.width * cn ≤ stride) (hd' : FullRows rgba.length stride i.height) :
    FrameOk stride i.height cn i.width (AlphaRel i s px R) rgba
      (alphaFrame true guard cn put hd s i rgba stride) :=
  alphaFrame_q hp hcn hput (hhd.fills guard px) hw hd'
end

/-! ## Handlers that leave their row -/

/-- The handler panics on every row cut to the width. -/
def AlphaHandler.Panics (f : AlphaHandler) (B cn w hd : Nat) : Prop :=
  ∀ y u v a row : Buf, (∀ s ∈ y, s < B) → (∀ s ∈ u, s < B) → (∀ s ∈ v, s < B) →
    (∀ s ∈ a, s < B) →
    w ≤ y.length → (w - 1) / hd + 1 ≤ u.length → (w - 1) / hd + 1 ≤ v.length → w ≤ a.length →
    row.length = w * cn → f y u v a row = .panic

theorem eachChunk_panics {n k : Nat} {f : Nat → Buf → Outcome Buf} {l : Buf} (hn : 0 < n) (hk : 0 < k)
    (h : f 0 (l.take n) = .panic) : eachChunk n 0 k f l = .panic := by
  obtain ⟨k, rfl⟩ : ∃ m, k = m + 1 := ⟨k - 1, by omega⟩
  unfold eachChunk
  rw [if_neg (by omega)]
  simp only [Nat.zero_mul, List.drop_zero, Nat.sub_zero, forChunks, h]
  rfl

theorem onLastChunk_panics {n : Nat} {g : Buf → Outcome Buf} {l : Buf} (hn : 0 < n) (hl : 0 < l.length / n)
    (h : ∀ c : Buf, c.length = n → g c = .panic) : onLastChunk n g l = .panic := by
  have hle : l.length / n * n ≤ l.length := Nat.div_mul_le_self ..
  obtain ⟨k, hk⟩ : ∃ m, l.length / n = m + 1 := ⟨l.length / n - 1, by omega⟩
  unfold onLastChunk eachChunk
  rw [if_neg (by omega), if_neg (by omega), if_neg (by omega), hk, Nat.add_sub_cancel,
    Nat.add_sub_cancel_left]
  rw [hk, Nat.add_mul, Nat.one_mul] at hle
  simp only [forChunks]
  rw [h _ (by rw [List.length_take, List.length_drop]; omega)]
  rfl

section
variable {guard cut : Bool} {B cn stride : Nat} {put : AlphaPut} {hd : AlphaHandler} {i : PlanarAlpha}
  {rgba : Buf}

theorem alphaHalvedSlice_panics {s : Sampling} {r rc : Nat} (hs : hdiv s = 2)
    (hp : AlphaRows i s B) (hhd : hd.Panics B cn i.width 2) (hw : i.width * cn ≤ stride)
    (hr : r < i.height) (hrc : rc = r / vdiv s) {row : Buf} (hrow : row.length = stride) :
    alphaHalvedSlice guard i.width cn put hd (chunk i.yStride i.y r) (chunk i.uStride i.u rc)
        (chunk i.vStride i.v rc) (chunk i.aStride i.a r) row = .panic := by
  obtain ⟨⟨hwp, _, hyw, huw, hvw, yr, ur, vr, yb, ub, vb⟩, haw, ar, ab⟩ := hp
  simp only [opaqueImage] at hwp hyw huw hvw yr ur vr yb ub vb
  have hcw : s.chromaWidth i.width = ceil2 i.width := by
    cases s <;> simp_all [hdiv, Sampling.chromaWidth]
  have hrc' : rc < s.chromaHeight i.height := by rw [hrc]; exact div_vdiv_lt hr
  have cy := chunk_length (fullRows_row yr hr)
  have cu := chunk_length (fullRows_row ur hrc')
  have cv := chunk_length (fullRows_row vr hrc')
  have ca := chunk_length (fullRows_row ar hr)
  have hc2 : (i.width - 1) / 2 + 1 = ceil2 i.width := by unfold ceil2; omega
  rw [hcw] at huw hvw
  unfold alphaHalvedSlice
  rw [slice_take (by omega), slice_take (by omega), slice_take (by omega), slice_take (by omega)]
  simp only [Outcome.bind_ok]
  unfold onPrefix
  rw [if_pos (by omega)]
  unfold alphaHalvedRow
  rw [hhd _ _ _ _ _ (bnd_take (bnd_chunk yb)) (bnd_take (bnd_chunk ub))
    (bnd_take (bnd_chunk vb)) (bnd_take (bnd_chunk ab))
    (by rw [List.length_take]; omega) (by rw [List.length_take]; omega)
    (by rw [List.length_take]; omega) (by rw [List.length_take]; omega)
    (by rw [List.length_take]; omega)]
  rfl

/-- If the handler leaves every row, decoding panics (the destination rows of 4:4:4 and of uncut
4:2:2 must be tight). -/
theorem alphaFrame_panics {s : Sampling} (hp : AlphaRows i s B) (hcn : 0 < cn)
    (hhd : hd.Panics B cn i.width (hdiv s)) (hw : i.width * cn ≤ stride)
    (ht : s = .yuv420 ∨ stride = i.width * cn) (hd' : FullRows rgba.length stride i.height) :
    alphaFrame false guard cn put hd s i rgba stride = .panic := by
  have hp' := hp
  obtain ⟨⟨hwp, hhp, hyw, huw, hvw, yr, ur, vr, yb, ub, vb⟩, haw, ar, ab⟩ := hp'
  simp only [opaqueImage] at hwp hhp hyw huw hvw yr ur vr yb ub vb
  have hst : 0 < stride := Nat.lt_of_lt_of_le (Nat.mul_pos hwp hcn) hw
  have hlen : i.height * stride ≤ rgba.length := by rw [Nat.mul_comm]; exact hd'.1
  have hrow : stride ≤ rgba.length := Nat.le_trans (Nat.le_mul_of_pos_left _ hhp) hlen
  cases s with
  | yuv444 =>
    have ht : stride = i.width * cn := ht.resolve_left (by decide)
    simp only [Sampling.chromaWidth, Sampling.chromaHeight] at huw hvw ur vr
    have cy := chunk_length (fullRows_row yr hhp)
    have cu := chunk_length (fullRows_row ur hhp)
    have cv := chunk_length (fullRows_row vr hhp)
    have ca := chunk_length (fullRows_row ar hhp)
    unfold alphaFrame alpha444
    have hk : min5 (rgba.length / stride) (i.y.length / i.yStride) (i.a.length / i.aStride)
        (i.u.length / i.uStride) (i.v.length / i.vStride) = i.height := by
      rw [fullRows_div hd', fullRows_div ar, fullRows_div yr, fullRows_div ur, fullRows_div vr]
      simp [min5, min4]
    simp only [hk]
    refine eachChunk_panics hst hhp ?_
    rw [slice_take (by omega), Outcome.bind_ok]
    rw [hhd _ _ _ _ _ (bnd_take (bnd_chunk yb)) (bnd_chunk ub) (bnd_chunk vb) (bnd_chunk ab)
      (by rw [List.length_take]; omega) (by rw [cu]; simp only [hdiv, Nat.div_one]; omega)
      (by rw [cv]; simp only [hdiv, Nat.div_one]; omega) (by omega)
      (by rw [List.length_take]; omega)]
    rfl
  | yuv422 =>
    have ht : stride = i.width * cn := ht.resolve_left (by decide)
    simp only [Sampling.chromaWidth, Sampling.chromaHeight] at huw hvw ur vr
    have cy := chunk_length (fullRows_row yr hhp)
    have cu := chunk_length (fullRows_row ur hhp)
    have cv := chunk_length (fullRows_row vr hhp)
    have ca := chunk_length (fullRows_row ar hhp)
    have hc2 : (i.width - 1) / 2 + 1 = ceil2 i.width := by unfold ceil2; omega
    unfold alphaFrame alpha422
    have hk : min5 (rgba.length / stride) (i.y.length / i.yStride) (i.a.length / i.aStride)
        (i.u.length / i.uStride) (i.v.length / i.vStride) = i.height := by
      rw [fullRows_div hd', fullRows_div ar, fullRows_div yr, fullRows_div ur, fullRows_div vr]
      simp [min5, min4]
    simp only [hk]
    refine eachChunk_panics hst hhp ?_
    simp only [Bool.false_eq_true, if_false]
    unfold alphaHalvedRow
    rw [hhd _ _ _ _ _ (bnd_chunk yb) (bnd_chunk ub) (bnd_chunk vb) (bnd_chunk ab)
      (by omega) (by simp only [hdiv]; omega) (by simp only [hdiv]; omega) (by omega)
      (by rw [List.length_take]; omega)]
    rfl
  | yuv420 =>
    simp only [Sampling.chromaWidth] at huw hvw
    unfold alphaFrame alpha420
    have hk : min5 (rgba.length / (stride * 2)) (i.y.length / (i.yStride * 2))
        (i.a.length / (i.aStride * 2)) (i.u.length / i.uStride) (i.v.length / i.vStride)
        = i.height / 2 := by
      rw [fullRows_div2 hd', fullRows_div2 yr, fullRows_div2 ar, fullRows_div ur, fullRows_div vr]
      simp only [min5, min4, Sampling.chromaHeight, ceil2]; omega
    have hcp := chromaHeight_pos (s := .yuv420) hhp
    have hcw : 0 < ceil2 i.width := ceil2_pos hwp
    simp only [hk]
    by_cases h2 : 2 ≤ i.height
    · have hlen2 : 2 * stride ≤ rgba.length := Nat.le_trans (Nat.mul_le_mul_right _ h2) hlen
      rw [eachChunk_panics (by omega) (by omega) ?_]
      · rfl
      · have hr2 : (rgba.take (stride * 2)).length = stride * 2 := by rw [List.length_take]; omega
        have h2' : min3 ((rgba.take (stride * 2)).length / stride)
            ((chunk (i.yStride * 2) i.y 0).length / i.yStride)
            ((chunk (i.aStride * 2) i.a 0).length / i.aStride) = 2 := by
          have e1 := two_rows (n := stride) (m := i.yStride) hst (by omega)
            (k := (rgba.take (stride * 2)).length) (by omega) (chunk2_length yr (by omega : 0 < i.height / 2))
          have e2 := two_rows (n := stride) (m := i.aStride) hst (by omega)
            (k := (rgba.take (stride * 2)).length) (by omega) (chunk2_length ar (by omega : 0 < i.height / 2))
          unfold min3; omega
        simp only [h2']
        refine eachChunk_panics hst (by decide) ?_
        rw [chunk2_0, chunk2_0]
        exact alphaHalvedSlice_panics rfl hp hhd hw (by omega) (by simp only [vdiv])
          (by rw [List.length_take]; omega)
    · have h1 : i.height = 1 := by omega
      have e0 : eachChunk (stride * 2) 0 (i.height / 2) (fun r rows =>
          eachChunk stride 0
            (min3 (rows.length / stride) ((chunk (i.yStride * 2) i.y r).length / i.yStride)
              ((chunk (i.aStride * 2) i.a r).length / i.aStride))
            (fun j row => alphaHalvedSlice guard i.width cn put hd
              (chunk i.yStride (chunk (i.yStride * 2) i.y r) j)
              (chunk i.uStride i.u r) (chunk i.vStride i.v r)
              (chunk i.aStride (chunk (i.aStride * 2) i.a r) j) row) rows) rgba = .ok rgba := by
        unfold eachChunk
        rw [if_neg (by omega), h1]
        simp [forChunks]
      rw [e0, lastChunk_rows (by omega) hcp ur,
        lastChunk_rows (by omega) hcp vr, lastChunk_rows (by omega) hhp ar,
        lastChunk_rows (by omega) hhp yr]
      simp only [Outcome.bind_ok]
      rw [if_neg (by omega)]
      have e2 : ceil2 i.height - 1 = (i.height - 1) / 2 := by unfold ceil2; omega
      refine onLastChunk_panics hst (Nat.div_pos hrow hst) fun c hc => ?_
      exact alphaHalvedSlice_panics rfl hp hhd hw (by omega)
        (by simp only [Sampling.chromaHeight, vdiv]; exact e2) hc
end

end Verif
