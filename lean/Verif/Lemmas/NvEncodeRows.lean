import Verif.Lemmas.EncodeRows
/-! # Rows of the semi-planar encoders -/
namespace Verif
open Spec

theorem orderUV_length {o : NVOrder} {a b : Nat} : (orderUV o a b).length = 2 := by
  simp [orderUV]

theorem orderUV_get {o : NVOrder} {a b i : Nat} (h : i < 2) :
    (orderUV o a b)[i]? = some ((orderUV o a b).getD i 0) := by
  rw [List.getD_eq_getElem?_getD, List.getElem?_eq_getElem (by rw [orderUV_length]; exact h)]; rfl

theorem setChunk_fillUV {j : Nat} {f : Nat → Nat} {l c : Buf} (hj : 2 * j + 1 < l.length)
    (hc : c.length = 2) (h0 : c[0]? = some (f (2 * j))) (h1 : c[1]? = some (f (2 * j + 1))) :
    setChunk 2 (fillTo f (2 * j) l) j c = fillTo f (2 * (j + 1)) l := by
  have := setChunk_fill (n := 2) (j := j) (f := f) (l := l) (c := c) (by omega) hc
    (by intro i hi
        have : i = 0 ∨ i = 1 := by omega
        rcases this with rfl | rfl
        · rw [h0, Nat.mul_comm, Nat.add_zero]
        · rw [h1, Nat.mul_comm])
  rw [Nat.mul_comm j 2] at this
  exact this

/-- The chroma pair of a list of pixels. -/
def EncFun.uv (F : EncFun) (o : NVOrder) (b : Bool) (l : List Buf) : Buf := orderUV o (F.u b l) (F.v b l)

theorem EncFun.uv_length {F : EncFun} {o : NVOrder} {b : Bool} {l : List Buf} :
    (F.uv o b l).length = 2 := orderUV_length
theorem EncFun.uv_get {F : EncFun} {o : NVOrder} {b : Bool} {l : List Buf} {i : Nat} (h : i < 2) :
    (F.uv o b l)[i]? = some ((F.uv o b l).getD i 0) := orderUV_get h

/-- A pair function given by one rule below `n` and another from `n` on. -/
theorem split_pair (n : Nat) (g : Nat → Nat) (P : Nat → Buf) (hP : ∀ c, (P c).length = 2) :
    ∃ f : Nat → Nat, (∀ i, i < 2 * n → g i = f i) ∧
      (∀ c, n ≤ c → fillPix 2 f c = P c ∧ (P c)[0]? = some (f (2 * c)) ∧
        (P c)[1]? = some (f (2 * c + 1))) := by
  refine ⟨fun i => if i < 2 * n then g i else (P (i / 2)).getD (i % 2) 0,
    fun i hi => (if_pos hi).symm, ?_⟩
  intro c hc
  have h2 := hP c
  rw [fillPix_two]
  simp only [if_neg (show ¬ 2 * c < 2 * n by omega), if_neg (show ¬ 2 * c + 1 < 2 * n by omega),
    show 2 * c / 2 = c by omega, show (2 * c + 1) / 2 = c by omega, show 2 * c % 2 = 0 by omega,
    show (2 * c + 1) % 2 = 1 by omega]
  match hPc : P c, h2 with
  | [a, b], _ => simp

/-- What is known of chroma pair `c` of a row: it is the pair `p`, or it comes from the vector
code. -/
def PairIs (R : EncRel) (pu pv : Nat) (b : Bool) (blk : List Buf) (p q : Buf) : Prop :=
  q = p ∨ (R.u b blk (q.getD pu 0) ∧ R.v b blk (q.getD pv 0))

theorem nvEncHalvedRow_rel {w cn B : Nat} (hcn : 0 < cn) (hw : 0 < w) {o : NVOrder}
    {E : PixelBlocks} {F : EncFun} {R : EncRel} {hd : RowEncoderNV} (hE : BlocksOk E B cn F)
    (hH : hd.Ok B cn w 2 o.uPos o.vPos R)
    {y uv rgba : Buf} (hy : y.length = w) (hu : uv.length = ceil2 w * 2)
    (hr : rgba.length = w * cn) (hB : ∀ s ∈ rgba, s < B) :
    ∃ fy fc, nvEncHalvedRow w cn o E hd y uv rgba
        = .ok (fillTo fy w y, fillTo fc (ceil2 w * 2) uv) ∧
      (∀ x, x < w → fy x = F.y (rowPx rgba cn x) ∨ R.y (rowPx rgba cn x) (fy x)) ∧
      (∀ c, c < ceil2 w → PairIs R o.uPos o.vPos false (rowBlock rgba cn w 2 c)
        (F.uv o false (rowBlock rgba cn w 2 c)) (fillPix 2 fc c)) := by
  have hc := ceil2_cover hw
  obtain ⟨y', uv', cx, e, dy, du⟩ := hH y uv rgba hB (by omega) (by omega) (by omega)
  obtain ⟨hcx, hev, dy⟩ := dy
  have hdone : chromaDone 2 cx ≤ ceil2 w := by unfold chromaDone ceil2; omega
  obtain ⟨gy, rfl, ry⟩ := frameRel_fill (by omega) (by omega) dy
  obtain ⟨gc, rfl, rc⟩ := frameRel_fill (by omega) (by omega) du
  simp only [fillPix_one, List.getD_cons_zero, Nat.mul_one] at ry e
  unfold nvEncHalvedRow
  rw [e]
  simp only [Outcome.bind_ok]
  by_cases hfin : cx = w
  · subst hfin
    rw [if_pos rfl]
    refine ⟨gy, gc, ?_, fun x hx => .inr (ry x hx), fun c h => .inr (rc c ?_)⟩
    · simp [chromaDone, ceil2]
    · unfold chromaDone; unfold ceil2 at h; omega
  rw [if_neg hfin]
  have hev : cx % 2 = 0 := by omega
  have hdn : chromaDone 2 cx = cx / 2 := by unfold chromaDone; omega
  rw [hdn] at rc
  rw [hdn, Nat.mul_comm (cx / 2) 2]
  obtain ⟨fy, gfy, hfy⟩ := split_fun cx gy fun x => F.y (rowPx rgba cn x)
  obtain ⟨fc, gfc, hfc⟩ := split_pair (cx / 2) gc (fun c => F.uv o false (rowBlock rgba cn w 2 c))
    (fun _ => EncFun.uv_length)
  have e1 : fillTo gy cx y = fillTo fy (2 * (cx / 2)) y := by
    rw [show 2 * (cx / 2) = cx by omega]; exact fillTo_congr gfy
  have e2 : fillTo gc (2 * (cx / 2)) uv = fillTo fc (2 * (cx / 2)) uv := fillTo_congr gfc
  have hk : min (min ((fillTo gy cx y).length / 2) ((fillTo gc (2 * (cx / 2)) uv).length / 2))
      (rgba.length / (2 * cn)) = w / 2 := by
    rw [fillTo_length (by omega), fillTo_length (by unfold ceil2 at hu; omega), hy, hu, hr, div_two_cn hcn]
    unfold ceil2; omega
  rw [hk, e1, e2]
  clear hk e1 e2 e dy du
  rw [forRange_ok (T := fun j => (fillTo fy (2 * j) y, fillTo fc (2 * j) uv)) (by omega)]
  · refine ⟨fy, fc, ?_, ?_, ?_⟩
    · simp only [Outcome.bind_ok]
      by_cases hodd : w % 2 = 0
      · rw [if_pos hodd, show 2 * (w / 2) = w by omega, show ceil2 w * 2 = w by unfold ceil2; omega]; rfl
      · have hrl := rowPx_length (row := rgba) (cn := cn) (x := w - 1) (w := w) (by omega) (by omega)
        rw [if_neg hodd, remainder_px hcn hr (by omega), slice_ok (by omega) (by omega)]
        simp only [Outcome.bind_ok, List.drop_zero, Nat.sub_zero]
        rw [List.take_of_length_le (by omega), hE.tail _ hrl (bnd_rowPx hB)]
        simp only [Outcome.bind_ok]
        have hb := rowBlock_last (row := rgba) (cn := cn) (w := w) (c := w / 2) (by omega)
        rw [show 2 * (w / 2) = w - 1 by omega] at hb
        have hcw : ceil2 w = w / 2 + 1 := by unfold ceil2; omega
        obtain ⟨_, p0, p1⟩ := hfc (w / 2) (by omega)
        rw [hb] at p0 p1
        have hset := setLastPair_fill (n := w / 2) (m := 2 * (w / 2)) (f := fc) (g := fc) (l := uv)
          (c := F.uv o false [rowPx rgba cn (w - 1)]) (by omega) (by omega) EncFun.uv_length
          (fun _ _ => rfl) p0 p1
        unfold EncFun.uv at hset
        rw [hset]
        simp only [Outcome.bind_ok]
        rw [setRem_fill (n := w - 1) (g := fy) (by omega) (by omega) (by omega) (fun _ _ => rfl)
          (by rw [hfy _ (by omega)])]
        simp only [Outcome.bind_ok, Outcome.pure_eq]
        rw [show w - 1 + 1 = w by omega, hcw, show (w / 2 + 1) * 2 = 2 * (w / 2) + 2 by omega]
    · intro x hx
      by_cases h : x < cx
      · right; rw [← gfy x h]; exact ry x h
      · left; exact hfy x (by omega)
    · intro c h
      by_cases h : c < cx / 2
      · right
        have := rc c h
        rw [fillPix_two] at this ⊢
        rw [← gfc _ (by omega), ← gfc _ (by omega)]; exact this
      · left; exact (hfc c (by omega)).1
  · intro j h1 h2
    have hb := rowBlock_two (row := rgba) (cn := cn) (w := w) (c := j) (by omega)
    simp only
    rw [chunk_pair (w := w) (by omega) (by omega), hE.pair _ _ (rowPx_length (w := w) (by omega) (by omega))
      (rowPx_length (w := w) (by omega) (by omega)) (bnd_rowPx hB) (bnd_rowPx hB)]
    simp only [Outcome.bind_ok, Outcome.pure_eq]
    obtain ⟨_, p0, p1⟩ := hfc j (by omega)
    rw [hb] at p0 p1
    rw [setChunk_fill2 (by omega) (by rw [hfy _ (by omega)]) (by rw [hfy _ (by omega)]),
      setChunk_fillUV (by unfold ceil2 at hu; omega) orderUV_length p0 p1]

theorem nvEncFullRow_rel {w cn B : Nat} (hcn : 0 < cn) (hw : 0 < w) {o : NVOrder}
    {E : PixelBlocks} {F : EncFun} {R : EncRel} {hd : RowEncoderNV} (hE : BlocksOk E B cn F)
    (hH : hd.Ok B cn w 1 o.uPos o.vPos R)
    {y uv rgba : Buf} (hy : y.length = w) (hu : 2 * w ≤ uv.length)
    (hr : w * cn ≤ rgba.length) (hB : ∀ s ∈ rgba, s < B) :
    ∃ fy fc, nvEncFullRow w cn o E hd y uv rgba
        = .ok (fillTo fy w y, fillTo fc (w * 2) uv) ∧
      (∀ x, x < w → fy x = F.y (rowPx rgba cn x) ∨ R.y (rowPx rgba cn x) (fy x)) ∧
      (∀ c, c < w → PairIs R o.uPos o.vPos false (rowBlock rgba cn w 1 c)
        (F.uv o false (rowBlock rgba cn w 1 c)) (fillPix 2 fc c)) := by
  obtain ⟨y', uv', cx, e, dy, du⟩ := hH y uv rgba hB (by omega)
    (by rw [Nat.div_one]; omega) (by omega)
  obtain ⟨hcx, hev, dy⟩ := dy
  have hdn : chromaDone 1 cx = cx := by simp [chromaDone]
  rw [hdn] at du
  obtain ⟨gy, rfl, ry⟩ := frameRel_fill (by omega) (by omega) dy
  obtain ⟨gc, rfl, rc⟩ := frameRel_fill (by omega) (by omega) du
  simp only [fillPix_one, List.getD_cons_zero, Nat.mul_one] at ry e
  unfold nvEncFullRow
  rw [e]
  simp only [Outcome.bind_ok]
  by_cases hfin : cx = w
  · subst hfin
    rw [if_pos rfl]
    exact ⟨gy, gc, rfl, fun x hx => .inr (ry x hx), fun c h => .inr (rc c h)⟩
  rw [if_neg hfin, Nat.mul_comm cx 2]
  obtain ⟨fy, gfy, hfy⟩ := split_fun cx gy fun x => F.y (rowPx rgba cn x)
  obtain ⟨fc, gfc, hfc⟩ := split_pair cx gc (fun c => F.uv o false (rowBlock rgba cn w 1 c))
    (fun _ => EncFun.uv_length)
  have e1 : fillTo gy cx y = fillTo fy cx y := fillTo_congr gfy
  have e2 : fillTo gc (2 * cx) uv = fillTo fc (2 * cx) uv := fillTo_congr gfc
  have hq : w ≤ rgba.length / cn := (Nat.le_div_iff_mul_le hcn).2 hr
  have hk : min (min (fillTo gy cx y).length ((fillTo gc (2 * cx) uv).length / 2))
      (rgba.length / cn) = w := by
    rw [fillTo_length (by omega), fillTo_length (by omega), hy]
    generalize rgba.length / cn = q at *
    omega
  rw [hk, e1, e2]
  clear hk e1 e2 e dy du
  rw [forRange_ok (T := fun j => (fillTo fy j y, fillTo fc (2 * j) uv)) (by omega)]
  · refine ⟨fy, fc, by rw [Nat.mul_comm 2 w], ?_, ?_⟩
    · intro x hx
      by_cases h : x < cx
      · right; rw [← gfy x h]; exact ry x h
      · left; exact hfy x (by omega)
    · intro c h
      by_cases h : c < cx
      · right
        have := rc c h
        rw [fillPix_two] at this ⊢
        rw [← gfc _ (by omega), ← gfc _ (by omega)]; exact this
      · left; exact (hfc c (by omega)).1
  · intro j h1 h2
    have hb := rowBlock_one (row := rgba) (cn := cn) (w := w) (c := j) (by omega)
    simp only
    rw [← rowPx_eq, hE.one _ (rowPx_length (w := w) (by omega) (by omega)) (bnd_rowPx hB)]
    simp only [Outcome.bind_ok, Outcome.pure_eq]
    obtain ⟨_, p0, p1⟩ := hfc j (by omega)
    rw [hb] at p0 p1
    rw [setChunk_fill1 (by omega) (by rw [hfy _ (by omega)]),
      setChunk_fillUV (by omega) orderUV_length p0 p1]

theorem nvEncDoubledRow_rel {first : Bool} {w cn B : Nat} (hcn : 0 < cn) (hw : 0 < w)
    (hf : first = false ∨ w % 2 = 0 ∨ w = 1) {o : NVOrder}
    {E : PixelBlocks} {F : EncFun} {R : EncRel} {hd : RowEncoderNV420} (hE : BlocksOk E B cn F)
    (hH : hd.Ok B cn w o.uPos o.vPos R)
    {y0 y1 uv r0 r1 : Buf} (hy0 : y0.length = w) (hy1 : y1.length = w)
    (hu : uv.length = ceil2 w * 2) (hr0 : r0.length = w * cn) (hr1 : r1.length = w * cn)
    (hB0 : ∀ s ∈ r0, s < B) (hB1 : ∀ s ∈ r1, s < B) :
    ∃ fa fb fc, nvEncDoubledRow first w cn o E hd y0 y1 uv r0 r1
        = .ok (fillTo fa w y0, fillTo fb w y1, fillTo fc (ceil2 w * 2) uv) ∧
      (∀ x, x < w → fa x = F.y (rowPx r0 cn x) ∨ R.y (rowPx r0 cn x) (fa x)) ∧
      (∀ x, x < w → fb x = F.low r0 r1 cn x ∨ R.y (rowPx r1 cn x) (fb x)) ∧
      (∀ c, c < ceil2 w → PairIs R o.uPos o.vPos (decide (2 * c + 1 = w)) (rowBlock r0 cn w 2 c ++ rowBlock r1 cn w 2 c)
        (F.uv o (decide (2 * c + 1 = w)) (rowBlock r0 cn w 2 c ++ rowBlock r1 cn w 2 c))
        (fillPix 2 fc c)) := by
  have hc := ceil2_cover hw
  obtain ⟨y0', y1', uv', cx, e, d0, d1, du⟩ := hH y0 y1 uv r0 r1 hB0 hB1 (by omega) (by omega)
    (by omega) (by omega) (by omega)
  obtain ⟨hcx, hev, d0⟩ := d0
  obtain ⟨_, _, d1⟩ := d1
  have hdone : chromaDone 2 cx ≤ ceil2 w := by unfold chromaDone ceil2; omega
  obtain ⟨ga, rfl, ra⟩ := frameRel_fill (by omega) (by omega) d0
  obtain ⟨gb, rfl, rb⟩ := frameRel_fill (by omega) (by omega) d1
  obtain ⟨gc, rfl, rc⟩ := frameRel_fill (by omega) (by omega) du
  simp only [fillPix_one, List.getD_cons_zero, Nat.mul_one] at ra rb e
  unfold nvEncDoubledRow
  rw [e]
  simp only [Outcome.bind_ok]
  by_cases hfin : cx = w
  · subst hfin
    rw [if_pos rfl]
    refine ⟨ga, gb, gc, ?_, fun x hx => .inr (ra x hx), fun x hx => .inr (rb x hx),
      fun c h => .inr (rc c ?_)⟩
    · simp [chromaDone, ceil2]
    · unfold chromaDone; unfold ceil2 at h; omega
  rw [if_neg hfin]
  have hdn : chromaDone 2 cx = cx / 2 := by unfold chromaDone; omega
  rw [hdn] at rc
  rw [hdn, Nat.mul_comm (cx / 2) 2]
  obtain ⟨fa, gfa, hfa⟩ := split_fun cx ga fun x => F.y (rowPx r0 cn x)
  obtain ⟨fb, gfb, hfb⟩ := split_fun cx gb fun x => F.low r0 r1 cn x
  obtain ⟨fc, gfc, hfc⟩ := split_pair (cx / 2) gc (fun c => F.uv o (decide (2 * c + 1 = w))
    (rowBlock r0 cn w 2 c ++ rowBlock r1 cn w 2 c)) (fun _ => EncFun.uv_length)
  have e0 : fillTo ga cx y0 = fillTo fa (2 * (cx / 2)) y0 := by
    rw [show 2 * (cx / 2) = cx by omega]; exact fillTo_congr gfa
  have e1 : fillTo gb cx y1 = fillTo fb (2 * (cx / 2)) y1 := by
    rw [show 2 * (cx / 2) = cx by omega]; exact fillTo_congr gfb
  have e2 : fillTo gc (2 * (cx / 2)) uv = fillTo fc (2 * (cx / 2)) uv := fillTo_congr gfc
  have hk : min (min (min (min ((fillTo ga cx y0).length / 2) ((fillTo gb cx y1).length / 2))
      ((fillTo gc (2 * (cx / 2)) uv).length / 2)) (r0.length / (2 * cn))) (r1.length / (2 * cn))
      = w / 2 := by
    rw [fillTo_length (by omega), fillTo_length (by omega), fillTo_length (by unfold ceil2 at hu; omega),
      hy0, hy1, hu, hr0, hr1, div_two_cn hcn]
    unfold ceil2; omega
  rw [hk, e0, e1, e2]
  clear hk e0 e1 e2 e d0 d1 du
  rw [forRange_ok (T := fun j => (fillTo fa (2 * j) y0, fillTo fb (2 * j) y1, fillTo fc (2 * j) uv))
    (by omega)]
  · refine ⟨fa, fb, fc, ?_, ?_, ?_, ?_⟩
    · simp only [Outcome.bind_ok]
      by_cases hodd : w % 2 = 0
      · rw [if_pos hodd, show 2 * (w / 2) = w by omega, show ceil2 w * 2 = w by unfold ceil2; omega]; rfl
      · have hrl0 := rowPx_length (row := r0) (cn := cn) (x := w - 1) (w := w) (by omega) (by omega)
        have hrl1 := rowPx_length (row := r1) (cn := cn) (x := w - 1) (w := w) (by omega) (by omega)
        rw [if_neg hodd, remainder_px hcn hr0 (by omega), remainder_px hcn hr1 (by omega),
          slice_ok (by omega) (by omega), slice_ok (by omega) (by omega)]
        simp only [Outcome.bind_ok, List.drop_zero, Nat.sub_zero]
        rw [List.take_of_length_le (by omega), List.take_of_length_le (by omega),
          hE.tail2 _ _ hrl0 hrl1 (bnd_rowPx hB0) (bnd_rowPx hB1)]
        simp only [Outcome.bind_ok]
        have hb0 := rowBlock_last (row := r0) (cn := cn) (w := w) (c := w / 2) (by omega)
        have hb1 := rowBlock_last (row := r1) (cn := cn) (w := w) (c := w / 2) (by omega)
        rw [show 2 * (w / 2) = w - 1 by omega] at hb0 hb1
        have hdec : decide (2 * (w / 2) + 1 = w) = true := decide_eq_true (by omega)
        have hcw : ceil2 w = w / 2 + 1 := by unfold ceil2; omega
        obtain ⟨_, p0, p1⟩ := hfc (w / 2) (by omega)
        rw [hb0, hb1, hdec, List.cons_append, List.nil_append] at p0 p1
        have hset := setLastPair_fill (n := w / 2) (m := 2 * (w / 2)) (f := fc) (g := fc) (l := uv)
          (c := F.uv o true [rowPx r0 cn (w - 1), rowPx r1 cn (w - 1)]) (by omega) (by omega)
          EncFun.uv_length (fun _ _ => rfl) p0 p1
        unfold EncFun.uv at hset
        rw [hset]
        simp only [Outcome.bind_ok]
        rw [setRem_fill (n := w - 1) (g := fa) (by omega) (by omega) (by omega) (fun _ _ => rfl)
          (by rw [hfa _ (by omega)])]
        simp only [Outcome.bind_ok]
        rw [setLastY1_fill (n := w - 1) (g := fb) (hf.imp id fun h => by omega) (by omega) (by omega)
          (by omega) (fun _ _ => rfl)
          (by rw [hfb _ (by omega), EncFun.low, if_neg (by omega)])]
        simp only [Outcome.bind_ok, Outcome.pure_eq]
        rw [show w - 1 + 1 = w by omega, hcw, show (w / 2 + 1) * 2 = 2 * (w / 2) + 2 by omega]
    · intro x hx
      by_cases h : x < cx
      · right; rw [← gfa x h]; exact ra x h
      · left; exact hfa x (by omega)
    · intro x hx
      by_cases h : x < cx
      · right; rw [← gfb x h]; exact rb x h
      · left; exact hfb x (by omega)
    · intro c h
      by_cases h : c < cx / 2
      · right
        have := rc c h
        rw [fillPix_two] at this ⊢
        rw [← gfc _ (by omega), ← gfc _ (by omega)]; exact this
      · left; exact (hfc c (by omega)).1
  · intro j h1 h2
    have hb0 := rowBlock_two (row := r0) (cn := cn) (w := w) (c := j) (by omega)
    have hb1 := rowBlock_two (row := r1) (cn := cn) (w := w) (c := j) (by omega)
    have hdec : decide (2 * j + 1 = w) = false := decide_eq_false (by omega)
    simp only
    rw [chunk_pair (w := w) (row := r0) (by omega) (by omega),
      chunk_pair (w := w) (row := r1) (by omega) (by omega),
      hE.quad _ _ _ _ (rowPx_length (w := w) (by omega) (by omega))
        (rowPx_length (w := w) (by omega) (by omega)) (rowPx_length (w := w) (by omega) (by omega))
        (rowPx_length (w := w) (by omega) (by omega)) (bnd_rowPx hB0) (bnd_rowPx hB0)
        (bnd_rowPx hB1) (bnd_rowPx hB1)]
    simp only [Outcome.bind_ok, Outcome.pure_eq]
    obtain ⟨_, p0, p1⟩ := hfc j (by omega)
    rw [hb0, hb1, hdec, List.cons_append, List.cons_append, List.nil_append] at p0 p1
    rw [setChunk_fill2 (l := y0) (by omega) (by rw [hfa _ (by omega)]) (by rw [hfa _ (by omega)]),
      setChunk_fill2 (l := y1) (by omega) (by rw [hfb _ (by omega), EncFun.low, if_neg (by omega)])
        (by rw [hfb _ (by omega), EncFun.low, if_pos (by omega)]),
      setChunk_fillUV (by unfold ceil2 at hu; omega) orderUV_length p0 p1]

end Verif
