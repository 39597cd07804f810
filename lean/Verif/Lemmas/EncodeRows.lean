import Verif.Lemmas.Fill
/-! # Rows of the encoders -/
namespace Verif
open Spec

/-! ## Pixels of a row -/

/-- Pixel `x` of a row. -/
abbrev rowPx (row : Buf) (cn x : Nat) : Buf := pixelAt row 0 cn x 0

theorem rowPx_eq {row : Buf} {cn x : Nat} : rowPx row cn x = chunk cn row x := by
  simp [rowPx, pixelAt, chunk]

theorem rowPx_length {row : Buf} {cn x w : Nat} (h : w * cn ≤ row.length) (hx : x < w) :
    (rowPx row cn x).length = cn := by
  rw [rowPx_eq]
  have := succ_mul_le_of_lt cn hx
  exact chunk_length (by omega)

theorem bnd_rowPx {row : Buf} {B cn x : Nat} (h : ∀ s ∈ row, s < B) : ∀ s ∈ rowPx row cn x, s < B := by
  intro s hs
  exact h s (List.mem_of_mem_drop (List.mem_of_mem_take hs))

theorem chunk_pair {row : Buf} {cn j w : Nat} (h : w * cn ≤ row.length) (hj : 2 * j + 1 < w) :
    chunk (2 * cn) row j = rowPx row cn (2 * j) ++ rowPx row cn (2 * j + 1) := by
  have h1 := succ_mul_le_of_lt cn hj
  have e1 : 2 * j * cn = j * (2 * cn) := by rw [Nat.mul_comm 2 j, Nat.mul_assoc]
  have e2 : (2 * j + 1) * cn = j * (2 * cn) + cn := by rw [Nat.add_mul, e1, Nat.one_mul]
  rw [rowPx_eq, rowPx_eq]
  unfold chunk
  rw [e1, e2, ← List.drop_drop, show 2 * cn = cn + cn by omega, List.take_add]

theorem remainder_px {row : Buf} {cn w : Nat} (hcn : 0 < cn) (h : row.length = w * cn)
    (hw : w % 2 = 1) : remainder (2 * cn) row = rowPx row cn (w - 1) := by
  have e : row.length / (2 * cn) = w / 2 := by
    rw [h, Nat.mul_comm 2 cn, ← Nat.div_div_eq_div_mul, Nat.mul_div_cancel _ hcn]
  have e2 : w / 2 * (2 * cn) = (w - 1) * cn := by
    rw [← Nat.mul_assoc]; congr 1; omega
  rw [rowPx_eq]
  unfold remainder chunk
  rw [e, e2, List.take_of_length_le]
  rw [List.length_drop, h, Nat.sub_mul]; omega

theorem div_two_cn {w cn : Nat} (hcn : 0 < cn) : w * cn / (2 * cn) = w / 2 := by
  rw [Nat.mul_comm 2 cn, ← Nat.div_div_eq_div_mul, Nat.mul_div_cancel _ hcn]

theorem blockCols_one {n c : Nat} (h : c < n) : blockCols n 1 c = [c] := by
  simp [blockCols, List.range_succ, h]
theorem blockCols_two {n c : Nat} (h : 2 * c + 1 < n) : blockCols n 2 c = [2 * c, 2 * c + 1] := by
  simp [blockCols, List.range_succ]; omega
theorem blockCols_two_last {n c : Nat} (h : 2 * c + 1 = n) : blockCols n 2 c = [2 * c] := by
  subst h
  simp [blockCols, List.range_succ]

theorem rowBlock_one {row : Buf} {cn w c : Nat} (h : c < w) :
    rowBlock row cn w 1 c = [rowPx row cn c] := by
  simp [rowBlock, block, blockCols_one h, blockCols_one (show 0 < 1 by omega)]
theorem rowBlock_two {row : Buf} {cn w c : Nat} (h : 2 * c + 1 < w) :
    rowBlock row cn w 2 c = [rowPx row cn (2 * c), rowPx row cn (2 * c + 1)] := by
  simp [rowBlock, block, blockCols_two h, blockCols_one (show 0 < 1 by omega)]
theorem rowBlock_last {row : Buf} {cn w c : Nat} (h : 2 * c + 1 = w) :
    rowBlock row cn w 2 c = [rowPx row cn (2 * c)] := by
  simp [rowBlock, block, blockCols_two_last h, blockCols_one (show 0 < 1 by omega)]

/-! ## What the arithmetic must satisfy -/

/-- The values a converter stores: luma of a pixel, Cb and Cr of a list of pixels (the flag is set
for the last column of two rows of odd width), and the luma of the last pixel of a two-row block
given the pixel above it. -/
structure EncFun where
  y : Buf → Nat
  y11 : Buf → Buf → Nat
  u : Bool → List Buf → Nat
  v : Bool → List Buf → Nat

/-- The block arithmetic `E` computes the functions `F` on pixels of `cn` components below `B`. -/
structure BlocksOk (E : PixelBlocks) (B cn : Nat) (F : EncFun) : Prop where
  one : ∀ a : Buf, a.length = cn → (∀ s ∈ a, s < B) →
    E.one a = .ok (F.y a, F.u false [a], F.v false [a])
  pair : ∀ a b : Buf, a.length = cn → b.length = cn → (∀ s ∈ a, s < B) → (∀ s ∈ b, s < B) →
    E.pair (a ++ b) = .ok (F.y a, F.y b, F.u false [a, b], F.v false [a, b])
  tail : ∀ a : Buf, a.length = cn → (∀ s ∈ a, s < B) →
    E.tail a = .ok (F.y a, F.u false [a], F.v false [a])
  quad : ∀ a b c d : Buf, a.length = cn → b.length = cn → c.length = cn → d.length = cn →
    (∀ s ∈ a, s < B) → (∀ s ∈ b, s < B) → (∀ s ∈ c, s < B) → (∀ s ∈ d, s < B) →
    E.quad (a ++ b) (c ++ d) = .ok (F.y a, F.y b, F.y c, F.y11 b d, F.u false [a, b, c, d],
      F.v false [a, b, c, d])
  tail2 : ∀ a b : Buf, a.length = cn → b.length = cn → (∀ s ∈ a, s < B) → (∀ s ∈ b, s < B) →
    E.tail2 a b = .ok (F.y a, F.y b, F.u true [a, b], F.v true [a, b])

/-- Luma of pixel `x` of the second row of a pair. -/
def EncFun.low (F : EncFun) (r0 r1 : Buf) (cn x : Nat) : Nat :=
  if x % 2 = 1 then F.y11 (rowPx r0 cn x) (rowPx r1 cn x) else F.y (rowPx r1 cn x)

/-- A function given by one rule below `n` and another from `n` on. -/
theorem split_fun (n : Nat) (g h : Nat → Nat) :
    ∃ f : Nat → Nat, (∀ x, x < n → g x = f x) ∧ (∀ x, n ≤ x → f x = h x) :=
  ⟨fun x => if x < n then g x else h x, fun _ hx => (if_pos hx).symm, fun _ hx => if_neg (by omega)⟩

theorem ceil2_cover {w : Nat} (h : 0 < w) : (w - 1) / 2 + 1 = ceil2 w := by unfold ceil2; omega

/-! ## Planar rows -/

theorem encHalvedRow_rel {w cn B : Nat} (hcn : 0 < cn) (hw : 0 < w) {E : PixelBlocks} {F : EncFun}
    {R : EncRel} {hd : RowEncoder} (hE : BlocksOk E B cn F) (hH : hd.Ok B cn w 2 R)
    {y u v rgba : Buf} (hy : y.length = w) (hu : u.length = ceil2 w) (hv : v.length = ceil2 w)
    (hr : rgba.length = w * cn) (hB : ∀ s ∈ rgba, s < B) :
    ∃ fy fu fv, encHalvedRow w cn E hd y u v rgba
        = .ok (fillTo fy w y, fillTo fu (ceil2 w) u, fillTo fv (ceil2 w) v) ∧
      (∀ x, x < w → fy x = F.y (rowPx rgba cn x) ∨ R.y (rowPx rgba cn x) (fy x)) ∧
      (∀ c, c < ceil2 w → fu c = F.u false (rowBlock rgba cn w 2 c) ∨
        R.u false (rowBlock rgba cn w 2 c) (fu c)) ∧
      (∀ c, c < ceil2 w → fv c = F.v false (rowBlock rgba cn w 2 c) ∨
        R.v false (rowBlock rgba cn w 2 c) (fv c)) := by
  have hc := ceil2_cover hw
  obtain ⟨y', u', v', cx, e, dy, du, dv⟩ := hH y u v rgba hB (by omega) (by omega) (by omega) (by omega)
  obtain ⟨hcx, hev, dy⟩ := dy
  have hdone : chromaDone 2 cx ≤ ceil2 w := by unfold chromaDone ceil2; omega
  obtain ⟨gy, rfl, ry⟩ := frameRel_fill (by omega) (by omega) dy
  obtain ⟨gu, rfl, ru⟩ := frameRel_fill (by omega) (by omega) du
  obtain ⟨gv, rfl, rv⟩ := frameRel_fill (by omega) (by omega) dv
  simp only [fillPix_one, List.getD_cons_zero, Nat.mul_one] at ry ru rv e
  unfold encHalvedRow
  rw [e]
  simp only [Outcome.bind_ok]
  by_cases hfin : cx = w
  · subst hfin
    rw [if_pos rfl]
    refine ⟨gy, gu, gv, ?_, fun x hx => .inr (ry x hx), fun c h => .inr (ru c ?_), fun c h => .inr (rv c ?_)⟩
    · simp [chromaDone, ceil2]
    · unfold chromaDone; unfold ceil2 at h; omega
    · unfold chromaDone; unfold ceil2 at h; omega
  rw [if_neg hfin]
  have hev : cx % 2 = 0 := by omega
  have hdn : chromaDone 2 cx = cx / 2 := by unfold chromaDone; omega
  rw [hdn] at ru rv e
  rw [hdn]
  let fy := fun x => if x < cx then gy x else F.y (rowPx rgba cn x)
  let fu := fun c => if c < cx / 2 then gu c else F.u false (rowBlock rgba cn w 2 c)
  let fv := fun c => if c < cx / 2 then gv c else F.v false (rowBlock rgba cn w 2 c)
  have hfy : ∀ x, cx ≤ x → fy x = F.y (rowPx rgba cn x) := fun x hx => if_neg (by omega)
  have hfu : ∀ c, cx / 2 ≤ c → fu c = F.u false (rowBlock rgba cn w 2 c) := fun c hc => if_neg (by omega)
  have hfv : ∀ c, cx / 2 ≤ c → fv c = F.v false (rowBlock rgba cn w 2 c) := fun c hc => if_neg (by omega)
  have e1 : fillTo gy cx y = fillTo fy (2 * (cx / 2)) y := by
    rw [show 2 * (cx / 2) = cx by omega]; exact fillTo_congr fun i hi => (if_pos hi).symm
  have e2 : fillTo gu (cx / 2) u = fillTo fu (cx / 2) u := fillTo_congr fun i hi => (if_pos hi).symm
  have e3 : fillTo gv (cx / 2) v = fillTo fv (cx / 2) v := fillTo_congr fun i hi => (if_pos hi).symm
  have hk : min (min (min ((fillTo gy cx y).length / 2) (fillTo gu (cx / 2) u).length)
      (fillTo gv (cx / 2) v).length) (rgba.length / (2 * cn)) = w / 2 := by
    rw [fillTo_length (by omega), fillTo_length (by omega), fillTo_length (by omega), hy, hu, hv, hr,
      div_two_cn hcn]
    unfold ceil2; omega
  rw [hk, e1, e2, e3]
  rw [forRange_ok (T := fun j => (fillTo fy (2 * j) y, fillTo fu j u, fillTo fv j v)) (by omega)]
  · have base : (∀ x, x < w → fy x = F.y (rowPx rgba cn x) ∨ R.y (rowPx rgba cn x) (fy x)) ∧
        (∀ c, c < ceil2 w → fu c = F.u false (rowBlock rgba cn w 2 c) ∨
          R.u false (rowBlock rgba cn w 2 c) (fu c)) ∧
        (∀ c, c < ceil2 w → fv c = F.v false (rowBlock rgba cn w 2 c) ∨
          R.v false (rowBlock rgba cn w 2 c) (fv c)) := by
      refine ⟨fun x hx => ?_, fun c h => ?_, fun c h => ?_⟩
      · by_cases h : x < cx
        · right; simp only [fy, if_pos h]; exact ry x h
        · left; exact hfy x (by omega)
      · by_cases h : c < cx / 2
        · right; simp only [fu, if_pos h]; exact ru c h
        · left; exact hfu c (by omega)
      · by_cases h : c < cx / 2
        · right; simp only [fv, if_pos h]; exact rv c h
        · left; exact hfv c (by omega)
    refine ⟨fy, fu, fv, ?_, base⟩
    simp only [Outcome.bind_ok]
    by_cases hodd : w % 2 = 0
    · rw [if_pos hodd, show 2 * (w / 2) = w by omega, show ceil2 w = w / 2 by unfold ceil2; omega]; rfl
    · rw [if_neg hodd, remainder_px hcn hr (by omega),
        hE.tail _ (rowPx_length (w := w) (by omega) (by omega)) (bnd_rowPx hB)]
      simp only [Outcome.bind_ok]
      have hb := rowBlock_last (row := rgba) (cn := cn) (w := w) (c := w / 2) (by omega)
      have hpx : rowPx rgba cn (2 * (w / 2)) = rowPx rgba cn (w - 1) := by congr 1; omega
      have hcw : ceil2 w = w / 2 + 1 := by unfold ceil2; omega
      rw [hpx] at hb
      rw [setLast_fill (n := w - 1) (g := fy) (by omega) (by omega) (fun _ _ => rfl)
        (by rw [hfy _ (by omega)])]
      simp only [Outcome.bind_ok]
      rw [setLast_fill (n := w / 2) (g := fu) (by omega) (by omega) (fun _ _ => rfl)
        (by rw [hfu _ (by omega), hb])]
      simp only [Outcome.bind_ok]
      rw [setLast_fill (n := w / 2) (g := fv) (by omega) (by omega) (fun _ _ => rfl)
        (by rw [hfv _ (by omega), hb])]
      simp only [Outcome.bind_ok, Outcome.pure_eq]
      rw [show w - 1 + 1 = w by omega, hcw]
  · intro j h1 h2
    have hb := rowBlock_two (row := rgba) (cn := cn) (w := w) (c := j) (by omega)
    simp only
    rw [chunk_pair (w := w) (by omega) (by omega), hE.pair _ _ (rowPx_length (w := w) (by omega) (by omega))
      (rowPx_length (w := w) (by omega) (by omega)) (bnd_rowPx hB) (bnd_rowPx hB)]
    simp only [Outcome.bind_ok, Outcome.pure_eq]
    rw [setChunk_fill2 (by omega) (by rw [hfy _ (by omega)]) (by rw [hfy _ (by omega)]),
      setChunk_fill1 (by unfold ceil2 at hu; omega) (by rw [hfu _ (by omega), hb]),
      setChunk_fill1 (by unfold ceil2 at hv; omega) (by rw [hfv _ (by omega), hb])]

theorem encFullRow_rel {w cn B : Nat} (hcn : 0 < cn) (hw : 0 < w) {E : PixelBlocks} {F : EncFun}
    {R : EncRel} {hd : RowEncoder} (hE : BlocksOk E B cn F) (hH : hd.Ok B cn w 1 R)
    {y u v rgba : Buf} (hy : y.length = w) (hu : w ≤ u.length) (hv : w ≤ v.length)
    (hr : w * cn ≤ rgba.length) (hB : ∀ s ∈ rgba, s < B) :
    ∃ fy fu fv, encFullRow w cn E hd y u v rgba
        = .ok (fillTo fy w y, fillTo fu w u, fillTo fv w v) ∧
      (∀ x, x < w → fy x = F.y (rowPx rgba cn x) ∨ R.y (rowPx rgba cn x) (fy x)) ∧
      (∀ c, c < w → fu c = F.u false (rowBlock rgba cn w 1 c) ∨
        R.u false (rowBlock rgba cn w 1 c) (fu c)) ∧
      (∀ c, c < w → fv c = F.v false (rowBlock rgba cn w 1 c) ∨
        R.v false (rowBlock rgba cn w 1 c) (fv c)) := by
  obtain ⟨y', u', v', cx, e, dy, du, dv⟩ := hH y u v rgba hB (by omega)
    (by rw [Nat.div_one]; omega) (by rw [Nat.div_one]; omega) (by omega)
  obtain ⟨hcx, hev, dy⟩ := dy
  have hdn : chromaDone 1 cx = cx := by simp [chromaDone]
  rw [hdn] at du dv
  obtain ⟨gy, rfl, ry⟩ := frameRel_fill (by omega) (by omega) dy
  obtain ⟨gu, rfl, ru⟩ := frameRel_fill (by omega) (by omega) du
  obtain ⟨gv, rfl, rv⟩ := frameRel_fill (by omega) (by omega) dv
  simp only [fillPix_one, List.getD_cons_zero, Nat.mul_one] at ry ru rv e
  unfold encFullRow
  rw [e]
  simp only [Outcome.bind_ok]
  by_cases hfin : cx = w
  · subst hfin
    rw [if_pos rfl]
    exact ⟨gy, gu, gv, rfl, fun x hx => .inr (ry x hx), fun c h => .inr (ru c h),
      fun c h => .inr (rv c h)⟩
  rw [if_neg hfin]
  let fy := fun x => if x < cx then gy x else F.y (rowPx rgba cn x)
  let fu := fun c => if c < cx then gu c else F.u false (rowBlock rgba cn w 1 c)
  let fv := fun c => if c < cx then gv c else F.v false (rowBlock rgba cn w 1 c)
  have hfy : ∀ x, cx ≤ x → fy x = F.y (rowPx rgba cn x) := fun x hx => if_neg (by omega)
  have hfu : ∀ c, cx ≤ c → fu c = F.u false (rowBlock rgba cn w 1 c) := fun c hc => if_neg (by omega)
  have hfv : ∀ c, cx ≤ c → fv c = F.v false (rowBlock rgba cn w 1 c) := fun c hc => if_neg (by omega)
  have e1 : fillTo gy cx y = fillTo fy cx y := fillTo_congr fun i hi => (if_pos hi).symm
  have e2 : fillTo gu cx u = fillTo fu cx u := fillTo_congr fun i hi => (if_pos hi).symm
  have e3 : fillTo gv cx v = fillTo fv cx v := fillTo_congr fun i hi => (if_pos hi).symm
  have hq : w ≤ rgba.length / cn := (Nat.le_div_iff_mul_le hcn).2 hr
  have hk : min (min (min (fillTo gy cx y).length (fillTo gu cx u).length)
      (fillTo gv cx v).length) (rgba.length / cn) = w := by
    rw [fillTo_length (by omega), fillTo_length (by omega), fillTo_length (by omega), hy]
    generalize rgba.length / cn = q at *
    omega
  rw [hk, e1, e2, e3]
  rw [forRange_ok (T := fun j => (fillTo fy j y, fillTo fu j u, fillTo fv j v)) (by omega)]
  · refine ⟨fy, fu, fv, rfl, fun x hx => ?_, fun c h => ?_, fun c h => ?_⟩
    · by_cases h : x < cx
      · right; simp only [fy, if_pos h]; exact ry x h
      · left; exact hfy x (by omega)
    · by_cases h : c < cx
      · right; simp only [fu, if_pos h]; exact ru c h
      · left; exact hfu c (by omega)
    · by_cases h : c < cx
      · right; simp only [fv, if_pos h]; exact rv c h
      · left; exact hfv c (by omega)
  · intro j h1 h2
    have hb := rowBlock_one (row := rgba) (cn := cn) (w := w) (c := j) (by omega)
    simp only
    rw [← rowPx_eq, hE.one _ (rowPx_length (w := w) (by omega) (by omega)) (bnd_rowPx hB)]
    simp only [Outcome.bind_ok, Outcome.pure_eq]
    rw [setChunk_fill1 (by omega) (by rw [hfy _ (by omega)]),
      setChunk_fill1 (by omega) (by rw [hfu _ (by omega), hb]),
      setChunk_fill1 (by omega) (by rw [hfv _ (by omega), hb])]

/-- The last column of a pair of rows of odd width. -/
theorem encTail2_ok {w cn B n : Nat} (hcn : 0 < cn) {E : PixelBlocks} {F : EncFun}
    (hE : BlocksOk E B cn F) {y0 y1 u v r0 r1 : Buf} (hy0 : y0.length = w) (hy1 : y1.length = w)
    (hu : u.length = ceil2 w) (hv : v.length = ceil2 w) (hr0 : r0.length = w * cn)
    (hr1 : r1.length = w * cn) (hB0 : ∀ s ∈ r0, s < B) (hB1 : ∀ s ∈ r1, s < B)
    {fa fb fu fv : Nat → Nat}
    (hfa : ∀ x, 2 * n ≤ x → fa x = F.y (rowPx r0 cn x))
    (hfb : ∀ x, 2 * n ≤ x → fb x = F.low r0 r1 cn x)
    (hfu : ∀ c, n ≤ c → fu c = F.u (decide (2 * c + 1 = w)) (rowBlock r0 cn w 2 c ++ rowBlock r1 cn w 2 c))
    (hfv : ∀ c, n ≤ c → fv c = F.v (decide (2 * c + 1 = w)) (rowBlock r0 cn w 2 c ++ rowBlock r1 cn w 2 c))
    (ha hb hc hd : Nat → Nat) (p q : Nat) (hodd : w % 2 = 1)
    (hp : p = w - 1 ∨ p = w - 1 + 1) (hq : q = w / 2 ∨ q = w / 2 + 1)
    (ea : ∀ i, i < w - 1 → ha i = fa i) (eb : ∀ i, i < w - 1 → hb i = fb i)
    (ec : ∀ i, i < w / 2 → hc i = fu i) (ed : ∀ i, i < w / 2 → hd i = fv i)
    (hn2 : 2 * n ≤ w - 1) :
    (do
      let (a, b, cb, cr) ← E.tail2 (remainder (2 * cn) r0) (remainder (2 * cn) r1)
      let y0 ← setLast (fillTo ha p y0) a
      let y1 ← setLast (fillTo hb p y1) b
      let u ← setLast (fillTo hc q u) cb
      let v ← setLast (fillTo hd q v) cr
      return (y0, y1, u, v) : Outcome (Buf × Buf × Buf × Buf))
    = .ok (fillTo fa w y0, fillTo fb w y1, fillTo fu (ceil2 w) u, fillTo fv (ceil2 w) v) := by
  have hw1 : w - 1 < w := by omega
  rw [remainder_px hcn hr0 hodd, remainder_px hcn hr1 hodd,
    hE.tail2 _ _ (rowPx_length (w := w) (by omega) hw1)
      (rowPx_length (w := w) (by omega) hw1) (bnd_rowPx hB0) (bnd_rowPx hB1)]
  have hb0 := rowBlock_last (row := r0) (cn := cn) (w := w) (c := w / 2) (by omega)
  have hb1 := rowBlock_last (row := r1) (cn := cn) (w := w) (c := w / 2) (by omega)
  have hcw : ceil2 w = w / 2 + 1 := by unfold ceil2; omega
  rw [show 2 * (w / 2) = w - 1 by omega] at hb0 hb1
  have hdec : decide (2 * (w / 2) + 1 = w) = true := decide_eq_true (by omega)
  have hnw : n ≤ w / 2 := by omega
  simp only [Outcome.bind_ok]
  rw [setLast_fill (n := w - 1) (g := fa) (by omega) hp ea (by rw [hfa _ hn2])]
  simp only [Outcome.bind_ok]
  rw [setLast_fill (n := w - 1) (g := fb) (by omega) hp eb
    (by rw [hfb _ hn2, EncFun.low, if_neg (by omega)])]
  simp only [Outcome.bind_ok]
  rw [setLast_fill (n := w / 2) (g := fu) (by omega) hq ec
    (by rw [hfu _ hnw, hb0, hb1, hdec, List.cons_append, List.nil_append])]
  simp only [Outcome.bind_ok]
  rw [setLast_fill (n := w / 2) (g := fv) (by omega) hq ed
    (by rw [hfv _ hnw, hb0, hb1, hdec, List.cons_append, List.nil_append])]
  simp only [Outcome.bind_ok, Outcome.pure_eq]
  rw [show w - 1 + 1 = w by omega, hcw]

theorem encDoubledRow_rel {skip : Bool} {w cn B : Nat} (hcn : 0 < cn) (hw : 0 < w) {E : PixelBlocks}
    {F : EncFun} {R : EncRel} {hd : RowEncoder420} (hE : BlocksOk E B cn F) (hH : hd.Ok B cn w R)
    {y0 y1 u v r0 r1 : Buf} (hy0 : y0.length = w) (hy1 : y1.length = w) (hu : u.length = ceil2 w)
    (hv : v.length = ceil2 w) (hr0 : r0.length = w * cn) (hr1 : r1.length = w * cn)
    (hB0 : ∀ s ∈ r0, s < B) (hB1 : ∀ s ∈ r1, s < B) :
    ∃ fa fb fu fv, encDoubledRow skip w cn E hd y0 y1 u v r0 r1
        = .ok (fillTo fa w y0, fillTo fb w y1, fillTo fu (ceil2 w) u, fillTo fv (ceil2 w) v) ∧
      (∀ x, x < w → fa x = F.y (rowPx r0 cn x) ∨ R.y (rowPx r0 cn x) (fa x)) ∧
      (∀ x, x < w → fb x = F.low r0 r1 cn x ∨ R.y (rowPx r1 cn x) (fb x)) ∧
      (∀ c, c < ceil2 w → fu c = F.u (decide (2 * c + 1 = w)) (rowBlock r0 cn w 2 c ++ rowBlock r1 cn w 2 c) ∨
        R.u (decide (2 * c + 1 = w)) (rowBlock r0 cn w 2 c ++ rowBlock r1 cn w 2 c) (fu c)) ∧
      (∀ c, c < ceil2 w → fv c = F.v (decide (2 * c + 1 = w)) (rowBlock r0 cn w 2 c ++ rowBlock r1 cn w 2 c) ∨
        R.v (decide (2 * c + 1 = w)) (rowBlock r0 cn w 2 c ++ rowBlock r1 cn w 2 c) (fv c)) := by
  have hc := ceil2_cover hw
  obtain ⟨y0', y1', u', v', cx, e, d0, d1, du, dv⟩ := hH y0 y1 u v r0 r1 hB0 hB1 (by omega) (by omega)
    (by omega) (by omega) (by omega) (by omega)
  obtain ⟨hcx, hev, d0⟩ := d0
  obtain ⟨_, _, d1⟩ := d1
  have hdone : chromaDone 2 cx ≤ ceil2 w := by unfold chromaDone ceil2; omega
  obtain ⟨ga, rfl, ra⟩ := frameRel_fill (by omega) (by omega) d0
  obtain ⟨gb, rfl, rb⟩ := frameRel_fill (by omega) (by omega) d1
  obtain ⟨gu, rfl, ru⟩ := frameRel_fill (by omega) (by omega) du
  obtain ⟨gv, rfl, rv⟩ := frameRel_fill (by omega) (by omega) dv
  simp only [fillPix_one, List.getD_cons_zero, Nat.mul_one] at ra rb ru rv e
  unfold encDoubledRow
  rw [e]
  simp only [Outcome.bind_ok]
  by_cases hfin : skip = true ∧ cx = w
  · obtain ⟨rfl, rfl⟩ := hfin
    rw [if_pos ⟨rfl, rfl⟩]
    refine ⟨ga, gb, gu, gv, ?_, fun x hx => .inr (ra x hx), fun x hx => .inr (rb x hx),
      fun c h => .inr (ru c ?_), fun c h => .inr (rv c ?_)⟩
    · simp [chromaDone, ceil2]
    · unfold chromaDone; unfold ceil2 at h; omega
    · unfold chromaDone; unfold ceil2 at h; omega
  rw [if_neg hfin]
  -- `n` pairs are already done; with an odd width finished by the vector code (and no test for
  -- that) the last column is done once more
  have hn : ∃ n, n = cx / 2 := ⟨_, rfl⟩
  obtain ⟨n, hn⟩ := hn
  obtain ⟨fa, gfa, hfa⟩ := split_fun (2 * n) ga fun x => F.y (rowPx r0 cn x)
  obtain ⟨fb, gfb, hfb⟩ := split_fun (2 * n) gb fun x => F.low r0 r1 cn x
  obtain ⟨fu, gfu, hfu⟩ := split_fun n gu fun c =>
    F.u (decide (2 * c + 1 = w)) (rowBlock r0 cn w 2 c ++ rowBlock r1 cn w 2 c)
  obtain ⟨fv, gfv, hfv⟩ := split_fun n gv fun c =>
    F.v (decide (2 * c + 1 = w)) (rowBlock r0 cn w 2 c ++ rowBlock r1 cn w 2 c)
  have hk : min (min (min (min (min ((fillTo ga cx y0).length / 2) ((fillTo gb cx y1).length / 2))
      (fillTo gu (chromaDone 2 cx) u).length) (fillTo gv (chromaDone 2 cx) v).length)
      (r0.length / (2 * cn))) (r1.length / (2 * cn)) = w / 2 := by
    rw [fillTo_length (by omega), fillTo_length (by omega), fillTo_length (by omega),
      fillTo_length (by omega), hy0, hy1, hu, hv, hr0, hr1, div_two_cn hcn]
    unfold ceil2; omega
  have base : (∀ x, x < w → fa x = F.y (rowPx r0 cn x) ∨ R.y (rowPx r0 cn x) (fa x)) ∧
      (∀ x, x < w → fb x = F.low r0 r1 cn x ∨ R.y (rowPx r1 cn x) (fb x)) ∧
      (∀ c, c < ceil2 w → fu c = F.u (decide (2 * c + 1 = w)) (rowBlock r0 cn w 2 c ++ rowBlock r1 cn w 2 c) ∨
        R.u (decide (2 * c + 1 = w)) (rowBlock r0 cn w 2 c ++ rowBlock r1 cn w 2 c) (fu c)) ∧
      (∀ c, c < ceil2 w → fv c = F.v (decide (2 * c + 1 = w)) (rowBlock r0 cn w 2 c ++ rowBlock r1 cn w 2 c) ∨
        R.v (decide (2 * c + 1 = w)) (rowBlock r0 cn w 2 c ++ rowBlock r1 cn w 2 c) (fv c)) := by
    refine ⟨fun x hx => ?_, fun x hx => ?_, fun c h => ?_, fun c h => ?_⟩
    · by_cases h : x < 2 * n
      · right; rw [← gfa x h]; exact ra x (by omega)
      · left; exact hfa x (by omega)
    · by_cases h : x < 2 * n
      · right; rw [← gfb x h]; exact rb x (by omega)
      · left; exact hfb x (by omega)
    · by_cases h : c < n
      · right; rw [← gfu c h]; exact ru c (by unfold chromaDone; omega)
      · left; exact hfu c (by omega)
    · by_cases h : c < n
      · right; rw [← gfv c h]; exact rv c (by unfold chromaDone; omega)
      · left; exact hfv c (by omega)
  rw [hk]
  refine ⟨fa, fb, fu, fv, ?_, base⟩
  by_cases hcw : cx = w
  · -- finished by the vector code but not tested for
    subst hcw
    rw [forRange_empty (by omega)]
    simp only [Outcome.bind_ok]
    by_cases hodd : cx % 2 = 0
    · rw [if_pos hodd]
      have ec : ceil2 cx = cx / 2 := by unfold ceil2; omega
      have ed : chromaDone 2 cx = cx / 2 := by unfold chromaDone; omega
      simp only [Outcome.pure_eq]
      rw [ed, ec, fillTo_congr (f := ga) (g := fa) (fun i hi => gfa i (by omega)),
        fillTo_congr (f := gb) (g := fb) (fun i hi => gfb i (by omega)),
        fillTo_congr (f := gu) (g := fu) (fun i hi => gfu i (by omega)),
        fillTo_congr (f := gv) (g := fv) (fun i hi => gfv i (by omega))]
    · rw [if_neg hodd]
      exact encTail2_ok hcn hE hy0 hy1 hu hv hr0 hr1 hB0 hB1 hfa hfb hfu hfv ga gb gu gv cx (chromaDone 2 cx) (by omega) (by omega)
        (by unfold chromaDone; omega) (fun i hi => gfa i (by omega))
        (fun i hi => gfb i (by omega)) (fun i hi => gfu i (by omega))
        (fun i hi => gfv i (by omega)) (by omega)
  · have hcxn : cx = 2 * n := by omega
    have ed : chromaDone 2 cx = n := by unfold chromaDone; omega
    rw [ed, hcxn, show 2 * n / 2 = n by omega,
      fillTo_congr (f := ga) (g := fa) (fun i hi => gfa i (by omega)),
      fillTo_congr (f := gb) (g := fb) (fun i hi => gfb i (by omega)),
      fillTo_congr (f := gu) (g := fu) (fun i hi => gfu i (by omega)),
      fillTo_congr (f := gv) (g := fv) (fun i hi => gfv i (by omega))]
    rw [forRange_ok (T := fun j => (fillTo fa (2 * j) y0, fillTo fb (2 * j) y1, fillTo fu j u,
      fillTo fv j v)) (by omega)]
    · simp only [Outcome.bind_ok]
      by_cases hodd : w % 2 = 0
      · rw [if_pos hodd, show 2 * (w / 2) = w by omega, show ceil2 w = w / 2 by unfold ceil2; omega]
        rfl
      · rw [if_neg hodd]
        exact encTail2_ok hcn hE hy0 hy1 hu hv hr0 hr1 hB0 hB1 hfa hfb hfu hfv fa fb fu fv _ _ (by omega) (by omega) (by omega) (fun _ _ => rfl)
          (fun _ _ => rfl) (fun _ _ => rfl) (fun _ _ => rfl) (by omega)
    · intro j h1 h2
      have hb0 := rowBlock_two (row := r0) (cn := cn) (w := w) (c := j) (by omega)
      have hb1 := rowBlock_two (row := r1) (cn := cn) (w := w) (c := j) (by omega)
      have hdec : decide (2 * j + 1 = w) = false := decide_eq_false (by omega)
      simp only
      rw [chunk_pair (w := w) (row := r0) (by omega) (by omega),
        chunk_pair (w := w) (row := r1) (by omega) (by omega),
        hE.quad _ _ _ _ (rowPx_length (w := w) (by omega) (by omega))
          (rowPx_length (w := w) (by omega) (by omega)) (rowPx_length (w := w) (by omega) (by omega))
          (rowPx_length (w := w) (by omega) (by omega)) (bnd_rowPx hB0) (bnd_rowPx hB0)
          (bnd_rowPx hB1) (bnd_rowPx hB1)]
      simp only [Outcome.bind_ok, Outcome.pure_eq]
      rw [setChunk_fill2 (l := y0) (by omega) (by rw [hfa _ (by omega)]) (by rw [hfa _ (by omega)]),
        setChunk_fill2 (l := y1) (by omega) (by rw [hfb _ (by omega), EncFun.low, if_neg (by omega)])
          (by rw [hfb _ (by omega), EncFun.low, if_pos (by omega)]),
        setChunk_fill1 (by unfold ceil2 at hu; omega) (by rw [hfu _ (by omega), hb0, hb1, hdec, List.cons_append, List.cons_append, List.nil_append]),
        setChunk_fill1 (by unfold ceil2 at hv; omega) (by rw [hfv _ (by omega), hb0, hb1, hdec, List.cons_append, List.cons_append, List.nil_append])]

end Verif
