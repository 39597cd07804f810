import Verif.Lemmas.FillRows
import Verif.Lemmas.Good
/-! # The loops of the planar encoders -/
namespace Verif
open Spec

/-! ## Pixels and blocks of rows -/

/-- The row holds the first `w` pixels of row `r` of the image. -/
def PxRow (row rgba : Buf) (stride cn w r : Nat) : Prop :=
  ∀ x, x < w → rowPx row cn x = pixelAt rgba stride cn x r

theorem pxRow_chunk {rgba : Buf} {stride cn w r : Nat} (hw : w * cn ≤ stride) :
    PxRow (chunk stride rgba r) rgba stride cn w r := by
  intro x hx
  have := succ_mul_le_of_lt cn hx
  simp only [rowPx, pixelAt, chunk, Nat.zero_mul, Nat.zero_add]
  rw [List.drop_take, List.take_take, List.drop_drop, Nat.min_eq_left (by omega)]

theorem PxRow.take {row rgba : Buf} {stride cn w r : Nat} (h : PxRow row rgba stride cn w r) :
    PxRow (row.take (w * cn)) rgba stride cn w r := by
  intro x hx
  have := succ_mul_le_of_lt cn hx
  rw [← h x hx]
  simp only [rowPx, pixelAt, Nat.zero_mul, Nat.zero_add]
  rw [List.drop_take, List.take_take, Nat.min_eq_left (by omega)]

theorem blockCols_lt {n d c i : Nat} (h : i ∈ blockCols n d c) : i < n := by
  unfold blockCols at h
  have := (List.mem_filter.1 h).2
  simpa using this

theorem PxRow.block {row rgba : Buf} {stride cn w r : Nat} (h : PxRow row rgba stride cn w r)
    {hd c : Nat} : rowBlock row cn w hd c
      = (blockCols w hd c).map fun x => pixelAt rgba stride cn x r := by
  simp only [rowBlock, Spec.block, blockCols_one (show 0 < 1 by omega), List.flatMap_cons,
    List.flatMap_nil, List.append_nil]
  apply List.map_congr_left
  intro x hx
  exact h x (blockCols_lt hx)

theorem PxRow.block1 {row rgba : Buf} {stride cn w r : Nat} (h : PxRow row rgba stride cn w r)
    {hd c hh : Nat} (hr : r < hh) :
    rowBlock row cn w hd c = Spec.block rgba stride cn w hh hd 1 c r := by
  rw [h.block]
  simp [Spec.block, blockCols_one hr]

theorem PxRow.blockLast {row rgba : Buf} {stride cn w r : Nat} {hd c hh : Nat}
    (h : PxRow row rgba stride cn w (2 * r)) (hr : 2 * r + 1 = hh) :
    rowBlock row cn w hd c = Spec.block rgba stride cn w hh hd 2 c r := by
  rw [h.block]
  simp [Spec.block, blockCols_two_last hr]

theorem PxRow.block2 {row0 row1 rgba : Buf} {stride cn w r : Nat} {hd c hh : Nat}
    (h0 : PxRow row0 rgba stride cn w (2 * r)) (h1 : PxRow row1 rgba stride cn w (2 * r + 1))
    (hr : 2 * r + 1 < hh) : rowBlock row0 cn w hd c ++ rowBlock row1 cn w hd c
      = Spec.block rgba stride cn w hh hd 2 c r := by
  rw [h0.block, h1.block]
  simp [Spec.block, blockCols_two hr]

/-! ## What the frame loops produce -/

/-- Luma of pixel `(x, y)`. -/
def EncFun.lumaAt (F : EncFun) (s : Sampling) (rgba : Buf) (stride cn x y : Nat) : Nat :=
  if vdiv s = 2 ∧ y % 2 = 1 ∧ x % 2 = 1 then
    F.y11 (pixelAt rgba stride cn x (y - 1)) (pixelAt rgba stride cn x y)
  else F.y (pixelAt rgba stride cn x y)

/-- The pixels a chroma sample covers. -/
abbrev blk (rgba : Buf) (stride cn w h : Nat) (s : Sampling) (cx cy : Nat) : List Buf :=
  Spec.block rgba stride cn w h (hdiv s) (vdiv s) cx cy
/-- The chroma sample covers the last column of two rows of odd width. -/
abbrev lastCol (w h : Nat) (s : Sampling) (cx cy : Nat) : Bool :=
  lastColumn w h (hdiv s) (vdiv s) cx cy

/-- The luma plane is encoded. -/
def LumaOk (F : EncFun) (R : EncRel) (s : Sampling) (cn w h : Nat) (rgba : Buf) (stride : Nat)
    (ySt : Nat) (dst out : Buf) : Prop :=
  FrameRel out dst ySt w h 1 fun x y p =>
    p = [F.lumaAt s rgba stride cn x y] ∨ R.y (pixelAt rgba stride cn x y) (p.getD 0 0)

/-- A chroma plane is encoded; `f` and `r` are the Cb or Cr part of `EncFun` and `EncRel`. -/
def ChromaOk (f : Bool → List Buf → Nat) (r : Bool → List Buf → Nat → Prop) (s : Sampling) (cn w h : Nat)
    (rgba : Buf) (stride : Nat) (st : Nat) (dst out : Buf) : Prop :=
  FrameRel out dst st (s.chromaWidth w) (s.chromaHeight h) 1 fun cx cy p =>
    p = [f (lastCol w h s cx cy) (blk rgba stride cn w h s cx cy)] ∨
      r (lastCol w h s cx cy) (blk rgba stride cn w h s cx cy) (p.getD 0 0)

/-- The three planes are encoded. -/
def Encoded (F : EncFun) (R : EncRel) (s : Sampling) (cn : Nat) (i : Planar) (rgba : Buf)
    (stride : Nat) (o : Outcome (Buf × Buf × Buf)) : Prop :=
  ∃ y u v, o = .ok (y, u, v) ∧
    LumaOk F R s cn i.width i.height rgba stride i.yStride i.y y ∧
    ChromaOk F.u R.u s cn i.width i.height rgba stride i.uStride i.u u ∧
    ChromaOk F.v R.v s cn i.width i.height rgba stride i.vStride i.v v

theorem lumaAt_y {F : EncFun} {s : Sampling} {rgba : Buf} {stride cn x y : Nat}
    (h : ¬ (vdiv s = 2 ∧ y % 2 = 1 ∧ x % 2 = 1)) :
    F.lumaAt s rgba stride cn x y = F.y (pixelAt rgba stride cn x y) := if_neg h

theorem lumaAt_y11 {F : EncFun} {s : Sampling} {rgba : Buf} {stride cn x y : Nat}
    (h : vdiv s = 2 ∧ y % 2 = 1 ∧ x % 2 = 1) :
    F.lumaAt s rgba stride cn x y
      = F.y11 (pixelAt rgba stride cn x (y - 1)) (pixelAt rgba stride cn x y) := if_pos h

theorem lastCol_false {w h cx cy : Nat} {s : Sampling}
    (hh : ¬ (hdiv s = 2 ∧ vdiv s = 2 ∧ 2 * cx + 1 = w ∧ 2 * cy + 1 < h)) :
    lastCol w h s cx cy = false := decide_eq_false hh

/-- What row `y` of the luma plane holds. -/
def LumaRow (F : EncFun) (R : EncRel) (s : Sampling) (cn w : Nat) (rgba : Buf) (stride y : Nat)
    (f : Nat → Nat) : Prop :=
  ∀ x, x < w → f x = F.lumaAt s rgba stride cn x y ∨ R.y (pixelAt rgba stride cn x y) (f x)

/-- What row `cy` of a chroma plane holds. -/
def ChromaRow (g : Bool → List Buf → Nat) (r : Bool → List Buf → Nat → Prop) (s : Sampling) (cn w h : Nat)
    (rgba : Buf) (stride cy : Nat) (f : Nat → Nat) : Prop :=
  ∀ cx, cx < s.chromaWidth w →
    f cx = g (lastCol w h s cx cy) (blk rgba stride cn w h s cx cy) ∨
      r (lastCol w h s cx cy) (blk rgba stride cn w h s cx cy) (f cx)

theorem lumaOk_of_rows {F : EncFun} {R : EncRel} {s : Sampling} {cn w h : Nat} {rgba : Buf}
    {stride st : Nat} {l : Buf} {Fy : Nat → Nat → Nat} (hst : 0 < st) (hw : w ≤ st)
    (hl : FullRows l.length st h)
    (hF : ∀ y, y < h → LumaRow F R s cn w rgba stride y (Fy y)) :
    LumaOk F R s cn w h rgba stride st l (fillRows st w Fy h l) := by
  have := fillRows_frameRel (w := w) (h := h) (cn := 1) (F := Fy) (l := l)
    (st := st) hst (by omega) (by rw [Nat.mul_comm]; exact hl.1)
    (R := fun x y p => p = [F.lumaAt s rgba stride cn x y] ∨
        R.y (pixelAt rgba stride cn x y) (p.getD 0 0)) (by
      intro x y hx hy
      rw [fillPix_one]
      simp only [List.cons.injEq, and_true, List.getD_cons_zero]
      exact hF y hy x hx)
  rw [Nat.mul_one] at this; exact this

theorem chromaOk_of_rows {g : Bool → List Buf → Nat} {r : Bool → List Buf → Nat → Prop} {s : Sampling}
    {cn w h : Nat} {rgba : Buf} {stride st : Nat} {l : Buf} {Fu : Nat → Nat → Nat} (hst : 0 < st)
    (hw : s.chromaWidth w ≤ st) (hl : FullRows l.length st (s.chromaHeight h))
    (hF : ∀ cy, cy < s.chromaHeight h → ChromaRow g r s cn w h rgba stride cy (Fu cy)) :
    ChromaOk g r s cn w h rgba stride st l (fillRows st (s.chromaWidth w) Fu (s.chromaHeight h) l) := by
  have := fillRows_frameRel (w := s.chromaWidth w) (h := s.chromaHeight h) (cn := 1) (F := Fu) (l := l)
    (st := st) hst (by omega) (by rw [Nat.mul_comm]; exact hl.1)
    (R := fun cx cy p => p = [g (lastCol w h s cx cy) (blk rgba stride cn w h s cx cy)] ∨
      r (lastCol w h s cx cy) (blk rgba stride cn w h s cx cy) (p.getD 0 0)) (by
      intro x y hx hy
      rw [fillPix_one]
      simp only [List.cons.injEq, and_true, List.getD_cons_zero]
      exact hF y hy x hx)
  rw [Nat.mul_one] at this; exact this

section
variable {F : EncFun} {R : EncRel} {s : Sampling} {row rgba : Buf} {stride cn w h r : Nat}

/-- Rows of images whose chroma is not halved vertically. -/
theorem lumaRow_one (hv : vdiv s = 1) (px : PxRow row rgba stride cn w r) {f : Nat → Nat}
    (hf : ∀ x, x < w → f x = F.y (rowPx row cn x) ∨ R.y (rowPx row cn x) (f x)) :
    LumaRow F R s cn w rgba stride r f := by
  intro x hx
  rw [lumaAt_y (by omega), ← px x hx]; exact hf x hx

theorem chromaRow_one (hv : vdiv s = 1) (px : PxRow row rgba stride cn w r) (hr : r < h)
    {g : Bool → List Buf → Nat} {q : Bool → List Buf → Nat → Prop} {f : Nat → Nat}
    (hf : ∀ c, c < s.chromaWidth w → f c = g false (rowBlock row cn w (hdiv s) c) ∨
      q false (rowBlock row cn w (hdiv s) c) (f c)) :
    ChromaRow g q s cn w h rgba stride r f := by
  intro c hc
  have e : blk rgba stride cn w h s c r = rowBlock row cn w (hdiv s) c := by
    unfold blk; rw [hv]; exact (px.block1 hr).symm
  rw [lastCol_false (by omega), e]
  exact hf c hc

/-- The last row of a 4:2:0 image of odd height. -/
theorem lumaRow_last (px : PxRow row rgba stride cn w (h - 1)) (hh : h % 2 = 1) {f : Nat → Nat}
    (hf : ∀ x, x < w → f x = F.y (rowPx row cn x) ∨ R.y (rowPx row cn x) (f x)) :
    LumaRow F R s cn w rgba stride (h - 1) f := by
  intro x hx
  rw [lumaAt_y (by omega), ← px x hx]; exact hf x hx

theorem chromaRow_last (px : PxRow row rgba stride cn w (h - 1)) (hh : h % 2 = 1)
    {g : Bool → List Buf → Nat} {q : Bool → List Buf → Nat → Prop} {f : Nat → Nat}
    (hf : ∀ c, c < ceil2 w → f c = g false (rowBlock row cn w 2 c) ∨
      q false (rowBlock row cn w 2 c) (f c)) :
    ChromaRow g q .yuv420 cn w h rgba stride (h / 2) f := by
  intro c hc
  have e : blk rgba stride cn w h .yuv420 c (h / 2) = rowBlock row cn w 2 c := by
    rw [show h - 1 = 2 * (h / 2) by omega] at px
    exact (px.blockLast (by omega)).symm
  rw [lastCol_false (by omega), e]
  exact hf c hc

/-- The two rows of a 4:2:0 pair. -/
theorem lumaRow_even {q : Nat} (px : PxRow row rgba stride cn w (2 * q)) {f : Nat → Nat}
    (hf : ∀ x, x < w → f x = F.y (rowPx row cn x) ∨ R.y (rowPx row cn x) (f x)) :
    LumaRow F R s cn w rgba stride (2 * q) f := by
  intro x hx
  rw [lumaAt_y (by omega), ← px x hx]; exact hf x hx

theorem lumaRow_odd {q : Nat} {row0 : Buf} (px0 : PxRow row0 rgba stride cn w (2 * q))
    (px : PxRow row rgba stride cn w (2 * q + 1)) {f : Nat → Nat}
    (hf : ∀ x, x < w → f x = F.low row0 row cn x ∨ R.y (rowPx row cn x) (f x)) :
    LumaRow F R .yuv420 cn w rgba stride (2 * q + 1) f := by
  intro x hx
  rw [← px x hx]
  rcases hf x hx with a | a
  · left
    rw [a]
    unfold EncFun.low
    by_cases hx2 : x % 2 = 1
    · rw [if_pos hx2, lumaAt_y11 ⟨rfl, by omega, hx2⟩, px0 x hx, px x hx]; rfl
    · rw [if_neg hx2, lumaAt_y (by omega), px x hx]
  · right; exact a

theorem chromaRow_pair {q : Nat} {row0 : Buf} (px0 : PxRow row0 rgba stride cn w (2 * q))
    (px : PxRow row rgba stride cn w (2 * q + 1)) (hq : 2 * q + 1 < h)
    {g : Bool → List Buf → Nat} {t : Bool → List Buf → Nat → Prop} {f : Nat → Nat}
    (hf : ∀ c, c < ceil2 w →
      f c = g (decide (2 * c + 1 = w)) (rowBlock row0 cn w 2 c ++ rowBlock row cn w 2 c) ∨
      t (decide (2 * c + 1 = w)) (rowBlock row0 cn w 2 c ++ rowBlock row cn w 2 c) (f c)) :
    ChromaRow g t .yuv420 cn w h rgba stride q f := by
  intro c hc
  have e : blk rgba stride cn w h .yuv420 c q = rowBlock row0 cn w 2 c ++ rowBlock row cn w 2 c :=
    (px0.block2 px hq).symm
  have e2 : lastCol w h .yuv420 c q = decide (2 * c + 1 = w) := by
    unfold lastCol lastColumn
    apply decide_eq_decide.2
    exact ⟨fun a => a.2.2.1, fun a => ⟨rfl, rfl, a, hq⟩⟩
  rw [e, e2]
  exact hf c hc
end

section
variable {E : PixelBlocks} {F : EncFun} {R : EncRel} {hd : RowEncoder} {hd2 : RowEncoder420}
  {i : Planar} {rgba : Buf} {stride cn B D : Nat}

theorem encode444_ok (hcn : 0 < cn) (hE : BlocksOk E B cn F) (hH : hd.Ok B cn i.width 1 R)
    (hp : PlanarRows i .yuv444 D) (hs : FullRows rgba.length stride i.height)
    (hw : i.width * cn ≤ stride) (hB : ∀ a ∈ rgba, a < B) :
    Encoded F R .yuv444 cn i rgba stride (encode444 cn E hd i rgba stride) := by
  have hwp := hp.wpos
  have hst : 0 < stride := by
    have := Nat.mul_pos hwp hcn; omega
  have hyw := hp.yw; have huw := hp.uw; have hvw := hp.vw
  simp only [Sampling.chromaWidth] at huw hvw
  have hur := hp.ur; have hvr := hp.vr
  simp only [Sampling.chromaHeight] at hur hvr
  unfold encode444
  rw [if_neg (by omega), fullRows_div hp.yr, fullRows_div hur, fullRows_div hvr, fullRows_div hs,
    Nat.min_self, Nat.min_self, Nat.min_self]
  obtain ⟨Fy, Fu, Fv, e, hF⟩ := rows3_fill (k := i.height) (wy := i.width) (wu := i.width)
    (wv := i.width) (y := i.y) (u := i.u) (v := i.v)
    (P := fun r fy fu fv => LumaRow F R .yuv444 cn i.width rgba stride r fy ∧
      ChromaRow F.u R.u .yuv444 cn i.width i.height rgba stride r fu ∧
      ChromaRow F.v R.v .yuv444 cn i.width i.height rgba stride r fv)
    (ny := i.yStride) (nu := i.uStride) (nv := i.vStride)
    (by omega) (by omega) (by omega) hyw huw hvw
    (by rw [Nat.mul_comm]; exact hp.yr.1) (by rw [Nat.mul_comm]; exact hur.1)
    (by rw [Nat.mul_comm]; exact hvr.1)
    (g := fun r y u v => do
      let ys ← slice y 0 i.width
      let (a, b, c) ← encFullRow i.width cn E hd ys u v (chunk stride rgba r)
      return (a ++ y.drop i.width, b, c)) (by
    intro r hr
    have cy := chunk_length (fullRows_row hp.yr hr)
    have cu := chunk_length (fullRows_row hur hr)
    have cv := chunk_length (fullRows_row hvr hr)
    have cr := chunk_length (fullRows_row hs hr)
    have px := pxRow_chunk (rgba := rgba) (r := r) hw
    obtain ⟨fy, fu, fv, e, h1, h2, h3⟩ := encFullRow_rel hcn hwp hE hH
      (y := (chunk i.yStride i.y r).take i.width) (u := chunk i.uStride i.u r)
      (v := chunk i.vStride i.v r) (rgba := chunk stride rgba r)
      (by rw [List.length_take]; omega) (by omega) (by omega) (by omega) (bnd_chunk hB)
    refine ⟨fy, fu, fv, ?_, lumaRow_one rfl px h1, chromaRow_one rfl px hr h2,
      chromaRow_one rfl px hr h3⟩
    rw [slice_take (by omega)]
    simp only [Outcome.bind_ok]
    rw [e]
    simp only [Outcome.bind_ok, Outcome.pure_eq]
    rw [fillTo_append (by omega)])
  exact ⟨_, _, _, e, lumaOk_of_rows (by omega) hyw hp.yr (fun y hy => (hF y hy).1),
    chromaOk_of_rows (by omega) hp.uw hp.ur (fun y hy => (hF y hy).2.1),
    chromaOk_of_rows (by omega) hp.vw hp.vr (fun y hy => (hF y hy).2.2)⟩

theorem onRow3_rel (hcn : 0 < cn) {w : Nat} (hw : 0 < w) (hE : BlocksOk E B cn F)
    (hH : hd.Ok B cn w 2 R) {y u v row : Buf} (hy : w ≤ y.length) (hu : ceil2 w ≤ u.length)
    (hv : ceil2 w ≤ v.length) (hr : w * cn ≤ row.length) (hB : ∀ a ∈ row, a < B) :
    ∃ fy fu fv, onRow3 w (ceil2 w) cn (encHalvedRow w cn E hd) y u v row
        = .ok (fillTo fy w y, fillTo fu (ceil2 w) u, fillTo fv (ceil2 w) v) ∧
      (∀ x, x < w → fy x = F.y (rowPx (row.take (w * cn)) cn x) ∨
        R.y (rowPx (row.take (w * cn)) cn x) (fy x)) ∧
      (∀ c, c < ceil2 w → fu c = F.u false (rowBlock (row.take (w * cn)) cn w 2 c) ∨
        R.u false (rowBlock (row.take (w * cn)) cn w 2 c) (fu c)) ∧
      (∀ c, c < ceil2 w → fv c = F.v false (rowBlock (row.take (w * cn)) cn w 2 c) ∨
        R.v false (rowBlock (row.take (w * cn)) cn w 2 c) (fv c)) := by
  obtain ⟨fy, fu, fv, e, h⟩ := encHalvedRow_rel hcn hw hE hH (y := y.take w) (u := u.take (ceil2 w))
    (v := v.take (ceil2 w)) (rgba := row.take (w * cn)) (by rw [List.length_take]; omega)
    (by rw [List.length_take]; omega) (by rw [List.length_take]; omega)
    (by rw [List.length_take]; omega) (bnd_take hB)
  refine ⟨fy, fu, fv, ?_, h⟩
  unfold onRow3
  rw [slice_take hy, slice_take hu, slice_take hv, slice_take hr]
  simp only [Outcome.bind_ok]
  rw [e]
  simp only [Outcome.bind_ok, Outcome.pure_eq]
  rw [fillTo_append hy, fillTo_append hu, fillTo_append hv]

theorem encode422_ok (hcn : 0 < cn) (hE : BlocksOk E B cn F) (hH : hd.Ok B cn i.width 2 R)
    (hp : PlanarRows i .yuv422 D) (hs : FullRows rgba.length stride i.height)
    (hw : i.width * cn ≤ stride) (hB : ∀ a ∈ rgba, a < B) {sliced : Bool}
    (hsl : sliced = true ∨ (i.yStride = i.width ∧ i.uStride = ceil2 i.width ∧
      i.vStride = ceil2 i.width ∧ stride = i.width * cn)) :
    Encoded F R .yuv422 cn i rgba stride (encode422 sliced cn E hd i rgba stride) := by
  have hwp := hp.wpos
  have hst : 0 < stride := by
    have := Nat.mul_pos hwp hcn; omega
  have hcp : 0 < ceil2 i.width := ceil2_pos hwp
  have hyw := hp.yw; have huw := hp.uw; have hvw := hp.vw
  simp only [Sampling.chromaWidth] at huw hvw
  have hur := hp.ur; have hvr := hp.vr
  simp only [Sampling.chromaHeight] at hur hvr
  unfold encode422
  rw [if_neg (by omega), fullRows_div hp.yr, fullRows_div hur, fullRows_div hvr, fullRows_div hs,
    Nat.min_self, Nat.min_self, Nat.min_self]
  obtain ⟨Fy, Fu, Fv, e, hF⟩ := rows3_fill (k := i.height) (wy := i.width) (wu := ceil2 i.width)
    (wv := ceil2 i.width) (y := i.y) (u := i.u) (v := i.v)
    (P := fun r fy fu fv => LumaRow F R .yuv422 cn i.width rgba stride r fy ∧
      ChromaRow F.u R.u .yuv422 cn i.width i.height rgba stride r fu ∧
      ChromaRow F.v R.v .yuv422 cn i.width i.height rgba stride r fv)
    (ny := i.yStride) (nu := i.uStride) (nv := i.vStride)
    (by omega) (by omega) (by omega) hyw huw hvw
    (by rw [Nat.mul_comm]; exact hp.yr.1) (by rw [Nat.mul_comm]; exact hur.1)
    (by rw [Nat.mul_comm]; exact hvr.1)
    (g := fun r y u v =>
      if sliced then
        onRow3 i.width (ceil2 i.width) cn (encHalvedRow i.width cn E hd) y u v
          (chunk stride rgba r)
      else encHalvedRow i.width cn E hd y u v (chunk stride rgba r)) (by
    intro r hr
    have cy := chunk_length (fullRows_row hp.yr hr)
    have cu := chunk_length (fullRows_row hur hr)
    have cv := chunk_length (fullRows_row hvr hr)
    have cr := chunk_length (fullRows_row hs hr)
    have px := pxRow_chunk (rgba := rgba) (r := r) hw
    by_cases hb : sliced = true
    · obtain ⟨fy, fu, fv, e, h1, h2, h3⟩ := onRow3_rel hcn hwp hE hH
        (y := chunk i.yStride i.y r) (u := chunk i.uStride i.u r)
        (v := chunk i.vStride i.v r) (row := chunk stride rgba r)
        (by omega) (by omega) (by omega) (by omega) (bnd_chunk hB)
      refine ⟨fy, fu, fv, ?_, lumaRow_one rfl px.take h1, chromaRow_one rfl px.take hr h2,
        chromaRow_one rfl px.take hr h3⟩
      rw [if_pos hb, e]
    · have hb' := hsl.resolve_left hb
      obtain ⟨fy, fu, fv, e, h1, h2, h3⟩ := encHalvedRow_rel hcn hwp hE hH
        (y := chunk i.yStride i.y r) (u := chunk i.uStride i.u r)
        (v := chunk i.vStride i.v r) (rgba := chunk stride rgba r)
        (by omega) (by omega) (by omega) (by omega) (bnd_chunk hB)
      refine ⟨fy, fu, fv, ?_, lumaRow_one rfl px h1, chromaRow_one rfl px hr h2,
        chromaRow_one rfl px hr h3⟩
      rw [if_neg hb, e])
  exact ⟨_, _, _, e, lumaOk_of_rows (by omega) hyw hp.yr (fun y hy => (hF y hy).1),
    chromaOk_of_rows (by omega) hp.uw hp.ur (fun y hy => (hF y hy).2.1),
    chromaOk_of_rows (by omega) hp.vw hp.vr (fun y hy => (hF y hy).2.2)⟩

/-- The first `k` row functions of `A`, then `f`. -/
def thenRow (k : Nat) (A : Nat → Nat → Nat) (f : Nat → Nat) (r : Nat) : Nat → Nat :=
  if r < k then A r else f

theorem thenRow_lt {k r : Nat} {A : Nat → Nat → Nat} {f : Nat → Nat} (h : r < k) :
    thenRow k A f r = A r := if_pos h
theorem thenRow_ge {k r : Nat} {A : Nat → Nat → Nat} {f : Nat → Nat} (h : ¬ r < k) :
    thenRow k A f r = f := if_neg h

theorem setChunk_thenRow {st n k : Nat} {A : Nat → Nat → Nat} {f : Nat → Nat} {l : Buf}
    (hst : 0 < st) (hn : n ≤ st) (hr : k * st + st ≤ l.length) :
    setChunk st (fillRows st n A k l) k (fillTo f n (chunk st l k))
      = fillRows st n (thenRow k A f) (k + 1) l := by
  rw [fillRows_congr (G := thenRow k A f) (fun r hr => (thenRow_lt hr).symm)]
  have := setChunk_fillRows (r := k) (F := thenRow k A f) hst hn hr
  rw [thenRow_ge (by omega)] at this
  exact this

theorem remainder_thenRow {st n k : Nat} {A : Nat → Nat → Nat} {f : Nat → Nat} {l : Buf} (hst : 0 < st)
    (hn : n ≤ st) (hk : l.length / st = k) (hodd : k % 2 = 1) :
    (fillRows st n A (2 * (k / 2)) l).take (l.length / (st * 2) * (st * 2)) ++
      fillTo f n (remainder (st * 2) l) = fillRows st n (thenRow (2 * (k / 2)) A f) k l := by
  rw [fillRows_congr (G := thenRow (2 * (k / 2)) A f) (fun r hr => (thenRow_lt hr).symm)]
  have := fillRows_remainder (F := thenRow (2 * (k / 2)) A f) hst hn hk hodd
  rw [thenRow_ge (show ¬ k - 1 < 2 * (k / 2) by omega)] at this
  exact this

theorem remainder_fillRows {st n k : Nat} {A : Nat → Nat → Nat} {l : Buf} (hst : 0 < st)
    (hk : l.length / st = k) :
    remainder (st * 2) (fillRows st n A (2 * (k / 2)) l) = remainder (st * 2) l := by
  have e : l.length / (st * 2) = k / 2 := by rw [← Nat.div_div_eq_div_mul, hk]
  unfold remainder
  rw [fillRows_length, e]
  have := chunk_fillRows (st := st) (n := n) (k := 2 * (k / 2)) (r := k / 2 * (st * 2)) (F := A) (l := l)
    hst (by rw [Nat.mul_comm 2, Nat.mul_assoc, Nat.mul_comm 2]) (m := l.length)
  rw [List.take_of_length_le (by rw [List.length_drop, fillRows_length]; omega),
    List.take_of_length_le (by rw [List.length_drop]; omega)] at this
  exact this

theorem pxRow_remainder {rgba : Buf} {stride cn w h : Nat} (hs : FullRows rgba.length stride h)
    (hw : w * cn ≤ stride) (hh : h % 2 = 1) :
    w * cn ≤ (remainder (stride * 2) rgba).length ∧
    PxRow ((remainder (stride * 2) rgba).take (w * cn)) rgba stride cn w (h - 1) := by
  obtain ⟨a, b⟩ := remainder_take (w := w * cn) hs hh hw
  refine ⟨a, ?_⟩
  rw [b]
  exact (pxRow_chunk hw).take

theorem bnd_remainder {l : Buf} {n B : Nat} (h : ∀ a ∈ l, a < B) : ∀ a ∈ remainder n l, a < B :=
  bnd_drop h

theorem encode420_ok (hcn : 0 < cn) (hE : BlocksOk E B cn F) (hH : hd.Ok B cn i.width 2 R)
    (hH2 : hd2.Ok B cn i.width R)
    (hp : PlanarRows i .yuv420 D) (hs : FullRows rgba.length stride i.height)
    (hw : i.width * cn ≤ stride) (hB : ∀ a ∈ rgba, a < B) {skip : Bool} :
    Encoded F R .yuv420 cn i rgba stride (encode420 skip cn E hd hd2 i rgba stride) := by
  have hwp := hp.wpos
  have hhp := hp.hpos
  have hst : 0 < stride := by
    have := Nat.mul_pos hwp hcn; omega
  have hcp : 0 < ceil2 i.width := ceil2_pos hwp
  have hyw := hp.yw; have huw := hp.uw; have hvw := hp.vw
  simp only [Sampling.chromaWidth] at huw hvw
  have hyr := hp.yr; have hur := hp.ur; have hvr := hp.vr
  simp only [Sampling.chromaHeight] at hur hvr
  have hk : min (min (min (i.y.length / (i.yStride * 2)) (i.u.length / i.uStride))
      (i.v.length / i.vStride)) (rgba.length / (stride * 2)) = i.height / 2 := by
    rw [fullRows_div2 hyr, fullRows_div hur, fullRows_div hvr, fullRows_div2 hs]
    unfold ceil2; omega
  obtain ⟨Fy, Fu, Fv, e, hF⟩ := rows3_fill2 (k := i.height / 2) (wy := i.width) (wu := ceil2 i.width)
    (wv := ceil2 i.width) (y := i.y) (u := i.u) (v := i.v)
    (P := fun r fa fb fu fv => LumaRow F R .yuv420 cn i.width rgba stride (2 * r) fa ∧
      LumaRow F R .yuv420 cn i.width rgba stride (2 * r + 1) fb ∧
      ChromaRow F.u R.u .yuv420 cn i.width i.height rgba stride r fu ∧
      ChromaRow F.v R.v .yuv420 cn i.width i.height rgba stride r fv)
    (ny := i.yStride) (nu := i.uStride) (nv := i.vStride)
    (by omega) (by omega) (by omega) hyw huw hvw
    (by
      have h1 := hyr.1
      have h2 : i.height / 2 * (i.yStride * 2) ≤ i.yStride * i.height := by
        rw [Nat.mul_comm i.yStride 2, ← Nat.mul_assoc, Nat.mul_comm i.yStride]
        exact Nat.mul_le_mul_right _ (by omega)
      omega)
    (by
      have h1 := hur.1
      have h2 : i.height / 2 * i.uStride ≤ i.uStride * ceil2 i.height := by
        rw [Nat.mul_comm i.uStride]; exact Nat.mul_le_mul_right _ (by unfold ceil2; omega)
      omega)
    (by
      have h1 := hvr.1
      have h2 : i.height / 2 * i.vStride ≤ i.vStride * ceil2 i.height := by
        rw [Nat.mul_comm i.vStride]; exact Nat.mul_le_mul_right _ (by unfold ceil2; omega)
      omega)
    (g := fun r y u v => do
        let y0 := y.take i.yStride
        let y1 := y.drop i.yStride
        let src := chunk (stride * 2) rgba r
        let ys0 ← slice y0 0 i.width
        let ys1 ← slice y1 0 i.width
        let us ← slice u 0 (ceil2 i.width)
        let vs ← slice v 0 (ceil2 i.width)
        let rs0 ← slice (src.take stride) 0 (i.width * cn)
        let rs1 ← slice (src.drop stride) 0 (i.width * cn)
        let (a, b, c, d) ← encDoubledRow skip i.width cn E hd2 ys0 ys1 us vs rs0 rs1
        return ((a ++ y0.drop i.width) ++ (b ++ y1.drop i.width), c ++ u.drop (ceil2 i.width),
          d ++ v.drop (ceil2 i.width))) (by
    intro r hr
    have hrc : r < ceil2 i.height := by unfold ceil2; omega
    have cy0 := chunk_length (fullRows_row hyr (show 2 * r < i.height by omega))
    have cy1 := chunk_length (fullRows_row hyr (show 2 * r + 1 < i.height by omega))
    have cu := chunk_length (fullRows_row hur hrc)
    have cv := chunk_length (fullRows_row hvr hrc)
    have cr0 := chunk_length (fullRows_row hs (show 2 * r < i.height by omega))
    have cr1 := chunk_length (fullRows_row hs (show 2 * r + 1 < i.height by omega))
    have px0 := (pxRow_chunk (rgba := rgba) (r := 2 * r) hw).take
    have px1 := (pxRow_chunk (rgba := rgba) (r := 2 * r + 1) hw).take
    obtain ⟨fa, fb, fu, fv, e, h0, h1, h2, h3⟩ := encDoubledRow_rel (skip := skip) hcn hwp hE hH2
      (y0 := (chunk i.yStride i.y (2 * r)).take i.width)
      (y1 := (chunk i.yStride i.y (2 * r + 1)).take i.width)
      (u := (chunk i.uStride i.u r).take (ceil2 i.width))
      (v := (chunk i.vStride i.v r).take (ceil2 i.width))
      (r0 := (chunk stride rgba (2 * r)).take (i.width * cn))
      (r1 := (chunk stride rgba (2 * r + 1)).take (i.width * cn))
      (by rw [List.length_take]; omega) (by rw [List.length_take]; omega)
      (by rw [List.length_take]; omega) (by rw [List.length_take]; omega)
      (by rw [List.length_take]; omega) (by rw [List.length_take]; omega)
      (bnd_take (bnd_chunk hB)) (bnd_take (bnd_chunk hB))
    refine ⟨fa, fb, fu, fv, ?_, lumaRow_even px0 h0, lumaRow_odd px0 px1 h1,
      chromaRow_pair px0 px1 (by omega) h2, chromaRow_pair px0 px1 (by omega) h3⟩
    simp only [chunk2_take_chunk, chunk2_drop_chunk]
    rw [slice_take (by omega), slice_take (by omega), slice_take (by omega), slice_take (by omega),
      slice_take (by omega), slice_take (by omega)]
    simp only [Outcome.bind_ok]
    rw [e]
    simp only [Outcome.bind_ok, Outcome.pure_eq]
    rw [fillTo_append (by omega), fillTo_append (by omega), fillTo_append (by omega),
      fillTo_append (by omega)])
  have lum : ∀ y, y < 2 * (i.height / 2) → LumaRow F R .yuv420 cn i.width rgba stride y (Fy y) := by
    intro y hy
    obtain ⟨a, b, _⟩ := hF (y / 2) (by omega)
    by_cases h2 : y % 2 = 0
    · rw [show 2 * (y / 2) = y by omega] at a; exact a
    · rw [show 2 * (y / 2) + 1 = y by omega] at b; exact b
  unfold encode420
  rw [if_neg (by omega), hk]
  simp only
  rw [e]
  simp only [Outcome.bind_ok]
  by_cases hev : i.height % 2 = 0
  · have hce : ceil2 i.height = i.height / 2 := by unfold ceil2; omega
    rw [if_pos hev]
    refine ⟨_, _, _, rfl, ?_, ?_, ?_⟩
    · rw [show 2 * (i.height / 2) = i.height by omega] at lum ⊢
      exact lumaOk_of_rows (by omega) hyw hp.yr lum
    · rw [← hce] at hF ⊢
      exact chromaOk_of_rows (s := .yuv420) (by omega) hp.uw hp.ur (fun y hy => (hF y hy).2.2.1)
    · rw [← hce] at hF ⊢
      exact chromaOk_of_rows (s := .yuv420) (by omega) hp.vw hp.vr (fun y hy => (hF y hy).2.2.2)
  · have hce : ceil2 i.height = i.height / 2 + 1 := by unfold ceil2; omega
    have hodd : i.height % 2 = 1 := by omega
    rw [if_neg hev]
    unfold encLast420
    have lu : (fillRows i.uStride (ceil2 i.width) Fu (i.height / 2) i.u).length / i.uStride
        = i.height / 2 + 1 := by rw [fillRows_length, fullRows_div hur, hce]
    have lv : (fillRows i.vStride (ceil2 i.width) Fv (i.height / 2) i.v).length / i.vStride
        = i.height / 2 + 1 := by rw [fillRows_length, fullRows_div hvr, hce]
    obtain ⟨hrl, px⟩ := pxRow_remainder hs hw hodd
    have hyl := (remainder_take hyr hodd hyw).1
    have hur' := fullRows_row hur (show i.height / 2 < ceil2 i.height by omega)
    have hvr' := fullRows_row hvr (show i.height / 2 < ceil2 i.height by omega)
    have cu := chunk_length hur'
    have cv := chunk_length hvr'
    rw [lu, lv, if_neg (by omega)]
    simp only [Nat.add_sub_cancel]
    rw [remainder_fillRows (by omega) (fullRows_div hyr),
      show chunk i.uStride (fillRows i.uStride (ceil2 i.width) Fu (i.height / 2) i.u) (i.height / 2)
        = chunk i.uStride i.u (i.height / 2) from chunk_fillRows (by omega) (Nat.le_refl _),
      show chunk i.vStride (fillRows i.vStride (ceil2 i.width) Fv (i.height / 2) i.v) (i.height / 2)
        = chunk i.vStride i.v (i.height / 2) from chunk_fillRows (by omega) (Nat.le_refl _)]
    obtain ⟨fy, fu, fv, e2, h1, h2, h3⟩ := onRow3_rel hcn hwp hE hH
      (y := remainder (i.yStride * 2) i.y) (u := chunk i.uStride i.u (i.height / 2))
      (v := chunk i.vStride i.v (i.height / 2)) (row := remainder (stride * 2) rgba)
      hyl (by omega) (by omega) hrl (bnd_remainder hB)
    rw [e2]
    simp only [Outcome.bind_ok, Outcome.pure_eq]
    rw [fillRows_length, remainder_thenRow (by omega) hyw (fullRows_div hyr) hodd,
      setChunk_thenRow (by omega) huw hur', setChunk_thenRow (by omega) hvw hvr']
    refine ⟨_, _, _, rfl, lumaOk_of_rows (by omega) hyw hyr ?_, ?_, ?_⟩
    · intro y hy
      by_cases hy2 : y < 2 * (i.height / 2)
      · rw [thenRow_lt hy2]; exact lum y hy2
      · rw [thenRow_ge hy2, show y = i.height - 1 by omega]
        exact lumaRow_last px hodd h1
    · rw [← hce]
      refine chromaOk_of_rows (s := .yuv420) (by omega) hp.uw hp.ur ?_
      intro y hy
      simp only [Sampling.chromaHeight] at hy
      by_cases hy2 : y < i.height / 2
      · rw [thenRow_lt hy2]; exact (hF y hy2).2.2.1
      · rw [thenRow_ge hy2, show y = i.height / 2 by omega]
        exact chromaRow_last px hodd h2
    · rw [← hce]
      refine chromaOk_of_rows (s := .yuv420) (by omega) hp.vw hp.vr ?_
      intro y hy
      simp only [Sampling.chromaHeight] at hy
      by_cases hy2 : y < i.height / 2
      · rw [thenRow_lt hy2]; exact (hF y hy2).2.2.2
      · rw [thenRow_ge hy2, show y = i.height / 2 by omega]
        exact chromaRow_last px hodd h3
end
end Verif
