import Verif.Lemmas.Yuy2
/-! # The loops of the packed 4:2:2 unpackers -/
namespace Verif
open Spec

theorem unpackY_ok {t : Yuy2} {yuy : Buf} {j : Nat} (h : 4 * j + 4 ≤ yuy.length) :
    unpackY t (chunk 4 yuy j)
      = .ok (yuy.getD (lumaAt t (2 * j)) 0, yuy.getD (lumaAt t (2 * j + 1)) 0) := by
  unfold unpackY
  rw [quad_idx (y0Pos_lt t) h, quad_idx (y1Pos_lt t) h, lumaAt_even, lumaAt_odd]; rfl

theorem unpackC_ok {t : Yuy2} {yuy : Buf} {j x : Nat} (h : 4 * j + 4 ≤ yuy.length) (hx : x / 2 = j) :
    unpackC t (chunk 4 yuy j) = .ok (yuy.getD (cbAt t x) 0, yuy.getD (crAt t x) 0) := by
  unfold unpackC
  rw [quad_idx (yuyU_lt t) h, quad_idx (yuyV_lt t) h, cbAt_eq, crAt_eq, hx]; rfl

theorem setChunk_fillN {n j : Nat} {f : Nat → Nat} {l : Buf} {a : Nat}
    (hj : n * j + n ≤ l.length) (h : ∀ i, i < n → f (n * j + i) = a) :
    setChunk n (fillTo f (n * j) l) j (List.replicate n a) = fillTo f (n * (j + 1)) l := by
  have := setChunk_fill (n := n) (j := j) (f := f) (l := l) (c := List.replicate n a)
    (by rw [Nat.mul_comm]; exact hj) (by simp) (by
      intro i hi
      rw [List.getElem?_replicate, if_pos hi, Nat.mul_comm j, h i hi])
  rw [Nat.mul_comm j n] at this
  exact this

/-- Chroma sample `c` of an unpacked row, `n` samples per pair. -/
def unU (t : Yuy2) (n : Nat) (yuy : Buf) (c : Nat) : Nat := yuy.getD (cbAt t (2 * (c / n))) 0
def unV (t : Yuy2) (n : Nat) (yuy : Buf) (c : Nat) : Nat := yuy.getD (crAt t (2 * (c / n))) 0
def unY (t : Yuy2) (yuy : Buf) (x : Nat) : Nat := yuy.getD (lumaAt t x) 0

/-- What the vector prefix amounts to. -/
theorem unpacker_fill {w n : Nat} {t : Yuy2} {hd : YuyUnpacker} (hn : 0 < n) (hw : 0 < w)
    (hh : hd.Ok w n t)
    {y u v yuy : Buf} (ly : w ≤ y.length) (lu : n * (w / 2) ≤ u.length) (lv : n * (w / 2) ≤ v.length)
    (lq : ceil2 w * 4 ≤ yuy.length) :
    ∃ cx, hd y u v yuy = .ok (fillTo (unY t yuy) (2 * (cx / 2)) y, fillTo (unU t n yuy) (n * (cx / 2)) u,
      fillTo (unV t n yuy) (n * (cx / 2)) v, cx) ∧ cx / 2 ≤ w / 2 := by
  have lc : ceil2 w = (w + 1) / 2 := rfl
  obtain ⟨y', u', v', cx, e, h1, hy, hu, hv⟩ := hh y u v yuy (by omega) ly lu lv
  refine ⟨cx, ?_, h1⟩
  have key : ∀ {m : Nat} {l l' : Buf} {P : Nat → Buf} {f : Nat → Nat}, 0 < m →
      m * (cx / 2) ≤ l.length → FrameSpec l' l 0 (cx / 2) 1 m (fun j _ => P j) →
      (∀ j c, j < cx / 2 → c < m → (P j)[c]? = some (f (m * j + c))) →
      l' = fillTo f (m * (cx / 2)) l := by
    intro m l l' P f hm hl hs hf
    apply List.ext_getElem?
    intro k
    rw [fillTo_getElem?]
    by_cases hk : k < m * (cx / 2)
    · rw [if_pos hk]
      have e1 : k = 0 * 0 + (k / m * m + k % m) := by rw [← div_mod_split]; simp
      have hd : k / m < cx / 2 := by
        apply (Nat.div_lt_iff_lt_mul hm).2; rw [Nat.mul_comm]; exact hk
      have := hs.2.1 (k / m) 0 (k % m) hd (by omega) (Nat.mod_lt _ hm)
      rw [← e1] at this
      rw [this, hf _ _ hd (Nat.mod_lt _ hm)]
      congr 2; rw [Nat.mul_comm m]; exact (div_mod_split k m).symm
    · rw [if_neg hk]
      apply hs.2.2
      rintro ⟨x, yy, c, hx, _, hc, e⟩
      have := succ_mul_le_of_lt m hx
      rw [Nat.mul_comm (cx / 2)] at this
      rw [Nat.mul_zero] at e
      omega
  have hdiv : ∀ j c : Nat, c < n → (n * j + c) / n = j := by
    intro j c hc; rw [Nat.mul_comm]; exact div_add_of_lt hc
  rw [e]
  have hmono : n * (cx / 2) ≤ n * (w / 2) := Nat.mul_le_mul_left _ h1
  rw [key (f := unY t yuy) (by omega) (by omega) hy (by
      intro j c _ hc
      have : c = 0 ∨ c = 1 := by omega
      rcases this with rfl | rfl <;> rfl),
    key (f := unU t n yuy) hn (by omega) hu (by
      intro j c _ hc
      rw [List.getElem?_replicate, if_pos hc]; unfold unU; rw [hdiv j c hc]),
    key (f := unV t n yuy) hn (by omega) hv (by
      intro j c _ hc
      rw [List.getElem?_replicate, if_pos hc]; unfold unV; rw [hdiv j c hc])]

theorem noUnpack_ok {w n : Nat} {t : Yuy2} : noUnpack.Ok w n t := by
  intro y u v yuy _ _ _ _
  refine ⟨y, u, v, 0, rfl, by omega, ?_, ?_, ?_⟩ <;>
    exact ⟨rfl, by intros; omega, fun _ _ => rfl⟩

theorem noUnpack_whole {w : Nat} : noUnpack.Whole w := by
  intro y u v yuy y' u' v' cx h
  left
  unfold noUnpack at h
  cases h; rfl

/-- One 4:4:4 (`n = 2`) or 4:2:2 (`n = 1`) row; the Cr row may be longer than the image when the
width is even. -/
theorem unpackRow_ok {n w cw : Nat} {t : Yuy2} {hd : YuyUnpacker} (hw : 0 < w)
    (hn : n = 1 ∧ cw = ceil2 w ∨ n = 2 ∧ cw = w) (hh : hd.Ok w n t) (hwh : hd.Whole w)
    {y u v yuy : Buf} (ly : y.length = w) (lu : u.length = cw)
    (lv : cw ≤ v.length) (lv' : w % 2 = 1 → v.length = cw) (lq : yuy.length = ceil2 w * 4) :
    unpackRow n w t hd y u v yuy
      = .ok (fillTo (unY t yuy) w y, fillTo (unU t n yuy) cw u, fillTo (unV t n yuy) cw v) := by
  have lc : ceil2 w = (w + 1) / 2 := rfl
  have hn0 : 0 < n := by omega
  have hcn : n * (w / 2) ≤ cw ∧ cw / n ≥ w / 2 ∧ (w % 2 = 0 → n * (w / 2) = cw) ∧
      (w % 2 = 1 → n * (w / 2) + 1 = cw) := by
    rcases hn with ⟨rfl, rfl⟩ | ⟨rfl, rfl⟩ <;> omega
  obtain ⟨q1, q2, q3, q4⟩ := hcn
  obtain ⟨cx, e, hcx⟩ := unpacker_fill hn0 hw hh (y := y) (u := u) (v := v) (yuy := yuy) (by omega)
    (by omega) (by omega) (by omega)
  have hmono : n * (cx / 2) ≤ n * (w / 2) := Nat.mul_le_mul_left _ hcx
  have hwhole := hwh _ _ _ _ _ _ _ _ e
  unfold unpackRow
  rw [e]
  simp only [Outcome.bind_ok]
  rw [fillTo_length (by omega), fillTo_length (by omega), fillTo_length (by omega), ly, lu, lq]
  have hvn : w / 2 ≤ v.length / n := Nat.le_trans q2 (Nat.div_le_div_right lv)
  have hk : min4 (w / 2) (cw / n) (v.length / n) (ceil2 w * 4 / 4) = w / 2 := by
    unfold min4; omega
  rw [hk]
  have hloop : forRange cx (w / 2)
      (fun j (s : Buf × Buf × Buf) => do
        let (a, b) ← unpackY t (chunk 4 yuy j)
        let (cb, cr) ← unpackC t (chunk 4 yuy j)
        return (setChunk 2 s.1 j [a, b], setChunk n s.2.1 j (List.replicate n cb),
          setChunk n s.2.2 j (List.replicate n cr)))
      (fillTo (unY t yuy) (2 * (cx / 2)) y, fillTo (unU t n yuy) (n * (cx / 2)) u,
        fillTo (unV t n yuy) (n * (cx / 2)) v)
      = .ok (fillTo (unY t yuy) (2 * (w / 2)) y, fillTo (unU t n yuy) (n * (w / 2)) u,
        fillTo (unV t n yuy) (n * (w / 2)) v) := by
    rcases hwhole with rfl | hfin
    · refine forRange_ok (T := fun j => (fillTo (unY t yuy) (2 * j) y, fillTo (unU t n yuy) (n * j) u,
        fillTo (unV t n yuy) (n * j) v)) (by omega) ?_
      intro j _ hj
      have hnj : n * j + n ≤ n * (w / 2) := by
        have := succ_mul_le_of_lt n hj; rw [Nat.mul_comm n j, Nat.mul_comm n]; exact this
      rw [unpackY_ok (by omega), unpackC_ok (x := 2 * j) (by omega) (by omega)]
      simp only [Outcome.bind_ok, Outcome.pure_eq]
      have hdiv : ∀ i, i < n → (n * j + i) / n = j := by
        intro i hi; rw [Nat.mul_comm]; exact div_add_of_lt hi
      rw [setChunk_fill2 (f := unY t yuy) (j := j) (l := y) (a := yuy.getD (lumaAt t (2 * j)) 0)
          (b := yuy.getD (lumaAt t (2 * j + 1)) 0) (by omega) rfl rfl,
        setChunk_fillN (f := unU t n yuy) (n := n) (j := j) (l := u) (a := yuy.getD (cbAt t (2 * j)) 0) (by omega)
          (fun i hi => by unfold unU; rw [hdiv i hi]),
        setChunk_fillN (f := unV t n yuy) (n := n) (j := j) (l := v) (a := yuy.getD (crAt t (2 * j)) 0) (by omega)
          (fun i hi => by unfold unV; rw [hdiv i hi])]
    · rw [forRange_empty (by omega), hfin]
  refine (congrArg (fun o => Outcome.bind o _) hloop).trans ?_
  simp only [Outcome.bind]
  by_cases hodd : w % 2 = 0
  · rw [if_pos hodd, q3 hodd, show 2 * (w / 2) = w by omega]; rfl
  · rw [if_neg hodd, lastQuad hw lq]
    have hl := lumaAt_even t ((w - 1) / 2)
    rw [show 2 * ((w - 1) / 2) = w - 1 by omega] at hl
    simp only [Outcome.bind_ok]
    rw [quad_idx (y0Pos_lt t) (by omega), unpackC_ok (x := w - 1) (by omega) rfl, ← hl]
    simp only [Outcome.bind_ok]
    have q5 := q4 (by omega)
    have hdc : (n * (w / 2)) / n = w / 2 := Nat.mul_div_cancel_left _ hn0
    rw [setLast_fill (n := w - 1) (g := unY t yuy) (v := yuy.getD (lumaAt t (w - 1)) 0) (by omega) (by omega) (fun _ _ => rfl) rfl]
    simp only [Outcome.bind_ok]
    rw [setLast_fill (n := n * (w / 2)) (g := unU t n yuy) (v := yuy.getD (cbAt t (w - 1)) 0)
      (by omega) (by omega) (fun _ _ => rfl)
      (by unfold unU; rw [hdc, show 2 * (w / 2) = w - 1 by omega])]
    simp only [Outcome.bind_ok]
    rw [setLast_fill (n := n * (w / 2)) (g := unV t n yuy) (v := yuy.getD (crAt t (w - 1)) 0)
      (by have := lv' (by omega); omega) (by omega)
      (fun _ _ => rfl) (by unfold unV; rw [hdc, show 2 * (w / 2) = w - 1 by omega])]
    simp only [Outcome.bind_ok, Outcome.pure_eq]
    rw [show w - 1 + 1 = w by omega, q5]

/-! ## Frames -/

section
variable {t : Yuy2} {i : Planar} {d : Packed} {B B' : Nat}

theorem unY_row (hd' : GoodPacked d B') {r x : Nat} (hx : x < d.width) :
    unY t (chunk d.yuyStride d.yuy r) x = Packed.Y t d x r := by
  have := hd'.stride'
  have := lumaAt_lt (t := t) hx
  unfold unY
  rw [packed_row hd' (by omega)]; rfl

theorem unU_row (hd' : GoodPacked d B') {r x c n : Nat} (hx : x < d.width) (hc : c / n = x / 2) :
    unU t n (chunk d.yuyStride d.yuy r) c = Packed.U t d x r := by
  have := hd'.stride'
  have := cbAt_lt (t := t) hx
  have e : cbAt t (2 * (c / n)) = cbAt t x := by
    rw [cbAt_eq, cbAt_eq, hc]; congr 1; omega
  unfold unU
  rw [e, packed_row hd' (by omega)]; rfl

theorem unV_row (hd' : GoodPacked d B') {r x c n : Nat} (hx : x < d.width) (hc : c / n = x / 2) :
    unV t n (chunk d.yuyStride d.yuy r) c = Packed.V t d x r := by
  have := hd'.stride'
  have := crAt_lt (t := t) hx
  have e : crAt t (2 * (c / n)) = crAt t x := by
    rw [crAt_eq, crAt_eq, hc]; congr 1; omega
  unfold unV
  rw [e, packed_row hd' (by omega)]; rfl

theorem unpackRows_ok {s : Sampling} {n cw : Nat} {hd : YuyUnpacker} (hp : PlanarRows i s B)
    (hd' : GoodPacked d B') (hw : i.width = d.width) (hhh : i.height = d.height)
    (hn : n = 1 ∧ cw = ceil2 i.width ∧ s = .yuv422 ∨ n = 2 ∧ cw = i.width ∧ s = .yuv444)
    (hh : hd.Ok i.width n t) (hwh : hd.Whole i.width)
    (hv : i.width % 2 = 1 → i.vStride = cw) :
    ∃ y u v, unpackRows n cw t hd i d = .ok (y, u, v) ∧
      FrameSpec y i.y i.yStride i.width i.height 1 (fun x r => [Packed.Y t d x r]) ∧
      FrameSpec u i.u i.uStride cw i.height 1 (fun c r => [Packed.U t d (c * hdiv s) r]) ∧
      FrameSpec v i.v i.vStride cw i.height 1 (fun c r => [Packed.V t d (c * hdiv s) r]) := by
  have lc : ceil2 i.width = (i.width + 1) / 2 := rfl
  have h1 := hp.wpos
  have h2 := hp.yw
  have h34 : cw ≤ i.uStride ∧ cw ≤ i.vStride ∧ s.chromaHeight i.height = i.height := by
    have h3 := hp.uw
    have h4 := hp.vw
    rcases hn with ⟨-, rfl, rfl⟩ | ⟨-, rfl, rfl⟩ <;> exact ⟨h3, h4, rfl⟩
  obtain ⟨h3, h4, h5⟩ := h34
  have hyr := hp.yr; have hur := hp.ur; have hvr := hp.vr
  rw [h5] at hur hvr
  have hf := hd'.full
  have hs := hd'.stride'
  rw [← hhh] at hf
  rw [← hw] at hs
  have hcw : 0 < cw := by rcases hn with ⟨-, rfl, -⟩ | ⟨-, rfl, -⟩ <;> omega
  have hcx : ∀ c, c < cw → c * hdiv s < i.width ∧ c / n = c * hdiv s / 2 := by
    intro c hc
    rcases hn with ⟨rfl, rfl, rfl⟩ | ⟨rfl, rfl, rfl⟩ <;> simp only [hdiv] <;> omega
  unfold unpackRows
  rw [if_neg (by omega), fullRows_div hyr, fullRows_div hur, fullRows_div hvr, fullRows_div hf,
    show min4 i.height i.height i.height i.height = i.height by unfold min4; omega]
  obtain ⟨Fy, Fu, Fv, e, hF⟩ := rows3_fill (k := i.height) (wy := i.width) (wu := cw)
    (wv := cw) (y := i.y) (u := i.u) (v := i.v)
    (P := fun r fy fu fv => (∀ x, x < i.width → fy x = Packed.Y t d x r) ∧
      (∀ c, c < cw → fu c = Packed.U t d (c * hdiv s) r) ∧
      (∀ c, c < cw → fv c = Packed.V t d (c * hdiv s) r))
    (ny := i.yStride) (nu := i.uStride) (nv := i.vStride)
    (by omega) (by omega) (by omega) h2 h3 h4
    (by rw [Nat.mul_comm]; exact hyr.1) (by rw [Nat.mul_comm]; exact hur.1)
    (by rw [Nat.mul_comm]; exact hvr.1)
    (g := fun r y u v => do
      let yuy ← slice (chunk d.yuyStride d.yuy r) 0 (yuy2Width d.width)
      let ys ← slice y 0 i.width
      let us ← slice u 0 cw
      let (a, b, c) ← unpackRow n i.width t hd ys us v yuy
      return (a ++ y.drop i.width, b ++ u.drop cw, c)) (by
    intro r hr
    have cy := chunk_length (fullRows_row hyr hr)
    have cu := chunk_length (fullRows_row hur hr)
    have cv := chunk_length (fullRows_row hvr hr)
    have cq := chunk_length (fullRows_row hf hr)
    have hrow := unpackRow_ok (cw := cw) h1 (by rcases hn with ⟨a, b, -⟩ | ⟨a, b, -⟩ <;> simp [a, b]) hh hwh
      (y := (chunk i.yStride i.y r).take i.width) (u := (chunk i.uStride i.u r).take cw)
      (v := chunk i.vStride i.v r) (yuy := chunk d.yuyStride d.yuy r)
      (by rw [List.length_take]; omega) (by rw [List.length_take]; omega) (by omega)
      (fun a => by rw [cv]; exact hv a) (by omega)
    refine ⟨unY t (chunk d.yuyStride d.yuy r), unU t n (chunk d.yuyStride d.yuy r),
      unV t n (chunk d.yuyStride d.yuy r), ?_, fun x hx => unY_row hd' (by omega),
      fun c hc => unU_row hd' (by have := (hcx c hc).1; omega) (hcx c hc).2,
      fun c hc => unV_row hd' (by have := (hcx c hc).1; omega) (hcx c hc).2⟩
    rw [slice_take (by rw [yuy2Width_eq, ← hw]; omega), slice_take (by omega), slice_take (by omega)]
    simp only [Outcome.bind_ok]
    rw [List.take_of_length_le (l := chunk d.yuyStride d.yuy r) (by rw [yuy2Width_eq, ← hw]; omega), hrow]
    simp only [Outcome.bind_ok, Outcome.pure_eq]
    rw [fillTo_append (by omega), fillTo_append (by omega)])
  refine ⟨_, _, _, e, ?_, ?_, ?_⟩
  · have := fillRows_frameRel (cn := 1) (R := fun x r p => p = [Packed.Y t d x r]) (F := Fy) (l := i.y)
      (w := i.width) (h := i.height) (st := i.yStride) (by omega) (by omega)
      (by rw [Nat.mul_comm]; exact hyr.1)
      (fun x r hx hr => by rw [fillPix_one, (hF r hr).1 x hx])
    rw [Nat.mul_one] at this
    exact frameRel_eq this
  · have := fillRows_frameRel (cn := 1) (R := fun c r p => p = [Packed.U t d (c * hdiv s) r]) (F := Fu) (l := i.u)
      (w := cw) (h := i.height) (st := i.uStride) (by omega) (by omega)
      (by rw [Nat.mul_comm]; exact hur.1)
      (fun x r hx hr => by rw [fillPix_one, (hF r hr).2.1 x hx])
    rw [Nat.mul_one] at this
    exact frameRel_eq this
  · have := fillRows_frameRel (cn := 1) (R := fun c r p => p = [Packed.V t d (c * hdiv s) r]) (F := Fv) (l := i.v)
      (w := cw) (h := i.height) (st := i.vStride) (by omega) (by omega)
      (by rw [Nat.mul_comm]; exact hvr.1)
      (fun x r hx hr => by rw [fillPix_one, (hF r hr).2.2 x hx])
    rw [Nat.mul_one] at this
    exact frameRel_eq this

/-! ## Pairs of rows -/

theorem unpackRow420_ok {w : Nat} {hd : YuyUnpacker} (hw : 0 < w) (hh : hd.Ok w 1 t)
    (hwh : hd.Whole w) {chroma : Bool} {outer y u v yuy last : Buf} (ly : y.length = w)
    (lu : u.length = ceil2 w) (lv : ceil2 w ≤ v.length) (lv' : w % 2 = 1 → v.length = ceil2 w)
    (lq : yuy.length = ceil2 w * 4) (ll : last.length = ceil2 w * 4)
    (hl : lastChunk 4 outer = .ok (chunk 4 last ((w - 1) / 2))) :
    ∃ cx, (∃ a b c, hd y u v yuy = .ok (a, b, c, cx)) ∧
      unpackRow420 w t hd chroma outer y u v yuy
        = .ok (fillTo (fun x => unY t (if w % 2 = 1 ∧ x + 1 = w then last else yuy) x) w y,
          if chroma then
            fillTo (fun c => unU t 1 (if w % 2 = 1 ∧ c + 1 = ceil2 w then last else yuy) c) (ceil2 w) u
          else fillTo (unU t 1 yuy) (cx / 2) u,
          if chroma then
            fillTo (fun c => unV t 1 (if w % 2 = 1 ∧ c + 1 = ceil2 w then last else yuy) c) (ceil2 w) v
          else fillTo (unV t 1 yuy) (cx / 2) v) ∧ cx / 2 ≤ w / 2 := by
  have lc : ceil2 w = (w + 1) / 2 := rfl
  obtain ⟨cx, e, hcx⟩ := unpacker_fill (n := 1) (by omega) hw hh (y := y) (u := u) (v := v) (yuy := yuy)
    (by omega) (by omega) (by omega) (by omega)
  have hwhole := hwh _ _ _ _ _ _ _ _ e
  refine ⟨cx, ⟨_, _, _, e⟩, ?_, hcx⟩
  unfold unpackRow420
  rw [e]
  simp only [Outcome.bind_ok]
  rw [fillTo_length (by omega), fillTo_length (by omega), fillTo_length (by omega), ly, lu, lq]
  have hk : min4 (w / 2) (ceil2 w) v.length (ceil2 w * 4 / 4) = w / 2 := by
    unfold min4; omega
  rw [hk, Nat.one_mul]
  have hloop : forRange cx (w / 2)
      (fun j (s : Buf × Buf × Buf) => do
        let (a, b) ← unpackY t (chunk 4 yuy j)
        let y := setChunk 2 s.1 j [a, b]
        if chroma then do
          let (cb, cr) ← unpackC t (chunk 4 yuy j)
          return (y, setChunk 1 s.2.1 j [cb], setChunk 1 s.2.2 j [cr])
        else return (y, s.2.1, s.2.2))
      (fillTo (unY t yuy) (2 * (cx / 2)) y, fillTo (unU t 1 yuy) (cx / 2) u,
        fillTo (unV t 1 yuy) (cx / 2) v)
      = .ok (fillTo (unY t yuy) (2 * (w / 2)) y,
        fillTo (unU t 1 yuy) (if chroma then w / 2 else cx / 2) u,
        fillTo (unV t 1 yuy) (if chroma then w / 2 else cx / 2) v) := by
    rcases hwhole with rfl | hfin
    · refine Eq.trans (congrArg (forRange 0 (w / 2) _) ?_) (forRange_ok (T := fun j =>
        (fillTo (unY t yuy) (2 * j) y, fillTo (unU t 1 yuy) (if chroma then j else 0) u,
        fillTo (unV t 1 yuy) (if chroma then j else 0) v)) ?_ ?_)
      · cases chroma <;> rfl
      · omega
      · intro j _ hj
        simp only
        rw [unpackY_ok (by omega), unpackC_ok (x := 2 * j) (by omega) (by omega)]
        simp only [Outcome.bind_ok, Outcome.pure_eq]
        rw [setChunk_fill2 (f := unY t yuy) (j := j) (l := y) (a := yuy.getD (lumaAt t (2 * j)) 0)
          (b := yuy.getD (lumaAt t (2 * j + 1)) 0) (by omega) rfl rfl]
        cases chroma
        · rfl
        · simp only [if_true]
          rw [setChunk_fill1 (f := unU t 1 yuy) (j := j) (l := u) (a := yuy.getD (cbAt t (2 * j)) 0) (by omega)
              (by unfold unU; rw [Nat.div_one]),
            setChunk_fill1 (f := unV t 1 yuy) (j := j) (l := v) (a := yuy.getD (crAt t (2 * j)) 0) (by omega)
              (by unfold unV; rw [Nat.div_one])]
    · rw [forRange_empty (by omega), hfin]
      cases chroma <;> rfl
  refine (congrArg (fun o => Outcome.bind o _) hloop).trans ?_
  simp only [Outcome.bind]
  by_cases hodd : w % 2 = 0
  · have n1 : ∀ P : Prop, ¬ (w % 2 = 1 ∧ P) := fun _ a => by omega
    simp only [if_neg (n1 _)]
    rw [if_pos hodd, show 2 * (w / 2) = w by omega, show w / 2 = ceil2 w by omega]
    cases chroma <;> rfl
  · rw [if_neg hodd, hl]
    have hle := lumaAt_even t ((w - 1) / 2)
    rw [show 2 * ((w - 1) / 2) = w - 1 by omega] at hle
    simp only [Outcome.bind_ok]
    rw [quad_idx (y0Pos_lt t) (by omega), ← hle]
    simp only [Outcome.bind_ok]
    rw [setLast_fill (n := w - 1)
      (g := fun x => unY t (if w % 2 = 1 ∧ x + 1 = w then last else yuy) x)
      (v := last.getD (lumaAt t (w - 1)) 0) (by omega) (by omega)
      (fun x hx => by rw [if_neg (by omega)])
      (by rw [if_pos (by omega)]; rfl)]
    simp only [Outcome.bind_ok]
    rw [show w - 1 + 1 = w by omega]
    cases chroma
    · rfl
    · simp only [if_true]
      rw [unpackC_ok (x := w - 1) (by omega) rfl]
      simp only [Outcome.bind_ok]
      rw [setLast_fill (n := w / 2)
        (g := fun c => unU t 1 (if w % 2 = 1 ∧ c + 1 = ceil2 w then last else yuy) c)
        (v := last.getD (cbAt t (w - 1)) 0) (by omega) (by omega)
        (fun x hx => by rw [if_neg (by omega)])
        (by rw [if_pos (by omega)]; unfold unU; rw [show 2 * (w / 2 / 1) = w - 1 by omega])]
      simp only [Outcome.bind_ok]
      rw [setLast_fill (n := w / 2)
        (g := fun c => unV t 1 (if w % 2 = 1 ∧ c + 1 = ceil2 w then last else yuy) c)
        (v := last.getD (crAt t (w - 1)) 0) (by have := lv' (by omega); omega) (by omega)
        (fun x hx => by rw [if_neg (by omega)])
        (by rw [if_pos (by omega)]; unfold unV; rw [show 2 * (w / 2 / 1) = w - 1 by omega])]
      simp only [Outcome.bind_ok, Outcome.pure_eq]
      rw [show w / 2 + 1 = ceil2 w by omega]

theorem fillTo_append_le {f : Nat → Nat} {n m : Nat} {l : Buf} (h : n ≤ m) (hm : m ≤ l.length) :
    fillTo f n (l.take m) ++ l.drop m = fillTo f n l := by
  unfold fillTo
  rw [List.append_assoc]
  congr 1
  have : l.drop n = (l.take m).drop n ++ l.drop m := by
    rw [← List.drop_append_of_le_length (by rw [List.length_take]; omega)]
    rw [List.take_append_drop]
  rw [this]

theorem fillTo_fillTo {f g : Nat → Nat} {n m : Nat} {l : Buf} (h : n ≤ m) (hm : m ≤ l.length) :
    fillTo g n (fillTo f m l) = fillTo (fun c => if c < n then g c else f c) m l := by
  apply List.ext_getElem?
  intro k
  rw [fillTo_getElem?, fillTo_getElem?, fillTo_getElem?]
  by_cases h1 : k < n
  · rw [if_pos h1, if_pos (by omega), if_pos h1]
  · rw [if_neg h1]
    by_cases h2 : k < m
    · rw [if_pos h2, if_pos h2, if_neg h1]
    · rw [if_neg h2, if_neg h2]

theorem unpack420_ok {hd : YuyUnpacker} (hp : PlanarRows i .yuv420 B)
    (hd' : GoodPacked d B') (hw : i.width = d.width) (hhh : i.height = d.height)
    (hh : hd.Ok i.width 1 t) (hwh : hd.Whole i.width)
    (hv : i.width % 2 = 1 → i.vStride = ceil2 i.width) :
    ∃ y u v, unpack420 t hd i d = .ok (y, u, v) ∧
      FrameSpec y i.y i.yStride i.width (2 * (i.height / 2)) 1
        (fun x r => [Packed.Y t d x (quadRow i.width x r)]) ∧
      FrameRel u i.u i.uStride (ceil2 i.width) (i.height / 2) 1 (fun c r p =>
        p = [Packed.U t d (2 * c) (quadRow i.width (2 * c) (2 * r))] ∨
        hd ≠ noUnpack ∧ p = [Packed.U t d (2 * c) (2 * r + 1)]) ∧
      FrameRel v i.v i.vStride (ceil2 i.width) (i.height / 2) 1 (fun c r p =>
        p = [Packed.V t d (2 * c) (quadRow i.width (2 * c) (2 * r))] ∨
        hd ≠ noUnpack ∧ p = [Packed.V t d (2 * c) (2 * r + 1)]) := by
  have lc : ceil2 i.width = (i.width + 1) / 2 := rfl
  have lh : ceil2 i.height = (i.height + 1) / 2 := rfl
  have h1 := hp.wpos
  have h2 := hp.yw
  have h3 := hp.uw
  have h4 := hp.vw
  have hyr := hp.yr; have hur := hp.ur; have hvr := hp.vr
  simp only [Sampling.chromaWidth] at h3 h4
  simp only [Sampling.chromaHeight] at hur hvr
  have hf := hd'.full
  have hs := hd'.stride'
  rw [← hhh] at hf
  rw [← hw] at hs
  have hcs : ∀ (st n : Nat) (b : Buf), FullRows b.length st (ceil2 i.height) →
      i.height / 2 * st ≤ b.length := by
    intro st n b hb
    have := hb.1
    have h2 : i.height / 2 * st ≤ st * ceil2 i.height := by
      rw [Nat.mul_comm st]; exact Nat.mul_le_mul_right _ (by omega)
    omega
  have hl1 : i.height / 2 * (i.yStride * 2) ≤ i.y.length := by
    have h1 := hyr.1
    have h2 : i.height / 2 * (i.yStride * 2) ≤ i.yStride * i.height := by
      rw [Nat.mul_comm i.yStride 2, ← Nat.mul_assoc, Nat.mul_comm i.yStride]
      exact Nat.mul_le_mul_right _ (by omega)
    omega
  have hl2 := hcs i.uStride 0 i.u hur
  have hl3 := hcs i.vStride 0 i.v hvr
  have hk : min4 (i.y.length / (i.yStride * 2)) (i.u.length / i.uStride) (i.v.length / i.vStride)
      (d.yuy.length / (d.yuyStride * 2)) = i.height / 2 := by
    rw [fullRows_div2 hf, fullRows_div2 hyr, fullRows_div hur, fullRows_div hvr]
    unfold min4; omega
  unfold unpack420
  simp only
  rw [if_neg (by omega), hk]
  obtain ⟨Fy, Fu, Fv, e, hF⟩ := rows3_fill2 (k := i.height / 2) (wy := i.width)
    (wu := ceil2 i.width) (wv := ceil2 i.width) (y := i.y) (u := i.u) (v := i.v)
    (P := fun r fa fb fu fv =>
      (∀ x, x < i.width → fa x = Packed.Y t d x (quadRow i.width x (2 * r))) ∧
      (∀ x, x < i.width → fb x = Packed.Y t d x (quadRow i.width x (2 * r + 1))) ∧
      (∀ c, c < ceil2 i.width → fu c = Packed.U t d (2 * c) (quadRow i.width (2 * c) (2 * r)) ∨
        hd ≠ noUnpack ∧ fu c = Packed.U t d (2 * c) (2 * r + 1)) ∧
      (∀ c, c < ceil2 i.width → fv c = Packed.V t d (2 * c) (quadRow i.width (2 * c) (2 * r)) ∨
        hd ≠ noUnpack ∧ fv c = Packed.V t d (2 * c) (2 * r + 1)))
    (ny := i.yStride) (nu := i.uStride) (nv := i.vStride)
    (by omega) (by omega) (by omega) h2 h3 h4 hl1 hl2 hl3
    (g := fun r y u v => do
      let outer := chunk (d.yuyStride * 2) d.yuy r
      let one := fun (chroma : Bool) (yuy y u v : Buf) => do
        let yuy ← slice yuy 0 (yuy2Width d.width)
        let ys ← slice y 0 i.width
        let us ← slice u 0 (ceil2 i.width)
        let (a, b, c) ← unpackRow420 i.width t hd chroma outer ys us v yuy
        return (a ++ y.drop i.width, b ++ u.drop (ceil2 i.width), c)
      let (y0, u, v) ← one true (outer.take d.yuyStride) (y.take i.yStride) u v
      let (y1, u, v) ← one false (outer.drop d.yuyStride) (y.drop i.yStride) u v
      return (y0 ++ y1, u, v)) (by
    intro r hr
    have hr1 : 2 * r + 1 < i.height := by omega
    have cy0 := chunk_length (fullRows_row hyr (show 2 * r < i.height by omega))
    have cy1 := chunk_length (fullRows_row hyr hr1)
    have cu := chunk_length (fullRows_row hur (show r < ceil2 i.height by omega))
    have cv := chunk_length (fullRows_row hvr (show r < ceil2 i.height by omega))
    have cq0 := chunk_length (fullRows_row hf (show 2 * r < i.height by omega))
    have cq1 := chunk_length (fullRows_row hf hr1)
    have hcq : (chunk (d.yuyStride * 2) d.yuy r).length = d.yuyStride * 2 :=
      chunk2_length hf hr
    have hlast : lastChunk 4 (chunk (d.yuyStride * 2) d.yuy r)
        = .ok (chunk 4 (chunk d.yuyStride d.yuy (2 * r + 1)) ((i.width - 1) / 2)) := by
      rw [lastChunk_ok (by omega) (by omega), hcq, ← chunk2_drop_chunk]
      congr 1
      unfold chunk
      rw [List.drop_drop]
      congr 2
      omega
    simp only [chunk2_take_chunk, chunk2_drop_chunk]
    rw [slice_take (l := chunk d.yuyStride d.yuy (2 * r)) (by rw [yuy2Width_eq, ← hw]; omega),
      slice_take (l := chunk i.yStride i.y (2 * r)) (by omega), slice_take (l := chunk i.uStride i.u r) (by omega)]
    simp only [Outcome.bind_ok]
    rw [List.take_of_length_le (l := chunk d.yuyStride d.yuy (2 * r)) (by rw [yuy2Width_eq, ← hw]; omega)]
    obtain ⟨cx, _, e1, _⟩ := unpackRow420_ok (chroma := true) h1 hh hwh
      (y := (chunk i.yStride i.y (2 * r)).take i.width) (u := (chunk i.uStride i.u r).take (ceil2 i.width))
      (v := chunk i.vStride i.v r) (yuy := chunk d.yuyStride d.yuy (2 * r))
      (by rw [List.length_take]; omega) (by rw [List.length_take]; omega) (by omega)
      (fun a => by rw [cv]; exact hv a) (by omega) (by omega) hlast
    rw [e1]
    simp only [Outcome.bind_ok, Outcome.pure_eq, if_true]
    rw [fillTo_append (by omega), fillTo_append (by omega)]
    rw [slice_take (l := chunk d.yuyStride d.yuy (2 * r + 1)) (by rw [yuy2Width_eq, ← hw]; omega),
      slice_take (l := chunk i.yStride i.y (2 * r + 1)) (by omega),
      slice_take (l := fillTo _ _ _) (by rw [fillTo_length (by omega)]; omega)]
    simp only [Outcome.bind_ok]
    rw [List.take_of_length_le (l := chunk d.yuyStride d.yuy (2 * r + 1))
      (by rw [yuy2Width_eq, ← hw]; omega)]
    obtain ⟨cz, ⟨_, _, _, e3⟩, e2, hcz⟩ := unpackRow420_ok (chroma := false) h1 hh hwh
      (y := (chunk i.yStride i.y (2 * r + 1)).take i.width)
      (u := (fillTo (fun c => unU t 1 (if i.width % 2 = 1 ∧ c + 1 = ceil2 i.width then
          chunk d.yuyStride d.yuy (2 * r + 1) else chunk d.yuyStride d.yuy (2 * r)) c)
          (ceil2 i.width) (chunk i.uStride i.u r)).take (ceil2 i.width))
      (v := fillTo (fun c => unV t 1 (if i.width % 2 = 1 ∧ c + 1 = ceil2 i.width then
          chunk d.yuyStride d.yuy (2 * r + 1) else chunk d.yuyStride d.yuy (2 * r)) c)
          (ceil2 i.width) (chunk i.vStride i.v r)) (yuy := chunk d.yuyStride d.yuy (2 * r + 1))
      (by rw [List.length_take]; omega)
      (by rw [List.length_take, fillTo_length (by omega)]; omega)
      (by rw [fillTo_length (by omega)]; omega)
      (fun a => by rw [fillTo_length (by omega), cv]; exact hv a) (by omega) (by omega) hlast
    rw [e2]
    simp only [Outcome.bind_ok, Outcome.pure_eq, Bool.false_eq_true, if_false]
    rw [fillTo_append (by omega), fillTo_append_le (by omega) (by rw [fillTo_length (by omega)]; omega), fillTo_fillTo (by omega) (by omega),
      fillTo_fillTo (by omega) (by omega)]
    refine ⟨_, _, _, _, rfl, ?_, ?_, ?_, ?_⟩
    · intro x hx
      unfold quadRow
      by_cases hc : i.width % 2 = 1 ∧ x + 1 = i.width
      · rw [if_pos hc, if_pos hc, unY_row hd' (by omega), show 2 * r / 2 = r by omega]
      · rw [if_neg hc, if_neg hc, unY_row hd' (by omega)]
    · intro x hx
      unfold quadRow
      simp only [ite_self]
      rw [unY_row hd' (by omega), show (2 * r + 1) / 2 = r by omega, ite_self]
    · intro c hc
      by_cases hcz' : c < cz / 2
      · right
        rw [if_pos hcz', unU_row (x := 2 * c) hd' (by omega) (by omega)]
        refine ⟨?_, rfl⟩
        rintro rfl
        unfold noUnpack at e3
        cases e3
        omega
      · left
        rw [if_neg hcz']
        unfold quadRow
        by_cases hl : i.width % 2 = 1 ∧ c + 1 = ceil2 i.width
        · rw [if_pos hl, if_pos (by omega), unU_row (x := 2 * c) hd' (by omega) (by omega),
            show 2 * r / 2 = r by omega]
        · rw [if_neg hl, if_neg (by omega), unU_row (x := 2 * c) hd' (by omega) (by omega)]
    · intro c hc
      by_cases hcz' : c < cz / 2
      · right
        rw [if_pos hcz', unV_row (x := 2 * c) hd' (by omega) (by omega)]
        refine ⟨?_, rfl⟩
        rintro rfl
        unfold noUnpack at e3
        cases e3
        omega
      · left
        rw [if_neg hcz']
        unfold quadRow
        by_cases hl : i.width % 2 = 1 ∧ c + 1 = ceil2 i.width
        · rw [if_pos hl, if_pos (by omega), unV_row (x := 2 * c) hd' (by omega) (by omega),
            show 2 * r / 2 = r by omega]
        · rw [if_neg hl, if_neg (by omega), unV_row (x := 2 * c) hd' (by omega) (by omega)])
  refine ⟨_, _, _, e, ?_, ?_, ?_⟩
  · have := fillRows_frameRel (cn := 1) (R := fun x r p => p = [Packed.Y t d x (quadRow i.width x r)])
      (F := Fy) (l := i.y)
      (w := i.width) (h := 2 * (i.height / 2)) (st := i.yStride) (by omega) (by omega)
      (by
        have h1 := hyr.1
        have h2 : 2 * (i.height / 2) * i.yStride ≤ i.yStride * i.height := by
          rw [Nat.mul_comm i.yStride]; exact Nat.mul_le_mul_right _ (by omega)
        omega)
      (fun x r hx hr => by
        rw [fillPix_one]
        rcases Nat.mod_two_eq_zero_or_one r with h0 | h0
        · have := (hF (r / 2) (by omega)).1 x hx
          rw [show 2 * (r / 2) = r by omega] at this
          rw [this]
        · have := (hF (r / 2) (by omega)).2.1 x hx
          rw [show 2 * (r / 2) + 1 = r by omega] at this
          rw [this])
    rw [Nat.mul_one] at this
    exact frameRel_eq this
  · have := fillRows_frameRel (cn := 1) (R := fun c r p =>
        p = [Packed.U t d (2 * c) (quadRow i.width (2 * c) (2 * r))] ∨
        hd ≠ noUnpack ∧ p = [Packed.U t d (2 * c) (2 * r + 1)]) (F := Fu) (l := i.u)
      (w := ceil2 i.width) (h := i.height / 2) (st := i.uStride) (by omega) (by omega) hl2
      (fun x r hx hr => by
        rw [fillPix_one]
        rcases (hF r hr).2.2.1 x hx with a | ⟨b, a⟩
        · left; rw [a]
        · right; exact ⟨b, by rw [a]⟩)
    rw [Nat.mul_one] at this
    exact this
  · have := fillRows_frameRel (cn := 1) (R := fun c r p =>
        p = [Packed.V t d (2 * c) (quadRow i.width (2 * c) (2 * r))] ∨
        hd ≠ noUnpack ∧ p = [Packed.V t d (2 * c) (2 * r + 1)]) (F := Fv) (l := i.v)
      (w := ceil2 i.width) (h := i.height / 2) (st := i.vStride) (by omega) (by omega) hl3
      (fun x r hx hr => by
        rw [fillPix_one]
        rcases (hF r hr).2.2.2 x hx with a | ⟨b, a⟩
        · left; rw [a]
        · right; exact ⟨b, by rw [a]⟩)
    rw [Nat.mul_one] at this
    exact this

end

end Verif
