import Verif.Lemmas.X86Yuy2Unpack
import Verif.Spec.VecYuy2
/-! # Rows and frames of the packed 4:2:2 unpackers on x86 processors -/
namespace Verif.X86
open Spec

theorem fillTo_keep {f : Nat → Nat} {m k : Nat} {l : Buf} (h : m ≤ k) (hk : k ≤ l.length) :
    fillTo f m l = fillTo (fun x => if x < m then f x else l.getD x 0) k l := by
  apply List.ext_getElem?
  intro i
  rw [fillTo_getElem?, fillTo_getElem?]
  by_cases h1 : i < m
  · rw [if_pos h1, if_pos (by omega), if_pos h1]
  · by_cases h2 : i < k
    · rw [if_neg h1, if_pos h2, if_neg h1, List.getD_eq_getElem?_getD,
        List.getElem?_eq_getElem (by omega)]
      rfl
    · rw [if_neg h1, if_neg h2]

theorem setLast_keep {f g : Nat → Nat} {m n : Nat} {l : Buf} {v : Nat} (h : m ≤ n) (hl : l.length = n + 1)
    (hg : ∀ i, i < n → g i = if i < m then f i else l.getD i 0) (hv : g n = v) :
    setLast (fillTo f m l) v = .ok (fillTo g (n + 1) l) := by
  rw [fillTo_keep (k := n) h (by omega)]
  exact setLast_fill hl (.inl rfl) (fun i hi => (hg i hi).symm) hv.symm

theorem yuyVecEnd_half (cpu : Cpu) (w : Nat) :
    yuyVecEnd cpu w = 0 ∨ w / 2 ≤ yuyVecEnd cpu w ∧ yuyVecEnd cpu w + 1 ≤ w ∧ 0 < yuyVecEnd cpu w := by
  cases cpu <;> simp only [yuyVecEnd] <;> first | omega | exact .inl trivial

section
variable {t : Yuy2} {cpu : Cpu} {s : Sampling} {w : Nat}

/-- Without vector code for the row the unpacker does nothing. -/
theorem unpacker_none {y u v yuy : Buf} (ly : w ≤ y.length)
    (lu : yuyStep s (2 * (w / 2)) ≤ u.length) (lv : yuyStep s (2 * (w / 2)) ≤ v.length)
    (lq : ceil2 w * 4 ≤ yuy.length) (h0 : yuyVecEnd cpu w = 0) :
    unpacker cpu s t w y u v yuy = noUnpack y u v yuy := by
  have y0 : yuyStep s 0 = 0 := by cases s <;> rfl
  rw [unpacker_row ly lu lv lq, h0, y0, fillTo_zero, fillTo_zero, fillTo_zero]; rfl

/-- Columns after which chroma sample `c` comes. -/
theorem unpackRow_x86 {n cw : Nat} (hw : 0 < w)
    (hn : n = 1 ∧ cw = ceil2 w ∧ s = .yuv422 ∨ n = 2 ∧ cw = w ∧ s = .yuv444)
    {y u v yuy : Buf} (ly : y.length = w) (lu : u.length = cw)
    (lv : cw ≤ v.length) (lv' : w % 2 = 1 → v.length = cw) (lq : yuy.length = ceil2 w * 4) :
    unpackRow n w t (unpacker cpu s t w) y u v yuy
      = .ok (fillTo (fun x => if UnpackDone cpu w x then unY t yuy x else y.getD x 0) w y,
        fillTo (fun c => if UnpackDone cpu w (c * hdiv s) then unU t n yuy c else u.getD c 0) cw u,
        fillTo (fun c => if UnpackDone cpu w (c * hdiv s) then unV t n yuy c else v.getD c 0) cw v) := by
  have lc : ceil2 w = (w + 1) / 2 := rfl
  have hE := yuyVecEnd_even cpu w
  have hn0 : 0 < n := by omega
  have hps : pairSamples s = n := by rcases hn with ⟨rfl, _, rfl⟩ | ⟨rfl, _, rfl⟩ <;> rfl
  have hst : yuyStep s (2 * (w / 2)) ≤ cw := by
    rcases hn with ⟨_, rfl, rfl⟩ | ⟨_, rfl, rfl⟩ <;> simp only [yuyStep] <;> omega
  rcases yuyVecEnd_half cpu w with h0 | ⟨h1, h2, hpos⟩
  · have e := unpacker_none (s := s) (t := t) (cpu := cpu) (y := y) (u := u) (v := v) (yuy := yuy)
      (by omega) (by omega) (by omega) (by omega) h0
    have hd : ∀ x, UnpackDone cpu w x := fun x => .inl h0
    have := unpackRow_ok (t := t) (hd := noUnpack) (n := n) (cw := cw) hw
      (by rcases hn with ⟨a, b, -⟩ | ⟨a, b, -⟩ <;> simp [a, b]) noUnpack_ok noUnpack_whole ly lu lv lv' lq
    simp only [if_pos (hd _)]
    rw [← this]
    unfold unpackRow
    rw [e]
  · have e := unpacker_row (s := s) (t := t) (cpu := cpu) (w := w) (y := y) (u := u) (v := v) (yuy := yuy)
      (by omega) (by omega) (by omega) (by omega)
    rw [hps] at e
    generalize hEe : yuyVecEnd cpu w = E at *
    have hEc : yuyStep s E ≤ cw ∧ (w % 2 = 1 → yuyStep s E + 1 ≤ cw) ∧ (w / 2 ≤ cw / n) ∧
        (w % 2 = 1 → cw = n * (w / 2) + 1) ∧
        (∀ c, c < yuyStep s E ↔ c * hdiv s < E) ∧ (∀ c, c * hdiv s + 1 = w ↔ w % 2 = 1 ∧ c + 1 = cw ∨ w % 2 = 0 ∧ c * hdiv s + 1 = w) := by
      rcases hn with ⟨rfl, rfl, rfl⟩ | ⟨rfl, rfl, rfl⟩ <;> simp only [yuyStep, hdiv] <;>
        exact ⟨by omega, by omega, by omega, by omega, fun c => by omega, fun c => by omega⟩
    obtain ⟨c1, c2, c3, c4, c5, c6⟩ := hEc
    unfold unpackRow
    rw [e]
    simp only [Outcome.bind_ok]
    rw [fillTo_length (by omega), fillTo_length (by omega), fillTo_length (by omega), ly, lu, lq]
    have hk : min4 (w / 2) (cw / n) (v.length / n) (ceil2 w * 4 / 4) ≤ E := by
      unfold min4; omega
    rw [forRange_empty hk]
    simp only [Outcome.bind_ok]
    have hdn : ∀ x, UnpackDone cpu w x ↔ x < E ∨ w % 2 = 1 ∧ x + 1 = w := by
      intro x; unfold UnpackDone; rw [hEe]; omega
    by_cases hodd : w % 2 = 0
    · rw [if_pos hodd]
      have hf : ∀ x, UnpackDone cpu w x ↔ x < E := fun x => by rw [hdn]; omega
      simp only [hf, ← c5]
      rw [← fillTo_keep (by omega) (by omega), ← fillTo_keep (by omega) (by omega),
        ← fillTo_keep (by omega) (by omega)]
      rfl
    · rw [if_neg hodd, lastQuad hw lq]
      have hl := lumaAt_even t ((w - 1) / 2)
      rw [show 2 * ((w - 1) / 2) = w - 1 by omega] at hl
      simp only [Outcome.bind_ok]
      rw [quad_idx (y0Pos_lt t) (by omega), unpackC_ok (x := w - 1) (by omega) rfl, ← hl]
      simp only [Outcome.bind_ok]
      have q5 := c4 (by omega)
      have hdc : (n * (w / 2)) / n = w / 2 := Nat.mul_div_cancel_left _ hn0
      have hc2 := c2 (by omega)
      have key : ∀ {f : Nat → Nat} {l : Buf} {a : Nat}, l.length = cw → f (n * (w / 2)) = a →
          setLast (fillTo f (yuyStep s E) l) a
            = .ok (fillTo (fun c => if UnpackDone cpu w (c * hdiv s) then f c else l.getD c 0) cw l) := by
        intro f l a h1 h2
        rw [q5]
        refine setLast_keep (by omega) (by omega) (fun i hi => ?_) ?_
        · have : UnpackDone cpu w (i * hdiv s) ↔ i < yuyStep s E := by
            rw [hdn, ← c5]
            have := c6 i
            omega
          simp only [this]
        · show (if _ then _ else _) = _
          rw [if_pos, h2]
          rw [hdn]
          right
          refine ⟨by omega, (c6 _).2 (.inl ⟨by omega, by omega⟩)⟩
      rw [setLast_keep (n := w - 1)
        (g := fun x => if UnpackDone cpu w x then unY t yuy x else y.getD x 0) (by omega) (by omega)
        (fun i hi => by
          have : UnpackDone cpu w i ↔ i < E := by rw [hdn]; omega
          simp only [this])
        (v := yuy.getD (lumaAt t (w - 1)) 0)
        (by show (if _ then _ else _) = _
            rw [if_pos (by rw [hdn]; omega)]; rfl)]
      simp only [Outcome.bind_ok]
      rw [key (a := yuy.getD (cbAt t (w - 1)) 0) lu
        (by unfold unU; rw [hdc, show 2 * (w / 2) = w - 1 by omega])]
      simp only [Outcome.bind_ok]
      rw [key (a := yuy.getD (crAt t (w - 1)) 0) (lv' (by omega))
        (by unfold unV; rw [hdc, show 2 * (w / 2) = w - 1 by omega])]
      simp only [Outcome.bind_ok, Outcome.pure_eq]
      rw [show w - 1 + 1 = w by omega]

/-- One row of a pair, 4:2:0.  `last` is the second row. -/
theorem unpackRow420_x86 (hw : 0 < w) {chroma : Bool} {outer y u v yuy last : Buf} (ly : y.length = w)
    (lu : u.length = ceil2 w) (lv : ceil2 w ≤ v.length) (lv' : w % 2 = 1 → v.length = ceil2 w)
    (lq : yuy.length = ceil2 w * 4) (ll : last.length = ceil2 w * 4)
    (hl : lastChunk 4 outer = .ok (chunk 4 last ((w - 1) / 2))) :
    unpackRow420 w t (unpacker cpu .yuv420 t w) chroma outer y u v yuy
        = .ok (fillTo (fun x => if UnpackDone cpu w x then
            unY t (if w % 2 = 1 ∧ x + 1 = w then last else yuy) x else y.getD x 0) w y,
          if chroma then
            fillTo (fun c => if UnpackDone cpu w (2 * c) then
              unU t 1 (if w % 2 = 1 ∧ c + 1 = ceil2 w then last else yuy) c else u.getD c 0) (ceil2 w) u
          else fillTo (unU t 1 yuy) (yuyVecEnd cpu w / 2) u,
          if chroma then
            fillTo (fun c => if UnpackDone cpu w (2 * c) then
              unV t 1 (if w % 2 = 1 ∧ c + 1 = ceil2 w then last else yuy) c else v.getD c 0) (ceil2 w) v
          else fillTo (unV t 1 yuy) (yuyVecEnd cpu w / 2) v) := by
  have lc : ceil2 w = (w + 1) / 2 := rfl
  have hE := yuyVecEnd_even cpu w
  have hst : yuyStep .yuv420 (2 * (w / 2)) = w / 2 := by simp only [yuyStep]; omega
  rcases yuyVecEnd_half cpu w with h0 | ⟨h1, h2, hpos⟩
  · have e := unpacker_none (s := .yuv420) (t := t) (cpu := cpu) (y := y) (u := u) (v := v) (yuy := yuy)
      (by omega) (by omega) (by omega) (by omega) h0
    have hd : ∀ x, UnpackDone cpu w x := fun x => .inl h0
    obtain ⟨cx, ⟨a, b, c, e1⟩, e2, _⟩ := unpackRow420_ok (t := t) (hd := noUnpack) (chroma := chroma) hw
      noUnpack_ok noUnpack_whole ly lu lv lv' lq ll hl
    have : cx = 0 := by unfold noUnpack at e1; cases e1; rfl
    subst this
    simp only [if_pos (hd _)]
    rw [h0, ← e2]
    unfold unpackRow420
    rw [e]
  · have e := unpacker_row (s := .yuv420) (t := t) (cpu := cpu) (w := w) (y := y) (u := u) (v := v)
      (yuy := yuy) (by omega) (by omega) (by omega) (by omega)
    rw [show pairSamples .yuv420 = 1 from rfl] at e
    simp only [yuyStep] at e
    generalize hEe : yuyVecEnd cpu w = E at *
    unfold unpackRow420
    rw [e]
    simp only [Outcome.bind_ok]
    rw [fillTo_length (by omega), fillTo_length (by omega), fillTo_length (by omega), ly, lu, lq]
    have hk : min4 (w / 2) (ceil2 w) v.length (ceil2 w * 4 / 4) ≤ E := by
      unfold min4; omega
    rw [forRange_empty hk]
    simp only [Outcome.bind_ok]
    have hdn : ∀ x, UnpackDone cpu w x ↔ x < E ∨ w % 2 = 1 ∧ x + 1 = w := by
      intro x; unfold UnpackDone; rw [hEe]; omega
    by_cases hodd : w % 2 = 0
    · rw [if_pos hodd]
      have hf : ∀ x, UnpackDone cpu w x ↔ x < E := fun x => by rw [hdn]; omega
      have hf2 : ∀ c, UnpackDone cpu w (2 * c) ↔ c < E / 2 := fun x => by rw [hdn]; omega
      have n1 : ∀ P : Prop, ¬ (w % 2 = 1 ∧ P) := fun _ a => by omega
      simp only [if_neg (n1 _), hf2]
      simp only [hf]
      rw [← fillTo_keep (by omega) (by omega), ← fillTo_keep (by omega) (by omega),
        ← fillTo_keep (by omega) (by omega)]
      cases chroma <;> rfl
    · rw [if_neg hodd, hl]
      have hle := lumaAt_even t ((w - 1) / 2)
      rw [show 2 * ((w - 1) / 2) = w - 1 by omega] at hle
      simp only [Outcome.bind_ok]
      rw [quad_idx (y0Pos_lt t) (by omega), ← hle]
      simp only [Outcome.bind_ok]
      rw [setLast_keep (n := w - 1)
        (g := fun x => if UnpackDone cpu w x then
            unY t (if w % 2 = 1 ∧ x + 1 = w then last else yuy) x else y.getD x 0)
        (v := last.getD (lumaAt t (w - 1)) 0) (by omega) (by omega)
        (fun i hi => by
          have : UnpackDone cpu w i ↔ i < E := by rw [hdn]; omega
          simp only [this]
          rw [if_neg (show ¬ (w % 2 = 1 ∧ i + 1 = w) by omega)])
        (by show (if _ then _ else _) = _
            rw [if_pos (by rw [hdn]; omega), if_pos (by omega)]; rfl)]
      simp only [Outcome.bind_ok]
      rw [show w - 1 + 1 = w by omega]
      cases chroma
      · rfl
      · simp only [if_true]
        rw [unpackC_ok (x := w - 1) (by omega) rfl]
        simp only [Outcome.bind_ok]
        have key : ∀ {F : Buf → Nat → Nat} {l : Buf} {a : Nat}, l.length = ceil2 w →
            F last (w / 2) = a →
            setLast (fillTo (F yuy) (E / 2) l) a
              = .ok (fillTo (fun c => if UnpackDone cpu w (2 * c) then
                F (if w % 2 = 1 ∧ c + 1 = ceil2 w then last else yuy) c else l.getD c 0) (ceil2 w) l) := by
          intro F l a g1 g2
          rw [show ceil2 w = w / 2 + 1 by omega]
          refine setLast_keep (by omega) (by omega) (fun i hi => ?_) ?_
          · have : UnpackDone cpu w (2 * i) ↔ i < E / 2 := by rw [hdn]; omega
            simp only [this]
            rw [if_neg (show ¬ (w % 2 = 1 ∧ i + 1 = w / 2 + 1) by omega)]
          · show (if _ then _ else _) = _
            rw [if_pos (by rw [hdn]; omega), if_pos (by omega), g2]
        rw [key (F := unU t 1) (a := last.getD (cbAt t (w - 1)) 0) lu
          (by unfold unU; rw [show 2 * (w / 2 / 1) = w - 1 by omega])]
        simp only [Outcome.bind_ok]
        rw [key (F := unV t 1) (a := last.getD (crAt t (w - 1)) 0) (lv' (by omega))
          (by unfold unV; rw [show 2 * (w / 2 / 1) = w - 1 by omega])]
        simp only [Outcome.bind_ok, Outcome.pure_eq]


/-! ## Frames -/

variable {i : Planar} {d : Packed} {B B' : Nat}

theorem old_at {b : Buf} {st r m x : Nat} (hx : x < m) (hm : m ≤ st) :
    ((chunk st b r).take m).getD x 0 = at' b st x r := by
  rw [take_getD hx, chunk_getD (by omega)]; rfl

theorem old_at' {b : Buf} {st r x : Nat} (hx : x < st) :
    (chunk st b r).getD x 0 = at' b st x r := by
  rw [chunk_getD (by omega)]; rfl

theorem unpackRows_x86 {n cw : Nat} (hp : PlanarRows i s B)
    (hd' : GoodPacked d B') (hw : i.width = d.width) (hhh : i.height = d.height)
    (hn : n = 1 ∧ cw = ceil2 i.width ∧ s = .yuv422 ∨ n = 2 ∧ cw = i.width ∧ s = .yuv444)
    (hv : i.width % 2 = 1 → i.vStride = cw) :
    ∃ y u v, unpackRows n cw t (unpacker cpu s t i.width) i d = .ok (y, u, v) ∧
      FrameSpec y i.y i.yStride i.width i.height 1 (fun x r =>
        [if UnpackDone cpu i.width x then Packed.Y t d x r else at' i.y i.yStride x r]) ∧
      FrameSpec u i.u i.uStride cw i.height 1 (fun c r =>
        [if UnpackDone cpu i.width (c * hdiv s) then Packed.U t d (c * hdiv s) r
          else at' i.u i.uStride c r]) ∧
      FrameSpec v i.v i.vStride cw i.height 1 (fun c r =>
        [if UnpackDone cpu i.width (c * hdiv s) then Packed.V t d (c * hdiv s) r
          else at' i.v i.vStride c r]) := by
  have lc : ceil2 i.width = (i.width + 1) / 2 := rfl
  have h1 := hp.wpos
  have h2 := hp.yw
  have h34 : cw ≤ i.uStride ∧ cw ≤ i.vStride ∧ s.chromaHeight i.height = i.height := by
    have h3 := hp.uw
    have h4 := hp.vw
    rcases hn with ⟨-, rfl, rfl⟩ | ⟨-, rfl, rfl⟩ <;> exact ⟨h3, h4, rfl⟩
  obtain ⟨h3, h4, h5⟩ := h34
  have hyr := hp.yr; have hur := hp.ur; have hvr := hp.vr
  rw [h5] at hur hvr
  have hf := hd'.full
  have hs := hd'.stride'
  rw [← hhh] at hf
  rw [← hw] at hs
  have hcw : 0 < cw := by rcases hn with ⟨-, rfl, -⟩ | ⟨-, rfl, -⟩ <;> omega
  have hcx : ∀ c, c < cw → c * hdiv s < i.width ∧ c / n = c * hdiv s / 2 := by
    intro c hc
    rcases hn with ⟨rfl, rfl, rfl⟩ | ⟨rfl, rfl, rfl⟩ <;> simp only [hdiv] <;> omega
  unfold unpackRows
  rw [if_neg (by omega), fullRows_div hyr, fullRows_div hur, fullRows_div hvr, fullRows_div hf,
    show min4 i.height i.height i.height i.height = i.height by unfold min4; omega]
  obtain ⟨Fy, Fu, Fv, e, hF⟩ := rows3_fill (k := i.height) (wy := i.width) (wu := cw)
    (wv := cw) (y := i.y) (u := i.u) (v := i.v)
    (P := fun r fy fu fv => (∀ x, x < i.width → fy x =
        if UnpackDone cpu i.width x then Packed.Y t d x r else at' i.y i.yStride x r) ∧
      (∀ c, c < cw → fu c = if UnpackDone cpu i.width (c * hdiv s) then Packed.U t d (c * hdiv s) r
          else at' i.u i.uStride c r) ∧
      (∀ c, c < cw → fv c = if UnpackDone cpu i.width (c * hdiv s) then Packed.V t d (c * hdiv s) r
          else at' i.v i.vStride c r))
    (ny := i.yStride) (nu := i.uStride) (nv := i.vStride)
    (by omega) (by omega) (by omega) h2 h3 h4
    (by rw [Nat.mul_comm]; exact hyr.1) (by rw [Nat.mul_comm]; exact hur.1)
    (by rw [Nat.mul_comm]; exact hvr.1)
    (g := fun r y u v => do
      let yuy ← slice (chunk d.yuyStride d.yuy r) 0 (yuy2Width d.width)
      let ys ← slice y 0 i.width
      let us ← slice u 0 cw
      let (a, b, c) ← unpackRow n i.width t (unpacker cpu s t i.width) ys us v yuy
      return (a ++ y.drop i.width, b ++ u.drop cw, c)) (by
    intro r hr
    have cy := chunk_length (fullRows_row hyr hr)
    have cu := chunk_length (fullRows_row hur hr)
    have cv := chunk_length (fullRows_row hvr hr)
    have cq := chunk_length (fullRows_row hf hr)
    have hrow := unpackRow_x86 (cpu := cpu) (t := t) (s := s) (cw := cw) h1 hn
      (y := (chunk i.yStride i.y r).take i.width) (u := (chunk i.uStride i.u r).take cw)
      (v := chunk i.vStride i.v r) (yuy := chunk d.yuyStride d.yuy r)
      (by rw [List.length_take]; omega) (by rw [List.length_take]; omega) (by omega)
      (fun a => by rw [cv]; exact hv a) (by omega)
    rw [slice_take (by rw [yuy2Width_eq, ← hw]; omega), slice_take (by omega), slice_take (by omega)]
    simp only [Outcome.bind_ok]
    rw [List.take_of_length_le (l := chunk d.yuyStride d.yuy r) (by rw [yuy2Width_eq, ← hw]; omega), hrow]
    simp only [Outcome.bind_ok, Outcome.pure_eq]
    rw [fillTo_append (by omega), fillTo_append (by omega)]
    refine ⟨_, _, _, rfl, fun x hx => ?_, fun c hc => ?_, fun c hc => ?_⟩
    · rw [unY_row hd' (by omega), old_at hx (by omega)]
    · rw [unU_row hd' (by have := (hcx c hc).1; omega) (hcx c hc).2, old_at hc (by omega)]
    · rw [unV_row hd' (by have := (hcx c hc).1; omega) (hcx c hc).2, old_at' (by omega)])
  refine ⟨_, _, _, e, ?_, ?_, ?_⟩
  · have := fillRows_frameRel (cn := 1) (R := fun x r p => p =
        [if UnpackDone cpu i.width x then Packed.Y t d x r else at' i.y i.yStride x r]) (F := Fy) (l := i.y)
      (w := i.width) (h := i.height) (st := i.yStride) (by omega) (by omega)
      (by rw [Nat.mul_comm]; exact hyr.1)
      (fun x r hx hr => by rw [fillPix_one, (hF r hr).1 x hx])
    rw [Nat.mul_one] at this
    exact frameRel_eq this
  · have := fillRows_frameRel (cn := 1) (R := fun c r p => p =
        [if UnpackDone cpu i.width (c * hdiv s) then Packed.U t d (c * hdiv s) r
          else at' i.u i.uStride c r]) (F := Fu) (l := i.u)
      (w := cw) (h := i.height) (st := i.uStride) (by omega) (by omega)
      (by rw [Nat.mul_comm]; exact hur.1)
      (fun x r hx hr => by rw [fillPix_one, (hF r hr).2.1 x hx])
    rw [Nat.mul_one] at this
    exact frameRel_eq this
  · have := fillRows_frameRel (cn := 1) (R := fun c r p => p =
        [if UnpackDone cpu i.width (c * hdiv s) then Packed.V t d (c * hdiv s) r
          else at' i.v i.vStride c r]) (F := Fv) (l := i.v)
      (w := cw) (h := i.height) (st := i.vStride) (by omega) (by omega)
      (by rw [Nat.mul_comm]; exact hvr.1)
      (fun x r hx hr => by rw [fillPix_one, (hF r hr).2.2 x hx])
    rw [Nat.mul_one] at this
    exact frameRel_eq this

theorem unpack420_x86 (hp : PlanarRows i .yuv420 B)
    (hd' : GoodPacked d B') (hw : i.width = d.width) (hhh : i.height = d.height)
    (hv : i.width % 2 = 1 → i.vStride = ceil2 i.width) :
    ∃ y u v, unpack420 t (unpacker cpu .yuv420 t i.width) i d = .ok (y, u, v) ∧
      FrameSpec y i.y i.yStride i.width (2 * (i.height / 2)) 1 (fun x r =>
        [if UnpackDone cpu i.width x then Packed.Y t d x (quadRow i.width x r)
          else at' i.y i.yStride x r]) ∧
      FrameSpec u i.u i.uStride (ceil2 i.width) (i.height / 2) 1 (fun c r =>
        [if UnpackDone cpu i.width (2 * c) then
          Packed.U t d (2 * c) (x86ChromaRow cpu i.width (2 * c) r) else at' i.u i.uStride c r]) ∧
      FrameSpec v i.v i.vStride (ceil2 i.width) (i.height / 2) 1 (fun c r =>
        [if UnpackDone cpu i.width (2 * c) then
          Packed.V t d (2 * c) (x86ChromaRow cpu i.width (2 * c) r) else at' i.v i.vStride c r]) := by
  have lc : ceil2 i.width = (i.width + 1) / 2 := rfl
  have lh : ceil2 i.height = (i.height + 1) / 2 := rfl
  have h1 := hp.wpos
  have h2 := hp.yw
  have h3 := hp.uw
  have h4 := hp.vw
  have hyr := hp.yr; have hur := hp.ur; have hvr := hp.vr
  simp only [Sampling.chromaWidth] at h3 h4
  simp only [Sampling.chromaHeight] at hur hvr
  have hf := hd'.full
  have hs := hd'.stride'
  rw [← hhh] at hf
  rw [← hw] at hs
  have hE := yuyVecEnd_even cpu i.width
  have hE2 : yuyVecEnd cpu i.width / 2 ≤ ceil2 i.width := by
    have := yuyVecEnd_half cpu i.width; omega
  have hcs : ∀ (st : Nat) (b : Buf), FullRows b.length st (ceil2 i.height) →
      i.height / 2 * st ≤ b.length := by
    intro st b hb
    have := hb.1
    have h2 : i.height / 2 * st ≤ st * ceil2 i.height := by
      rw [Nat.mul_comm st]; exact Nat.mul_le_mul_right _ (by omega)
    omega
  have hl1 : i.height / 2 * (i.yStride * 2) ≤ i.y.length := by
    have h1 := hyr.1
    have h2 : i.height / 2 * (i.yStride * 2) ≤ i.yStride * i.height := by
      rw [Nat.mul_comm i.yStride 2, ← Nat.mul_assoc, Nat.mul_comm i.yStride]
      exact Nat.mul_le_mul_right _ (by omega)
    omega
  have hl2 := hcs i.uStride i.u hur
  have hl3 := hcs i.vStride i.v hvr
  have hk : min4 (i.y.length / (i.yStride * 2)) (i.u.length / i.uStride) (i.v.length / i.vStride)
      (d.yuy.length / (d.yuyStride * 2)) = i.height / 2 := by
    rw [fullRows_div2 hf, fullRows_div2 hyr, fullRows_div hur, fullRows_div hvr]
    unfold min4; omega
  unfold unpack420
  simp only
  rw [if_neg (by omega), hk]
  obtain ⟨Fy, Fu, Fv, e, hF⟩ := rows3_fill2 (k := i.height / 2) (wy := i.width)
    (wu := ceil2 i.width) (wv := ceil2 i.width) (y := i.y) (u := i.u) (v := i.v)
    (P := fun r fa fb fu fv =>
      (∀ x, x < i.width → fa x = if UnpackDone cpu i.width x then
        Packed.Y t d x (quadRow i.width x (2 * r)) else at' i.y i.yStride x (2 * r)) ∧
      (∀ x, x < i.width → fb x = if UnpackDone cpu i.width x then
        Packed.Y t d x (quadRow i.width x (2 * r + 1)) else at' i.y i.yStride x (2 * r + 1)) ∧
      (∀ c, c < ceil2 i.width → fu c = if UnpackDone cpu i.width (2 * c) then
          Packed.U t d (2 * c) (x86ChromaRow cpu i.width (2 * c) r) else at' i.u i.uStride c r) ∧
      (∀ c, c < ceil2 i.width → fv c = if UnpackDone cpu i.width (2 * c) then
          Packed.V t d (2 * c) (x86ChromaRow cpu i.width (2 * c) r) else at' i.v i.vStride c r))
    (ny := i.yStride) (nu := i.uStride) (nv := i.vStride)
    (by omega) (by omega) (by omega) h2 h3 h4 hl1 hl2 hl3
    (g := fun r y u v => do
      let outer := chunk (d.yuyStride * 2) d.yuy r
      let one := fun (chroma : Bool) (yuy y u v : Buf) => do
        let yuy ← slice yuy 0 (yuy2Width d.width)
        let ys ← slice y 0 i.width
        let us ← slice u 0 (ceil2 i.width)
        let (a, b, c) ← unpackRow420 i.width t (unpacker cpu .yuv420 t i.width) chroma outer ys us v yuy
        return (a ++ y.drop i.width, b ++ u.drop (ceil2 i.width), c)
      let (y0, u, v) ← one true (outer.take d.yuyStride) (y.take i.yStride) u v
      let (y1, u, v) ← one false (outer.drop d.yuyStride) (y.drop i.yStride) u v
      return (y0 ++ y1, u, v)) (by
    intro r hr
    have hr1 : 2 * r + 1 < i.height := by omega
    have cy0 := chunk_length (fullRows_row hyr (show 2 * r < i.height by omega))
    have cy1 := chunk_length (fullRows_row hyr hr1)
    have cu := chunk_length (fullRows_row hur (show r < ceil2 i.height by omega))
    have cv := chunk_length (fullRows_row hvr (show r < ceil2 i.height by omega))
    have cq0 := chunk_length (fullRows_row hf (show 2 * r < i.height by omega))
    have cq1 := chunk_length (fullRows_row hf hr1)
    have hcq : (chunk (d.yuyStride * 2) d.yuy r).length = d.yuyStride * 2 :=
      chunk2_length hf hr
    have hlast : lastChunk 4 (chunk (d.yuyStride * 2) d.yuy r)
        = .ok (chunk 4 (chunk d.yuyStride d.yuy (2 * r + 1)) ((i.width - 1) / 2)) := by
      rw [lastChunk_ok (by omega) (by omega), hcq, ← chunk2_drop_chunk]
      congr 1
      unfold chunk
      rw [List.drop_drop]
      congr 2
      omega
    simp only [chunk2_take_chunk, chunk2_drop_chunk]
    rw [slice_take (l := chunk d.yuyStride d.yuy (2 * r)) (by rw [yuy2Width_eq, ← hw]; omega),
      slice_take (l := chunk i.yStride i.y (2 * r)) (by omega), slice_take (l := chunk i.uStride i.u r) (by omega)]
    simp only [Outcome.bind_ok]
    rw [List.take_of_length_le (l := chunk d.yuyStride d.yuy (2 * r)) (by rw [yuy2Width_eq, ← hw]; omega)]
    have e1 := unpackRow420_x86 (t := t) (cpu := cpu) (chroma := true) h1
      (y := (chunk i.yStride i.y (2 * r)).take i.width) (u := (chunk i.uStride i.u r).take (ceil2 i.width))
      (v := chunk i.vStride i.v r) (yuy := chunk d.yuyStride d.yuy (2 * r))
      (by rw [List.length_take]; omega) (by rw [List.length_take]; omega) (by omega)
      (fun a => by rw [cv]; exact hv a) (by omega) (by omega) hlast
    rw [e1]
    simp only [Outcome.bind_ok, Outcome.pure_eq, if_true]
    rw [fillTo_append (by omega), fillTo_append (by omega)]
    rw [slice_take (l := chunk d.yuyStride d.yuy (2 * r + 1)) (by rw [yuy2Width_eq, ← hw]; omega),
      slice_take (l := chunk i.yStride i.y (2 * r + 1)) (by omega),
      slice_take (l := fillTo _ _ _) (by rw [fillTo_length (by omega)]; omega)]
    simp only [Outcome.bind_ok]
    rw [List.take_of_length_le (l := chunk d.yuyStride d.yuy (2 * r + 1))
      (by rw [yuy2Width_eq, ← hw]; omega)]
    have e2 := fun u v hu hv hv' => unpackRow420_x86 (t := t) (cpu := cpu) (chroma := false) h1
      (y := (chunk i.yStride i.y (2 * r + 1)).take i.width)
      (u := u) (v := v) (yuy := chunk d.yuyStride d.yuy (2 * r + 1))
      (by rw [List.length_take]; omega) hu hv hv' (by omega) (by omega) hlast
    rw [e2 _ _ (by rw [List.length_take, fillTo_length (by omega)]; omega)
      (by rw [fillTo_length (by omega)]; omega)
      (fun a => by rw [fillTo_length (by omega), cv]; exact hv a)]
    simp only [Outcome.bind_ok, Outcome.pure_eq, Bool.false_eq_true, if_false]
    rw [fillTo_append (by omega), fillTo_append_le (by omega) (by rw [fillTo_length (by omega)]; omega), fillTo_fillTo (by omega) (by omega),
      fillTo_fillTo (by omega) (by omega)]
    have hchr : ∀ (F : Buf → Nat → Nat) (G : Nat → Nat → Nat) (o c : Nat),
        (∀ r c, c < ceil2 i.width → F (chunk d.yuyStride d.yuy r) c = G (2 * c) r) →
        c < ceil2 i.width →
        (if c < yuyVecEnd cpu i.width / 2 then F (chunk d.yuyStride d.yuy (2 * r + 1)) c else
          if UnpackDone cpu i.width (2 * c) then
            F (if i.width % 2 = 1 ∧ c + 1 = ceil2 i.width then chunk d.yuyStride d.yuy (2 * r + 1)
              else chunk d.yuyStride d.yuy (2 * r)) c else o)
        = if UnpackDone cpu i.width (2 * c) then G (2 * c) (x86ChromaRow cpu i.width (2 * c) r)
          else o := by
      intro F G o c hG hc
      unfold x86ChromaRow quadRow
      by_cases a : c < yuyVecEnd cpu i.width / 2
      · rw [if_pos a, if_pos (show UnpackDone _ _ _ from .inr (.inl (by omega))), if_pos (by omega),
          hG _ _ hc]
      · rw [if_neg a, if_neg (show ¬ 2 * c < yuyVecEnd cpu i.width by omega)]
        congr 1
        by_cases hl : i.width % 2 = 1 ∧ c + 1 = ceil2 i.width
        · rw [if_pos hl, if_pos (by omega), hG _ _ hc, show 2 * r / 2 = r by omega]
        · rw [if_neg hl, if_neg (by omega), hG _ _ hc]
    refine ⟨_, _, _, _, rfl, ?_, ?_, ?_, ?_⟩
    · intro x hx
      unfold quadRow
      rw [old_at hx (by omega)]
      congr 1
      by_cases hc : i.width % 2 = 1 ∧ x + 1 = i.width
      · rw [if_pos hc, if_pos hc, unY_row hd' (by omega), show 2 * r / 2 = r by omega]
      · rw [if_neg hc, if_neg hc, unY_row hd' (by omega)]
    · intro x hx
      unfold quadRow
      simp only [ite_self]
      rw [old_at hx (by omega), unY_row hd' (by omega), show (2 * r + 1) / 2 = r by omega, ite_self]
    · intro c hc
      rw [← old_at (m := ceil2 i.width) hc (by omega)]
      exact hchr (unU t 1) (Packed.U t d) _ c (fun r c hc => unU_row hd' (by omega) (by omega)) hc
    · intro c hc
      rw [← old_at' (st := i.vStride) (by omega)]
      exact hchr (unV t 1) (Packed.V t d) _ c (fun r c hc => unV_row hd' (by omega) (by omega)) hc)
  refine ⟨_, _, _, e, ?_, ?_, ?_⟩
  · have := fillRows_frameRel (cn := 1) (R := fun x r p => p =
        [if UnpackDone cpu i.width x then Packed.Y t d x (quadRow i.width x r)
          else at' i.y i.yStride x r]) (F := Fy) (l := i.y)
      (w := i.width) (h := 2 * (i.height / 2)) (st := i.yStride) (by omega) (by omega)
      (by
        have h1 := hyr.1
        have h2 : 2 * (i.height / 2) * i.yStride ≤ i.yStride * i.height := by
          rw [Nat.mul_comm i.yStride]; exact Nat.mul_le_mul_right _ (by omega)
        omega)
      (fun x r hx hr => by
        rw [fillPix_one]
        rcases Nat.mod_two_eq_zero_or_one r with h0 | h0
        · have := (hF (r / 2) (by omega)).1 x hx
          rw [show 2 * (r / 2) = r by omega] at this
          rw [this]
        · have := (hF (r / 2) (by omega)).2.1 x hx
          rw [show 2 * (r / 2) + 1 = r by omega] at this
          rw [this])
    rw [Nat.mul_one] at this
    exact frameRel_eq this
  · have := fillRows_frameRel (cn := 1) (R := fun c r p => p =
        [if UnpackDone cpu i.width (2 * c) then
          Packed.U t d (2 * c) (x86ChromaRow cpu i.width (2 * c) r) else at' i.u i.uStride c r]) (F := Fu) (l := i.u)
      (w := ceil2 i.width) (h := i.height / 2) (st := i.uStride) (by omega) (by omega) hl2
      (fun x r hx hr => by rw [fillPix_one, (hF r hr).2.2.1 x hx])
    rw [Nat.mul_one] at this
    exact frameRel_eq this
  · have := fillRows_frameRel (cn := 1) (R := fun c r p => p =
        [if UnpackDone cpu i.width (2 * c) then
          Packed.V t d (2 * c) (x86ChromaRow cpu i.width (2 * c) r) else at' i.v i.vStride c r]) (F := Fv) (l := i.v)
      (w := ceil2 i.width) (h := i.height / 2) (st := i.vStride) (by omega) (by omega) hl3
      (fun x r hx hr => by rw [fillPix_one, (hF r hr).2.2.2 x hx])
    rw [Nat.mul_one] at this
    exact frameRel_eq this

end

end Verif.X86
