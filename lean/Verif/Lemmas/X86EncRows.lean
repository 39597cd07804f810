import Verif.Lemmas.X86EncArith
import Verif.Lemmas.X86Handlers
import Verif.Lemmas.EncodeRows
/-! # Rows of the x86 encoders -/
namespace Verif.X86
open Spec

/-! ## Loops -/

/-- A vector loop whose body takes the state after `cx` pixels to the state after `cx + step`. -/
theorem encLoop {σ : Type} {step ustep width hd : Nat} (hs : 0 < step) (hus : ustep * hd = step)
    {st : Nat → σ} {body : Nat → Nat → σ → Outcome σ} {cx0 ux0 : Nat} (h0 : ux0 * hd = cx0)
    (hbody : ∀ cx ux, ux * hd = cx → cx + step < width →
      body cx ux (st cx) = .ok (st (cx + step))) (hcx : cx0 < width) :
    ∃ cx ux, vwhile step ustep width body cx0 ux0 (st cx0) = .ok (st cx, cx, ux) ∧
      ux * hd = cx ∧ cx < width ∧ width ≤ cx + step := by
  obtain ⟨s, cx, ux, h1, ⟨h2, h3, h4⟩, h5⟩ := vwhile_ok (width := width) (ustep := ustep)
    hs (body := body) (P := fun cx ux s => s = st cx ∧ ux * hd = cx ∧ cx < width)
    (by
      rintro cx ux s ⟨rfl, g1, g2⟩ hlt
      exact ⟨_, hbody cx ux g1 hlt, rfl, by rw [Nat.add_mul, g1, hus], hlt⟩)
    (cx := cx0) (ux := ux0) (s := st cx0) ⟨rfl, h0, hcx⟩
  subst h2
  exact ⟨cx, ux, h1, h3, h4, h5⟩

theorem bind_eq_ok {α β : Type} {x : Outcome α} {f : α → Outcome β} {r : β}
    (h : (x >>= f) = .ok r) : ∃ a, x = .ok a ∧ f a = .ok r := by
  cases x with
  | ok a => exact ⟨a, rfl, h⟩
  | err e => cases h
  | panic => cases h

/-- A vector loop never passes the end of the row. -/
theorem whileGo_le {σ : Type} {step ustep width : Nat} {body : Nat → Nat → σ → Outcome σ} :
    ∀ (fuel cx ux : Nat) (s : σ) (r : σ × Nat × Nat),
      whileGo step ustep width body fuel cx ux s = .ok r → cx ≤ width → r.2.1 ≤ width
  | 0, cx, ux, s, r, h, hc => by
    rw [whileGo] at h; cases h; exact hc
  | fuel + 1, cx, ux, s, r, h, hc => by
    rw [whileGo] at h
    split at h
    · obtain ⟨s', _, h⟩ := bind_eq_ok h
      exact whileGo_le fuel _ _ _ _ h (by omega)
    · cases h; exact hc

theorem vwhile_le {σ : Type} {step ustep width : Nat} {body : Nat → Nat → σ → Outcome σ}
    {cx ux : Nat} {s : σ} {r : σ × Nat × Nat}
    (h : vwhile step ustep width body cx ux s = .ok r) (hc : cx ≤ width) : r.2.1 ≤ width :=
  whileGo_le _ _ _ _ _ h hc

/-! ## Painting -/

theorem painted_put1 {pix : Nat → Buf} (hp : ∀ j, (pix j).length = 1) {cx n : Nat} {row : Buf}
    (h : cx + n ≤ row.length) {f : Nat → Buf} (hf : ∀ j, j < n → f j = pix (cx + j)) :
    put (painted 1 pix cx row) cx ((List.range n).flatMap f) = .ok (painted 1 pix (cx + n) row) := by
  rw [range_flatMap_congr hf]
  have := painted_put (cn := 1) hp (cx := cx) (n := n) (row := row) (by omega)
  rwa [Nat.mul_one] at this

/-- Storing samples in a stack buffer and copying the first ones out. -/
theorem buf_copyOut {N L cn : Nat} (hN : N * cn ≤ L) {f : Nat → Buf} (hf : ∀ j, (f j).length = cn) :
    ∃ b, put (List.replicate L 0) 0 ((List.range N).flatMap f) = .ok b ∧
      ∀ n row p, n ≤ N → copyOut b (n * cn) row p = put row p ((List.range n).flatMap f) := by
  have hl : ((List.range N).flatMap f).length = N * cn := flatMap_length fun j _ => hf j
  have hp : put (List.replicate L 0) 0 ((List.range N).flatMap f)
      = .ok (splice (List.replicate L 0) 0 ((List.range N).flatMap f)) :=
    put_ok (by rw [hl, List.length_replicate]; omega)
  refine ⟨_, hp, fun n row p hn => ?_⟩
  rw [← copyOut_put hN hn hf row p, hp, Outcome.bind_ok]

/-! ## Pixels of a row, the last one repeated -/

/-- Pixel `x`, or the last one. -/
def extPx (w cn : Nat) (rgba : Buf) (x : Nat) : Buf := rowPx rgba cn (min x (w - 1))

theorem extPx_lt {w cn : Nat} {rgba : Buf} {x : Nat} (h : x < w) :
    extPx w cn rgba x = rowPx rgba cn x := by
  unfold extPx; rw [Nat.min_eq_left (by omega)]

theorem rowPx_copy {a b : Buf} {cn n x0 : Nat} (hb : n * cn ≤ b.length)
    (ha : x0 * cn + n * cn ≤ a.length)
    (h : ∀ i, i < n * cn → b.getD i 0 = a.getD (x0 * cn + i) 0) {j : Nat} (hj : j < n) :
    rowPx b cn j = rowPx a cn (x0 + j) := by
  have h1 := succ_mul_le_of_lt cn hj
  have e : (x0 + j) * cn = x0 * cn + j * cn := Nat.add_mul ..
  rw [rowPx_eq, rowPx_eq]
  apply List.ext_getElem?
  intro i
  unfold chunk
  simp only [List.getElem?_take, List.getElem?_drop]
  split
  · have := h (j * cn + i) (by omega)
    rw [List.getD_eq_getElem?_getD, List.getD_eq_getElem?_getD,
      List.getElem?_eq_getElem (by omega), List.getElem?_eq_getElem (by omega)] at this
    rw [e, List.getElem?_eq_getElem (by omega), List.getElem?_eq_getElem (by omega)]
    simp only [Option.getD_some] at this
    simp only [Nat.add_assoc] at this ⊢
    rw [this]
  · rfl

/-- The source of the last pixels of a row, for elements below any bound. -/
theorem tailSrc_bnd {B : Nat} (hB0 : 0 < B) {n cn w : Nat} (hcn : cn ≤ 4) (hn : n % 2 = 0)
    (rep : Bool) {rgba : Buf} (hB : ∀ s ∈ rgba, s < B) (hr : w * cn ≤ rgba.length) {cx : Nat} (h1 : cx < w)
    (h2 : w ≤ cx + n) :
    ∃ sb, tailSrc n rep cn w rgba cx = .ok sb ∧ sb.length = n * 4 ∧ (∀ s ∈ sb, s < B) ∧
      ∀ j, (j < w - cx ∨ rep = true ∧ j = w - cx ∧ (w - cx) % 2 = 1) →
        rowPx sb cn j = extPx w cn rgba (cx + j) := by
  have hdn : (w - cx) * cn ≤ n * cn := Nat.mul_le_mul_right _ (by omega)
  have hn4 : n * cn ≤ n * 4 := Nat.mul_le_mul_left _ hcn
  have e1 : cx * cn + (w - cx) * cn = w * cn := by rw [← Nat.add_mul]; congr 1; omega
  obtain ⟨sb, es, ls, s1, s2⟩ := copyIn_ok (src := rgba) (dst := List.replicate (n * 4) 0)
    (p := cx * cn) (n := (w - cx) * cn) (by omega) (by rw [List.length_replicate]; omega)
  rw [List.length_replicate] at ls
  have sB : ∀ s ∈ sb, s < B := by
    intro s hs
    rcases s2 s hs with h | h
    · exact hB s h
    · rw [(List.mem_replicate.1 h).2]; exact hB0
  have hpx : ∀ j, j < w - cx → rowPx sb cn j = extPx w cn rgba (cx + j) := by
    intro j hj
    rw [extPx_lt (by omega)]
    exact rowPx_copy (by omega) (by omega) s1 hj
  simp only [tailSrc, es, Outcome.bind_ok]
  by_cases hrep : rep = true ∧ (w - cx) % 2 = 1
  · obtain ⟨rfl, ho⟩ := hrep
    rw [if_pos (by simp; omega)]
    have hlst : (w - 1) * cn + cn = w * cn := by
      rw [show w = (w - 1) + 1 by omega, Nat.add_mul]; simp
    have hroom : (w - cx) * cn + cn ≤ n * 4 := by
      have := Nat.mul_le_mul_right cn (show w - cx + 1 ≤ n by omega)
      rw [Nat.add_mul] at this; omega
    have hsl : slice rgba ((w - 1) * cn) ((w - 1) * cn + cn)
        = .ok (rowPx rgba cn (w - 1)) := by
      unfold slice
      rw [if_pos (by omega), rowPx_eq]
      unfold chunk
      congr 2
      omega
    have hpl : (rowPx rgba cn (w - 1)).length = cn := rowPx_length hr (by omega)
    rw [hsl, Outcome.bind_ok, put_ok (by rw [hpl]; omega)]
    refine ⟨_, rfl, by rw [splice_length (by rw [hpl]; omega), ls], ?_, ?_⟩
    · intro s hs
      simp only [splice, List.mem_append] at hs
      rcases hs with (hs | hs) | hs
      · exact sB s (List.mem_of_mem_take hs)
      · exact bnd_rowPx hB s hs
      · exact sB s (List.mem_of_mem_drop hs)
    · intro j hj
      by_cases hlt : j < w - cx
      · rw [← hpx j hlt, rowPx_eq, rowPx_eq]
        have := succ_mul_le_of_lt cn hlt
        unfold chunk splice
        rw [List.append_assoc, List.drop_append_of_le_length (by rw [List.length_take]; omega),
          List.take_append_of_le_length (by rw [List.length_drop, List.length_take]; omega),
          List.drop_take, List.take_take, Nat.min_eq_left (by omega), rowPx_eq]
        rfl
      · have e : j = w - cx := by omega
        subst e
        have ee : extPx w cn rgba (cx + (w - cx)) = rowPx rgba cn (w - 1) := by
          unfold extPx; congr 1; omega
        rw [ee, rowPx_eq]
        unfold chunk splice
        have ht : (sb.take ((w - cx) * cn)).length = (w - cx) * cn := by
          rw [List.length_take]; omega
        rw [List.append_assoc, List.drop_append, List.drop_of_length_le (by omega), ht, Nat.sub_self,
          List.drop_zero, List.nil_append, List.take_append_of_le_length (by omega),
          List.take_of_length_le (by omega)]
  · rw [if_neg (by simp; intro h; by_contra h'; exact hrep ⟨h, by omega⟩)]
    refine ⟨sb, rfl, ls, sB, fun j hj => hpx j ?_⟩
    rcases hj with h | ⟨h, _, h'⟩
    · exact h
    · exact absurd ⟨h, h'⟩ hrep

/-- The source of the last pixels of a row. -/
theorem tailSrc_ok {n cn w : Nat} (hcn : cn ≤ 4) (hn : n % 2 = 0) (rep : Bool) {rgba : Buf}
    (hB : ∀ s ∈ rgba, s < 256) (hr : w * cn ≤ rgba.length) {cx : Nat} (h1 : cx < w)
    (h2 : w ≤ cx + n) :
    ∃ sb, tailSrc n rep cn w rgba cx = .ok sb ∧ sb.length = n * 4 ∧ (∀ s ∈ sb, s < 256) ∧
      ∀ j, (j < w - cx ∨ rep = true ∧ j = w - cx ∧ (w - cx) % 2 = 1) →
        rowPx sb cn j = extPx w cn rgba (cx + j) :=
  tailSrc_bnd (by decide) hcn hn rep hB hr h1 h2

end Verif.X86
