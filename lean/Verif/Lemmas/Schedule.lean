import Verif.Spec.Schedule
import Verif.Lemmas.Frames
/-! # Interleavings of writes to disjoint slices -/
namespace Verif
open Spec

/-- Keep an element, replacing its value by the last of `vs`. -/
def lastOf (a : Option Nat) (vs : List Nat) : Option Nat :=
  vs.foldl (fun a v => a.map (fun _ => v)) a

theorem applyWrites_length (ws : List Write) : ∀ l : Buf, (applyWrites l ws).length = l.length := by
  induction ws with
  | nil => intro l; rfl
  | cons w ws ih =>
    intro l
    show (applyWrites (l.set w.1 w.2) ws).length = _
    rw [ih]; simp

theorem applyWrites_getElem? (ws : List Write) (i : Nat) : ∀ l : Buf,
    (applyWrites l ws)[i]? = lastOf l[i]? ((ws.filter (fun w => w.1 = i)).map (·.2)) := by
  induction ws with
  | nil => intro l; rfl
  | cons w ws ih =>
    intro l
    show (applyWrites (l.set w.1 w.2) ws)[i]? = _
    rw [ih]
    by_cases h : w.1 = i
    · subst h
      rw [List.filter_cons, if_pos (by simp)]
      simp only [List.map_cons, lastOf, List.foldl_cons]
      congr 1
      by_cases hl : w.1 < l.length
      · simp [List.getElem?_set, hl]
      · simp [List.getElem?_set, hl, List.getElem?_eq_none (Nat.le_of_not_lt hl)]
    · rw [List.filter_cons, if_neg (by simpa using h)]
      congr 1
      simp [List.getElem?_set, h]

/-- Any interleaving of tasks that own disjoint slices has the result of the tasks one by one. -/
theorem interleaving_result {n k : Nat} (hn : 0 < n) {l out : Buf} {W : Nat → List Write}
    (hloc : ∀ r, r < k → ∀ w ∈ W r, w.1 < n)
    (hW : ∀ r, r < k → applyWrites (chunk n l r) (W r) = chunk n out r)
    (hrest : ∀ i, k * n ≤ i → out[i]? = l[i]?)
    {sched : List (Nat × Write)} (hs : Interleaving k W sched) :
    applyWrites l (globalWrites n sched) = out := by
  have hmem : ∀ e ∈ sched, e.2.1 < n := by
    intro e he
    have h1 := hs.1 e he
    apply hloc e.1 h1
    rw [← hs.2 e.1 h1]
    exact List.mem_map.2 ⟨e, List.mem_filter.2 ⟨he, by simp⟩, rfl⟩
  apply List.ext_getElem?
  intro i
  rw [applyWrites_getElem?]
  have hmod : i % n < n := Nat.mod_lt _ hn
  have hsplit := div_mod_split i n
  have hfil : (globalWrites n sched).filter (fun w => w.1 = i) =
      ((sched.filter (fun e => e.1 = i / n)).filter (fun e => e.2.1 = i % n)).map
        (fun e => (e.1 * n + e.2.1, e.2.2)) := by
    unfold globalWrites
    rw [List.filter_map, List.filter_filter]
    congr 1
    apply List.filter_congr
    intro e he
    have := hmem e he
    simp only [Function.comp]
    rw [← Bool.decide_and]
    apply decide_eq_decide.2
    constructor
    · intro h
      have a : i / n = e.1 := by rw [← h]; exact div_add_of_lt this
      have b : i % n = e.2.1 := by rw [← h]; exact mod_add_of_lt this
      exact ⟨b.symm, a.symm⟩
    · rintro ⟨b, a⟩; rw [a, b]; exact hsplit.symm
  by_cases hi : i < k * n
  · have hr : i / n < k := div_lt_of_lt_mul' hi
    have hval : ((globalWrites n sched).filter (fun w => w.1 = i)).map (·.2) =
        ((W (i / n)).filter (fun w => w.1 = i % n)).map (·.2) := by
      rw [hfil, ← hs.2 _ hr, List.filter_map, List.map_map, List.map_map]
      rfl
    rw [hval]
    have e := applyWrites_getElem? (W (i / n)) (i % n) (chunk n l (i / n))
    rw [hW _ hr, chunk_getElem?, if_pos hmod, chunk_getElem?, if_pos hmod, ← hsplit] at e
    exact e.symm
  · rw [hrest i (by omega)]
    have : (globalWrites n sched).filter (fun w => w.1 = i) = [] := by
      rw [hfil]
      have h0 : sched.filter (fun e => decide (e.1 = i / n)) = [] := by
        apply List.filter_eq_nil_iff.2
        intro e he
        have h1 := hs.1 e he
        have h2 : k ≤ i / n := le_div_of_mul_le' hn (by omega)
        simp only [decide_eq_true_eq]; omega
      rw [h0]; rfl
    rw [this]; rfl

end Verif
