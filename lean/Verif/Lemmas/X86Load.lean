import Verif.Model.X86Load
import Verif.Lemmas.X86Rows
import Verif.Lemmas.EncodeRows
import Mathlib.Tactic.IntervalCases
import Mathlib.Tactic.Ring
/-! # The deinterleaving loads -/
namespace Verif.X86
open Spec

/-- Registers of `n` bytes laid end to end. -/
def cat (n : Nat) : List Reg → Reg
  | [], _ => 0
  | r :: l, i => if i < n then r i else cat n l (i - n)

theorem avx2DeRgb_at (a b c : Reg) {i : Nat} (h : i < 32) :
    (avx2DeRgb a b c).1 i = cat 32 [a, b, c] (3 * i) ∧
    (avx2DeRgb a b c).2.1 i = cat 32 [a, b, c] (3 * i + 1) ∧
    (avx2DeRgb a b c).2.2 i = cat 32 [a, b, c] (3 * i + 2) := by
  interval_cases i <;> exact ⟨rfl, rfl, rfl⟩

theorem avx2DeRgba_at (a b c d : Reg) {i : Nat} (h : i < 32) :
    (avx2DeRgba a b c d).1 i = cat 32 [a, b, c, d] (4 * i) ∧
    (avx2DeRgba a b c d).2.1 i = cat 32 [a, b, c, d] (4 * i + 1) ∧
    (avx2DeRgba a b c d).2.2.1 i = cat 32 [a, b, c, d] (4 * i + 2) := by
  interval_cases i <;> exact ⟨rfl, rfl, rfl⟩

theorem sseDeRgb_at (a b c : Reg) {i : Nat} (h : i < 16) :
    (sseDeRgb a b c).1 i = cat 16 [a, b, c] (3 * i) ∧
    (sseDeRgb a b c).2.1 i = cat 16 [a, b, c] (3 * i + 1) ∧
    (sseDeRgb a b c).2.2 i = cat 16 [a, b, c] (3 * i + 2) := by
  interval_cases i <;> exact ⟨rfl, rfl, rfl⟩

theorem sseDeRgba_at (a b c d : Reg) {i : Nat} (h : i < 16) :
    (sseDeRgba a b c d).1 i = cat 16 [a, b, c, d] (4 * i) ∧
    (sseDeRgba a b c d).2.1 i = cat 16 [a, b, c, d] (4 * i + 1) ∧
    (sseDeRgba a b c d).2.2.1 i = cat 16 [a, b, c, d] (4 * i + 2) := by
  interval_cases i <;> exact ⟨rfl, rfl, rfl⟩

/-- What a load of `n` bytes returns. -/
def ld (n : Nat) (l : Buf) (p : Nat) : Reg := fun i => if i < n then l.getD (p + i) 0 else 0

theorem load_ld {n : Nat} {l : Buf} {p : Nat} (h : p + n ≤ l.length) : load n l p = .ok (ld n l p) :=
  load_ok h

theorem ld_at {n : Nat} {l : Buf} {p i : Nat} (h : i < n) : ld n l p i = l.getD (p + i) 0 := if_pos h

theorem cat_cons {n : Nat} {l : Buf} {p k i : Nat} {r : List Reg} (hk : k ≤ n) (hi : i < n → i < k)
    (h : n ≤ i → cat n r (i - n) = l.getD (p + n + (i - n)) 0) :
    cat n (ld k l p :: r) i = l.getD (p + i) 0 := by
  by_cases c : i < n
  · rw [cat, if_pos c, ld_at (hi c)]
  · rw [cat, if_neg c, h (by omega)]
    congr 1; omega

theorem rowPx_getD {l : Buf} {cn x k : Nat} (hk : k < cn) :
    (rowPx l cn x).getD k 0 = l.getD (x * cn + k) 0 := by
  simp only [rowPx, pixelAt, List.getD_eq_getElem?_getD, List.getElem?_take, hk, if_true,
    List.getElem?_drop]
  congr 2; omega

/-- The registers hold the components of the `n` pixels from `x0` on. -/
def PixAt (ch : Channels) (c : Reg × Reg × Reg) (n : Nat) (l : Buf) (x0 : Nat) : Prop :=
  ∀ i, i < n → c.1 i = red ch (rowPx l ch.count (x0 + i)) ∧
    c.2.1 i = green ch (rowPx l ch.count (x0 + i)) ∧ c.2.2 i = blue ch (rowPx l ch.count (x0 + i))

theorem pixAt_of_bytes {ch : Channels} {c : Reg × Reg × Reg} {n : Nat} {l : Buf} {x0 : Nat}
    {b : Reg} (hb : ∀ i, i < n * ch.count → b i = l.getD (x0 * ch.count + i) 0)
    (h : ∀ i, i < n → c.2.1 i = b (ch.count * i + 1) ∧
      match ch with
      | .rgb | .rgba => c.1 i = b (ch.count * i) ∧ c.2.2 i = b (ch.count * i + 2)
      | .bgr | .bgra => c.2.2 i = b (ch.count * i) ∧ c.1 i = b (ch.count * i + 2)) :
    PixAt ch c n l x0 := by
  intro i hi
  have hc : 3 ≤ ch.count := by cases ch <;> decide
  have hle : (i + 1) * ch.count ≤ n * ch.count := Nat.mul_le_mul_right _ hi
  have e1 : (i + 1) * ch.count = ch.count * i + ch.count := by ring
  have e2 : (x0 + i) * ch.count = x0 * ch.count + ch.count * i := by ring
  have key : ∀ k, k < ch.count →
      b (ch.count * i + k) = (rowPx l ch.count (x0 + i)).getD k 0 := by
    intro k hk
    rw [rowPx_getD hk, hb _ (by omega), e2, Nat.add_assoc]
  obtain ⟨h1, h2⟩ := h i hi
  have k0 := key 0 (by omega)
  have k1 := key 1 (by omega)
  have k2 := key 2 (by omega)
  rw [Nat.add_zero] at k0
  cases ch
  all_goals
    simp only [red, green, blue]
    rw [h1, h2.1, h2.2, k0, k1, k2]
    exact ⟨rfl, rfl, rfl⟩

theorem cat3 {n : Nat} {l : Buf} {p i : Nat} (h : i < 3 * n) :
    cat n [ld n l p, ld n l (p + n), ld n l (p + 2 * n)] i = l.getD (p + i) 0 := by
  apply cat_cons (Nat.le_refl n) (fun h => h)
  intro h1
  apply cat_cons (Nat.le_refl n) (fun h => h)
  intro h2
  have e : p + n + n = p + 2 * n := by omega
  rw [← e]
  apply cat_cons (Nat.le_refl n) (fun h => h)
  intro h3
  omega

theorem cat4 {n : Nat} {l : Buf} {p i : Nat} (h : i < 4 * n) :
    cat n [ld n l p, ld n l (p + n), ld n l (p + 2 * n), ld n l (p + 3 * n)] i
      = l.getD (p + i) 0 := by
  apply cat_cons (Nat.le_refl n) (fun h => h)
  intro h1
  have e : p + 2 * n = p + n + n := by omega
  have e' : p + 3 * n = p + n + 2 * n := by omega
  rw [e, e']
  exact cat3 (by omega)

theorem avx2Load_at (ch : Channels) {l : Buf} {x0 : Nat} (h : (x0 + 32) * ch.count ≤ l.length) :
    ∃ c, avx2Load ch l (x0 * ch.count) = .ok c ∧ PixAt ch c 32 l x0 := by
  have e : (x0 + 32) * ch.count = x0 * ch.count + 32 * ch.count := by ring
  rw [e] at h
  unfold avx2Load
  cases ch
  all_goals
    simp only [Channels.count] at h ⊢
    rw [load_ld (by omega), Outcome.bind_ok, load_ld (by omega), Outcome.bind_ok,
      load_ld (by omega), Outcome.bind_ok]
  · refine ⟨_, rfl, pixAt_of_bytes (fun i hi => cat3 (n := 32) hi) fun i hi => ?_⟩
    have := avx2DeRgb_at (ld 32 l (x0 * 3)) (ld 32 l (x0 * 3 + 32)) (ld 32 l (x0 * 3 + 2 * 32)) hi
    exact ⟨this.2.1, this.1, this.2.2⟩
  · rw [load_ld (by omega), Outcome.bind_ok]
    refine ⟨_, rfl, pixAt_of_bytes (fun i hi => cat4 (n := 32) (by simpa [Channels.count, Nat.mul_comm] using hi)) fun i hi => ?_⟩
    have := avx2DeRgba_at (ld 32 l (x0 * 4)) (ld 32 l (x0 * 4 + 32)) (ld 32 l (x0 * 4 + 2 * 32))
      (ld 32 l (x0 * 4 + 3 * 32)) hi
    exact ⟨this.2.1, this.1, this.2.2⟩
  · rw [load_ld (by omega), Outcome.bind_ok]
    refine ⟨_, rfl, pixAt_of_bytes (fun i hi => cat4 (n := 32) (by simpa [Channels.count, Nat.mul_comm] using hi)) fun i hi => ?_⟩
    have := avx2DeRgba_at (ld 32 l (x0 * 4)) (ld 32 l (x0 * 4 + 32)) (ld 32 l (x0 * 4 + 2 * 32))
      (ld 32 l (x0 * 4 + 3 * 32)) hi
    exact ⟨this.2.1, this.1, this.2.2⟩
  · refine ⟨_, rfl, pixAt_of_bytes (fun i hi => cat3 (n := 32) hi) fun i hi => ?_⟩
    have := avx2DeRgb_at (ld 32 l (x0 * 3)) (ld 32 l (x0 * 3 + 32)) (ld 32 l (x0 * 3 + 2 * 32)) hi
    exact ⟨this.2.1, this.1, this.2.2⟩

theorem sseLoad_at (ch : Channels) {l : Buf} {x0 : Nat} (h : (x0 + 16) * ch.count ≤ l.length) :
    ∃ c, sseLoad ch l (x0 * ch.count) = .ok c ∧ PixAt ch c 16 l x0 := by
  have e : (x0 + 16) * ch.count = x0 * ch.count + 16 * ch.count := by ring
  rw [e] at h
  unfold sseLoad
  cases ch
  all_goals
    simp only [Channels.count] at h ⊢
    rw [load_ld (by omega), Outcome.bind_ok, load_ld (by omega), Outcome.bind_ok,
      load_ld (by omega), Outcome.bind_ok]
  · refine ⟨_, rfl, pixAt_of_bytes (fun i hi => cat3 (n := 16) hi) fun i hi => ?_⟩
    have := sseDeRgb_at (ld 16 l (x0 * 3)) (ld 16 l (x0 * 3 + 16)) (ld 16 l (x0 * 3 + 2 * 16)) hi
    exact ⟨this.2.1, this.1, this.2.2⟩
  · rw [load_ld (by omega), Outcome.bind_ok]
    refine ⟨_, rfl, pixAt_of_bytes (fun i hi => cat4 (n := 16) (by simpa [Channels.count, Nat.mul_comm] using hi)) fun i hi => ?_⟩
    have := sseDeRgba_at (ld 16 l (x0 * 4)) (ld 16 l (x0 * 4 + 16)) (ld 16 l (x0 * 4 + 2 * 16))
      (ld 16 l (x0 * 4 + 3 * 16)) hi
    exact ⟨this.2.1, this.1, this.2.2⟩
  · rw [load_ld (by omega), Outcome.bind_ok]
    refine ⟨_, rfl, pixAt_of_bytes (fun i hi => cat4 (n := 16) (by simpa [Channels.count, Nat.mul_comm] using hi)) fun i hi => ?_⟩
    have := sseDeRgba_at (ld 16 l (x0 * 4)) (ld 16 l (x0 * 4 + 16)) (ld 16 l (x0 * 4 + 2 * 16))
      (ld 16 l (x0 * 4 + 3 * 16)) hi
    exact ⟨this.2.1, this.1, this.2.2⟩
  · refine ⟨_, rfl, pixAt_of_bytes (fun i hi => cat3 (n := 16) hi) fun i hi => ?_⟩
    have := sseDeRgb_at (ld 16 l (x0 * 3)) (ld 16 l (x0 * 3 + 16)) (ld 16 l (x0 * 3 + 2 * 16)) hi
    exact ⟨this.2.1, this.1, this.2.2⟩

theorem catHalf3 {l : Buf} {p i : Nat} (h : i < 24) :
    cat 16 [ld 16 l p, ld 8 l (p + 16), zero] i = l.getD (p + i) 0 := by
  apply cat_cons (Nat.le_refl 16) (fun h => h)
  intro h1
  exact cat_cons (by decide) (fun _ => by omega) (fun _ => by omega)

theorem catHalf4 {l : Buf} {p i : Nat} (h : i < 32) :
    cat 16 [ld 16 l p, ld 16 l (p + 16), zero, zero] i = l.getD (p + i) 0 := by
  apply cat_cons (Nat.le_refl 16) (fun h => h)
  intro h1
  exact cat_cons (by decide) (fun _ => by omega) (fun _ => by omega)

theorem sseLoadHalf_at (ch : Channels) {l : Buf} {x0 : Nat} (h : (x0 + 8) * ch.count ≤ l.length) :
    ∃ c, sseLoadHalf ch l (x0 * ch.count) = .ok c ∧ PixAt ch c 8 l x0 := by
  have e : (x0 + 8) * ch.count = x0 * ch.count + 8 * ch.count := by ring
  rw [e] at h
  unfold sseLoadHalf
  cases ch
  all_goals
    simp only [Channels.count] at h ⊢
    rw [load_ld (by omega), Outcome.bind_ok, load_ld (by omega), Outcome.bind_ok]
  · refine ⟨_, rfl, pixAt_of_bytes (fun i hi => catHalf3 hi) fun i hi => ?_⟩
    have := sseDeRgb_at (ld 16 l (x0 * 3)) (ld 8 l (x0 * 3 + 16)) zero (i := i) (by omega)
    exact ⟨this.2.1, this.1, this.2.2⟩
  · refine ⟨_, rfl, pixAt_of_bytes (fun i hi => catHalf4 hi) fun i hi => ?_⟩
    have := sseDeRgba_at (ld 16 l (x0 * 4)) (ld 16 l (x0 * 4 + 16)) zero zero (i := i) (by omega)
    exact ⟨this.2.1, this.1, this.2.2⟩
  · refine ⟨_, rfl, pixAt_of_bytes (fun i hi => catHalf4 hi) fun i hi => ?_⟩
    have := sseDeRgba_at (ld 16 l (x0 * 4)) (ld 16 l (x0 * 4 + 16)) zero zero (i := i) (by omega)
    exact ⟨this.2.1, this.1, this.2.2⟩
  · refine ⟨_, rfl, pixAt_of_bytes (fun i hi => catHalf3 hi) fun i hi => ?_⟩
    have := sseDeRgb_at (ld 16 l (x0 * 3)) (ld 8 l (x0 * 3 + 16)) zero (i := i) (by omega)
    exact ⟨this.2.1, this.1, this.2.2⟩

end Verif.X86
