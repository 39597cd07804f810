import Verif.Model.X86Rgb
import Verif.Spec.VecDecode
import Mathlib.Tactic.Linarith
/-! # Lemmas about the x86 registers, stores and loops -/
namespace Verif.X86
open Spec

/-! ## Elements -/

theorem asI16_id {x : Int} (h1 : -32768 ≤ x) (h2 : x ≤ 32767) : asI16 x = x := by
  unfold asI16; omega

theorem asI16_asU16 (x : Int) : asI16 ((asU16 x : Nat) : Int) = asI16 x := by
  unfold asI16 asU16; omega

theorem asI16_asI16 (x : Int) : asI16 (asI16 x) = asI16 x := by
  unfold asI16; omega

theorem asU16_lt (x : Int) : asU16 x < 65536 := by unfold asU16; omega

theorem w16_mk16 (f : Nat → Int) (k : Nat) : w16 (mk16 f) k = asU16 (f k) := by
  have h := asU16_lt (f k)
  have e1 : (2 * k) % 2 = 0 := by omega
  have e2 : (2 * k + 1) % 2 ≠ 0 := by omega
  have e3 : (2 * k) / 2 = k := by omega
  have e4 : (2 * k + 1) / 2 = k := by omega
  simp only [w16, mk16, e1, e2, e3, e4, if_true, if_false]
  omega

theorem s16_mk16 (f : Nat → Int) (k : Nat) : s16 (mk16 f) k = asI16 (f k) := by
  rw [s16, w16_mk16, asI16_asU16]

theorem s16_add (a b : Reg) (k : Nat) : s16 (add16 a b) k = asI16 (s16 a k + s16 b k) := by
  rw [add16, s16_mk16]

theorem s16_sub (a b : Reg) (k : Nat) : s16 (sub16 a b) k = asI16 (s16 a k - s16 b k) := by
  rw [sub16, s16_mk16]

theorem s16_set1 (x : Int) (k : Nat) : s16 (set1_16 x) k = asI16 x := by
  rw [set1_16, s16_mk16]

theorem w16_unpacklo1 (a b : Reg) (k : Nat) :
    w16 (unpacklo 1 a b) k = a (k / 8 * 16 + k % 8) + 256 * b (k / 8 * 16 + k % 8) := by
  have e1 : 2 * k % 16 / 1 % 2 = 0 := by omega
  have e2 : (2 * k + 1) % 16 / 1 % 2 ≠ 0 := by omega
  have e3 : 2 * k / 16 * 16 + 2 * k % 16 / (2 * 1) * 1 + 2 * k % 1 = k / 8 * 16 + k % 8 := by omega
  have e4 : (2 * k + 1) / 16 * 16 + (2 * k + 1) % 16 / (2 * 1) * 1 + (2 * k + 1) % 1
      = k / 8 * 16 + k % 8 := by omega
  simp only [w16, unpacklo, e1, e2, e3, e4, if_true, if_false]

theorem w16_unpackhi1 (a b : Reg) (k : Nat) :
    w16 (unpackhi 1 a b) k = a (k / 8 * 16 + 8 + k % 8) + 256 * b (k / 8 * 16 + 8 + k % 8) := by
  have e1 : 2 * k % 16 / 1 % 2 = 0 := by omega
  have e2 : (2 * k + 1) % 16 / 1 % 2 ≠ 0 := by omega
  have e3 : 2 * k / 16 * 16 + 8 + 2 * k % 16 / (2 * 1) * 1 + 2 * k % 1
      = k / 8 * 16 + 8 + k % 8 := by omega
  have e4 : (2 * k + 1) / 16 * 16 + 8 + (2 * k + 1) % 16 / (2 * 1) * 1 + (2 * k + 1) % 1
      = k / 8 * 16 + 8 + k % 8 := by omega
  simp only [w16, unpackhi, e1, e2, e3, e4, if_true, if_false]

theorem w16_unpacklo2 (a b : Reg) (k : Nat) :
    w16 (unpacklo 2 a b) k = w16 (if k % 2 = 0 then a else b) (k / 8 * 8 + k % 8 / 2) := by
  have e1 : 2 * k % 16 / 2 % 2 = k % 2 := by omega
  have e2 : (2 * k + 1) % 16 / 2 % 2 = k % 2 := by omega
  have e3 : 2 * k / 16 * 16 + 2 * k % 16 / (2 * 2) * 2 + 2 * k % 2
      = 2 * (k / 8 * 8 + k % 8 / 2) := by omega
  have e4 : (2 * k + 1) / 16 * 16 + (2 * k + 1) % 16 / (2 * 2) * 2 + (2 * k + 1) % 2
      = 2 * (k / 8 * 8 + k % 8 / 2) + 1 := by omega
  simp only [w16, unpacklo, e1, e2, e3, e4]

theorem w16_unpackhi2 (a b : Reg) (k : Nat) :
    w16 (unpackhi 2 a b) k = w16 (if k % 2 = 0 then a else b) (k / 8 * 8 + 4 + k % 8 / 2) := by
  have e1 : 2 * k % 16 / 2 % 2 = k % 2 := by omega
  have e2 : (2 * k + 1) % 16 / 2 % 2 = k % 2 := by omega
  have e3 : 2 * k / 16 * 16 + 8 + 2 * k % 16 / (2 * 2) * 2 + 2 * k % 2
      = 2 * (k / 8 * 8 + 4 + k % 8 / 2) := by omega
  have e4 : (2 * k + 1) / 16 * 16 + 8 + (2 * k + 1) % 16 / (2 * 2) * 2 + (2 * k + 1) % 2
      = 2 * (k / 8 * 8 + 4 + k % 8 / 2) + 1 := by omega
  simp only [w16, unpackhi, e1, e2, e3, e4]

theorem s16_dupLo (a : Reg) (k : Nat) :
    s16 (unpacklo 2 a a) k = s16 a (k / 8 * 8 + k % 8 / 2) := by
  rw [s16, w16_unpacklo2, s16]; split <;> rfl

theorem s16_dupHi (a : Reg) (k : Nat) :
    s16 (unpackhi 2 a a) k = s16 a (k / 8 * 8 + 4 + k % 8 / 2) := by
  rw [s16, w16_unpackhi2, s16]; split <;> rfl

theorem s16_srli6 {a : Reg} {k x : Nat} (hx : x < 256) (h : w16 a k = x + 256 * x) :
    s16 (srli16 6 a) k = expand10 x := by
  rw [srli16, s16_mk16, h]
  unfold expand10
  rw [asI16_id] <;> omega

/-- Packing the two halves of every lane restores the byte order. -/
theorem packus_halves {lo hi : Reg} {F : Nat → Int}
    (hlo : ∀ k, s16 lo k = F (k / 8 * 16 + k % 8))
    (hhi : ∀ k, s16 hi k = F (k / 8 * 16 + 8 + k % 8)) (i : Nat) :
    packus16 lo hi i = satU8 (F i) := by
  unfold packus16
  by_cases h : i % 16 < 8
  · rw [if_pos h, hlo]
    congr 2; omega
  · rw [if_neg h, hhi]
    congr 2; omega

theorem packus_low {lo hi : Reg} {i : Nat} (h : i < 8) :
    packus16 lo hi i = satU8 (s16 lo i) := by
  unfold packus16
  rw [if_pos (by omega)]
  congr 2; omega

/-! ## The rounding multiply -/

theorem mul_bounds {a t : Int} {A T : Int} (ha : -A ≤ a ∧ a ≤ A) (ht : -T ≤ t ∧ t ≤ T) :
    -(A * T) ≤ a * t ∧ a * t ≤ A * T := by
  constructor <;> nlinarith [ha.1, ha.2, ht.1, ht.2]

theorem mulRound_bounds {a t : Int} (ha : -1023 ≤ a ∧ a ≤ 1023) (ht : -32767 ≤ t ∧ t ≤ 32767) :
    -1024 ≤ mulRound a t ∧ mulRound a t ≤ 1024 := by
  have h := mul_bounds ha ht
  unfold mulRound
  generalize a * t = p at h
  omega

theorem s16_mulhrs {a : Reg} {t : Int} {k : Nat} (ha : -1023 ≤ s16 a k ∧ s16 a k ≤ 1023)
    (ht : -32767 ≤ t ∧ t ≤ 32767) :
    s16 (mulhrs16 a (set1_16 (asI16 t))) k = mulRound (s16 a k) t := by
  have hb := mulRound_bounds ha ht
  rw [mulhrs16, s16_mk16, s16_set1, asI16_asI16, asI16_id (x := t) (by omega) (by omega)]
  have e : (s16 a k * t / 16384 + 1) / 2 = mulRound (s16 a k) t := by
    unfold mulRound; generalize s16 a k * t = p; omega
  rw [e, asI16_id (by omega) (by omega)]

/-! ## Memory -/

theorem bind_assoc' {α β γ : Type} (o : Outcome α) (f : α → Outcome β) (g : β → Outcome γ) :
    ((o >>= f) >>= g) = o >>= fun a => f a >>= g := by
  cases o <;> rfl

theorem splice_length {l : Buf} {p : Nat} {b : Buf} (h : p + b.length ≤ l.length) :
    (splice l p b).length = l.length := by
  simp only [splice, List.length_append, List.length_take, List.length_drop]; omega

theorem put_ok {l : Buf} {p : Nat} {b : Buf} (h : p + b.length ≤ l.length) :
    put l p b = .ok (splice l p b) := by
  rw [put, if_pos h]

/-- Two stores, the second directly after the first, are one store. -/
theorem put_put (l : Buf) (p q : Nat) (a b : Buf) (hq : q = p + a.length) :
    (put l p a >>= fun l => put l q b) = put l p (a ++ b) := by
  subst hq
  by_cases h : p + a.length ≤ l.length
  · rw [put_ok h, Outcome.bind_ok]
    by_cases h2 : p + a.length + b.length ≤ l.length
    · rw [put_ok (by rw [splice_length h]; exact h2),
        put_ok (by rw [List.length_append]; omega)]
      congr 1
      simp only [splice, List.append_assoc, List.length_append]
      have hp : (l.take p).length = p := by rw [List.length_take]; omega
      have e1 : (l.take p ++ (a ++ l.drop (p + a.length))).take (p + a.length) = l.take p ++ a := by
        rw [← List.append_assoc, List.take_append_of_le_length (by simp; omega), List.take_of_length_le (by simp)]
      have e2 : (l.take p ++ (a ++ l.drop (p + a.length))).drop (p + a.length + b.length)
          = l.drop (p + (a.length + b.length)) := by
        rw [← List.append_assoc, List.drop_append, List.drop_of_length_le (by simp; omega), List.nil_append,
          List.drop_drop]
        congr 1; simp; omega
      rw [e1, e2, List.append_assoc]
    · rw [put, if_neg (by rw [splice_length h]; exact h2), put,
        if_neg (by rw [List.length_append]; omega)]
  · rw [put, if_neg h, Outcome.bind_panic, put, if_neg (by rw [List.length_append]; omega)]

theorem bytes_length (n : Nat) (r : Reg) : (bytes n r).length = n := by simp [bytes]

theorem load_ok {n : Nat} {l : Buf} {p : Nat} (h : p + n ≤ l.length) :
    load n l p = .ok (fun i => if i < n then l.getD (p + i) 0 else 0) := by
  rw [load, if_pos h]

/-- The pixels of a vector step, in memory order. -/
def pixels (ch : Channels) (n : Nat) (r g b a : Reg) : Buf :=
  (List.range n).flatMap fun j => layout ch (r j) (g j) (b j) (a j)

theorem layout_length' (ch : Channels) (r g b a : Nat) : (layout ch r g b a).length = ch.count := by
  cases ch <;> rfl

theorem flatMap_length {n cn : Nat} {f : Nat → Buf} (h : ∀ j, j < n → (f j).length = cn) :
    ((List.range n).flatMap f).length = n * cn := by
  induction n with
  | zero => simp
  | succ n ih =>
    rw [List.range_succ, List.flatMap_append, List.length_append, ih (fun j hj => h j (by omega))]
    simp [h n (by omega), Nat.succ_mul]

theorem pixels_length (ch : Channels) (n : Nat) (r g b a : Reg) :
    (pixels ch n r g b a).length = n * ch.count :=
  flatMap_length fun _ _ => layout_length' ..

theorem sseRgb_bytes (r g b : Reg) :
    bytes 16 (sseInterleaveRgb r g b).1 ++ bytes 16 (sseInterleaveRgb r g b).2.1
      ++ bytes 16 (sseInterleaveRgb r g b).2.2
    = (List.range 16).flatMap fun j => [r j, g j, b j] := by
  rfl

theorem sseRgba_bytes (r g b a : Reg) :
    bytes 16 (sseInterleaveRgba r g b a).1 ++ bytes 16 (sseInterleaveRgba r g b a).2.1
      ++ bytes 16 (sseInterleaveRgba r g b a).2.2.1 ++ bytes 16 (sseInterleaveRgba r g b a).2.2.2
    = (List.range 16).flatMap fun j => [r j, g j, b j, a j] := by
  rfl

theorem sseRgb_bytes_half (r g b : Reg) :
    bytes 16 (sseInterleaveRgb r g b).1 ++ bytes 8 (sseInterleaveRgb r g b).2.1
    = (List.range 8).flatMap fun j => [r j, g j, b j] := by
  rfl

theorem sseRgba_bytes_half (r g b a : Reg) :
    bytes 16 (sseInterleaveRgba r g b a).1 ++ bytes 16 (sseInterleaveRgba r g b a).2.1
    = (List.range 8).flatMap fun j => [r j, g j, b j, a j] := by
  rfl

theorem avx2Rgb_bytes (r g b : Reg) :
    bytes 32 (avx2InterleaveRgb r g b).1 ++ bytes 32 (avx2InterleaveRgb r g b).2.1
      ++ bytes 32 (avx2InterleaveRgb r g b).2.2
    = (List.range 32).flatMap fun j => [r j, g j, b j] := by
  rfl

theorem avx2Rgba_bytes (r g b a : Reg) :
    bytes 32 (avx2InterleaveRgba r g b a).1 ++ bytes 32 (avx2InterleaveRgba r g b a).2.1
      ++ bytes 32 (avx2InterleaveRgba r g b a).2.2.1 ++ bytes 32 (avx2InterleaveRgba r g b a).2.2.2
    = (List.range 32).flatMap fun j => [r j, g j, b j, a j] := by
  rfl

theorem avx2Rgb_bytes_half (r g b : Reg) :
    bytes 32 (avx2InterleaveRgb r g b).1 ++ bytes 16 (avx2InterleaveRgb r g b).2.1
    = (List.range 16).flatMap fun j => [r j, g j, b j] := by
  rfl

theorem avx2Rgba_bytes_half (r g b a : Reg) :
    bytes 32 (avx2InterleaveRgba r g b a).1 ++ bytes 32 (avx2InterleaveRgba r g b a).2.1
    = (List.range 16).flatMap fun j => [r j, g j, b j, a j] := by
  rfl

/-- The interleaving store writes the 16 pixels in memory order. -/
theorem sseStore_eq (ch : Channels) (p : Nat) (r g b a : Reg) (row : Buf) :
    sseStore ch p r g b a row = put row p (pixels ch 16 r g b a) := by
  have h3 : ∀ r g b : Reg, sseStoreRgb p r g b row
      = put row p ((List.range 16).flatMap fun j => [r j, g j, b j]) := by
    intro r g b
    rw [← sseRgb_bytes, ← put_put _ _ (p + 32) _ _ (by simp [bytes_length])]
    rw [← put_put _ _ (p + 16) _ _ (by simp [bytes_length]), bind_assoc']
    rfl
  have h4 : ∀ r g b a : Reg, sseStoreRgba p r g b a row
      = put row p ((List.range 16).flatMap fun j => [r j, g j, b j, a j]) := by
    intro r g b a
    rw [← sseRgba_bytes, ← put_put _ _ (p + 48) _ _ (by simp [bytes_length]),
      ← put_put _ _ (p + 32) _ _ (by simp [bytes_length]),
      ← put_put _ _ (p + 16) _ _ (by simp [bytes_length]), bind_assoc', bind_assoc']
    rfl
  cases ch
  · exact h3 ..
  · exact h4 ..
  · exact h4 ..
  · exact h3 ..

/-- The half store writes eight pixels. -/
theorem sseStoreHalf_eq (ch : Channels) (p : Nat) (r g b a : Reg) (row : Buf) :
    sseStoreHalf ch p r g b a row = put row p (pixels ch 8 r g b a) := by
  have h3 : ∀ r g b : Reg, (store 16 (sseInterleaveRgb r g b).1 p row >>= fun row =>
      store 8 (sseInterleaveRgb r g b).2.1 (p + 16) row)
      = put row p ((List.range 8).flatMap fun j => [r j, g j, b j]) := by
    intro r g b
    rw [← sseRgb_bytes_half, ← put_put _ _ (p + 16) _ _ (by simp [bytes_length])]
    rfl
  have h4 : ∀ r g b a : Reg, (store 16 (sseInterleaveRgba r g b a).1 p row >>= fun row =>
      store 16 (sseInterleaveRgba r g b a).2.1 (p + 16) row)
      = put row p ((List.range 8).flatMap fun j => [r j, g j, b j, a j]) := by
    intro r g b a
    rw [← sseRgba_bytes_half, ← put_put _ _ (p + 16) _ _ (by simp [bytes_length])]
    rfl
  cases ch
  · exact h3 ..
  · exact h4 ..
  · exact h4 ..
  · exact h3 ..

/-- The 256-bit interleaving store writes the 32 pixels in memory order. -/
theorem avx2Store_eq (ch : Channels) (p : Nat) (r g b a : Reg) (row : Buf) :
    avx2Store ch p r g b a row = put row p (pixels ch 32 r g b a) := by
  have h3 : ∀ r g b : Reg, avx2StoreRgb p r g b row
      = put row p ((List.range 32).flatMap fun j => [r j, g j, b j]) := by
    intro r g b
    rw [← avx2Rgb_bytes, ← put_put _ _ (p + 64) _ _ (by simp [bytes_length])]
    rw [← put_put _ _ (p + 32) _ _ (by simp [bytes_length]), bind_assoc']
    rfl
  have h4 : ∀ r g b a : Reg, avx2StoreRgba p r g b a row
      = put row p ((List.range 32).flatMap fun j => [r j, g j, b j, a j]) := by
    intro r g b a
    rw [← avx2Rgba_bytes, ← put_put _ _ (p + 96) _ _ (by simp [bytes_length]),
      ← put_put _ _ (p + 64) _ _ (by simp [bytes_length]),
      ← put_put _ _ (p + 32) _ _ (by simp [bytes_length]), bind_assoc', bind_assoc']
    rfl
  cases ch
  · exact h3 ..
  · exact h4 ..
  · exact h4 ..
  · exact h3 ..

/-- The 256-bit half store writes 16 pixels. -/
theorem avx2StoreHalf_eq (ch : Channels) (p : Nat) (r g b a : Reg) (row : Buf) :
    avx2StoreHalf ch p r g b a row = put row p (pixels ch 16 r g b a) := by
  have h3 : ∀ r g b : Reg, (store 32 (avx2InterleaveRgb r g b).1 p row >>= fun row =>
      store 16 (avx2InterleaveRgb r g b).2.1 (p + 32) row)
      = put row p ((List.range 16).flatMap fun j => [r j, g j, b j]) := by
    intro r g b
    rw [← avx2Rgb_bytes_half, ← put_put _ _ (p + 32) _ _ (by simp [bytes_length])]
    rfl
  have h4 : ∀ r g b a : Reg, (store 32 (avx2InterleaveRgba r g b a).1 p row >>= fun row =>
      store 32 (avx2InterleaveRgba r g b a).2.1 (p + 32) row)
      = put row p ((List.range 16).flatMap fun j => [r j, g j, b j, a j]) := by
    intro r g b a
    rw [← avx2Rgba_bytes_half, ← put_put _ _ (p + 32) _ _ (by simp [bytes_length])]
    rfl
  cases ch
  · exact h3 ..
  · exact h4 ..
  · exact h4 ..
  · exact h3 ..

/-! ## Loops -/

theorem whileGo_ok {σ : Type} {step ustep width : Nat} (hs : 0 < step)
    {body : Nat → Nat → σ → Outcome σ} {P : Nat → Nat → σ → Prop}
    (hbody : ∀ cx ux s, P cx ux s → cx + step < width →
      ∃ s', body cx ux s = .ok s' ∧ P (cx + step) (ux + ustep) s') :
    ∀ fuel cx ux s, width - cx ≤ fuel → P cx ux s →
      ∃ s' cx' ux', whileGo step ustep width body fuel cx ux s = .ok (s', cx', ux') ∧
        P cx' ux' s' ∧ width ≤ cx' + step := by
  intro fuel
  induction fuel with
  | zero =>
    intro cx ux s hf h
    exact ⟨s, cx, ux, rfl, h, by omega⟩
  | succ fuel ih =>
    intro cx ux s hf h
    rw [whileGo]
    by_cases hc : cx + step < width
    · obtain ⟨s', hb, hp⟩ := hbody cx ux s h hc
      rw [if_pos hc, hb, Outcome.bind_ok]
      exact ih _ _ _ (by omega) hp
    · rw [if_neg hc]
      exact ⟨s, cx, ux, rfl, h, by omega⟩

/-- A vector loop keeps its invariant and stops within one step of the width. -/
theorem vwhile_ok {σ : Type} {step ustep width : Nat} (hs : 0 < step)
    {body : Nat → Nat → σ → Outcome σ} {P : Nat → Nat → σ → Prop}
    (hbody : ∀ cx ux s, P cx ux s → cx + step < width →
      ∃ s', body cx ux s = .ok s' ∧ P (cx + step) (ux + ustep) s') {cx ux : Nat} {s : σ}
    (h : P cx ux s) :
    ∃ s' cx' ux', vwhile step ustep width body cx ux s = .ok (s', cx', ux') ∧
      P cx' ux' s' ∧ width ≤ cx' + step :=
  whileGo_ok hs hbody _ _ _ _ (by omega) h

/-! ## Painted rows -/

/-- `row` with its first `cx` pixels replaced by `pix 0`, `pix 1`, … -/
def painted (cn : Nat) (pix : Nat → Buf) (cx : Nat) (row : Buf) : Buf :=
  (List.range cx).flatMap pix ++ row.drop (cx * cn)

theorem painted_zero (cn : Nat) (pix : Nat → Buf) (row : Buf) : painted cn pix 0 row = row := by
  simp [painted]

theorem painted_length {cn : Nat} {pix : Nat → Buf} (hp : ∀ j, (pix j).length = cn) {cx : Nat}
    {row : Buf} (h : cx * cn ≤ row.length) : (painted cn pix cx row).length = row.length := by
  simp only [painted, List.length_append, List.length_drop, flatMap_length fun j _ => hp j]; omega

theorem range_add_flatMap (a n : Nat) (f : Nat → Buf) :
    (List.range (a + n)).flatMap f
      = (List.range a).flatMap f ++ (List.range n).flatMap fun j => f (a + j) := by
  rw [List.range_add, List.flatMap_append, List.flatMap_map]

/-- Storing the next `n` pixels. -/
theorem painted_put {cn : Nat} {pix : Nat → Buf} (hp : ∀ j, (pix j).length = cn) {cx n : Nat}
    {row : Buf} (h : (cx + n) * cn ≤ row.length) :
    put (painted cn pix cx row) (cx * cn) ((List.range n).flatMap fun j => pix (cx + j))
      = .ok (painted cn pix (cx + n) row) := by
  have e : (cx + n) * cn = cx * cn + n * cn := Nat.add_mul ..
  have h1 : ((List.range cx).flatMap pix).length = cx * cn := flatMap_length fun j _ => hp j
  have h2 : ((List.range n).flatMap fun j => pix (cx + j)).length = n * cn :=
    flatMap_length fun j _ => hp _
  rw [put_ok (by rw [painted_length hp (by omega), h2]; omega)]
  congr 1
  simp only [splice, painted, range_add_flatMap, h2]
  rw [List.take_append_of_le_length (by omega), List.take_of_length_le (by omega),
    List.drop_append, List.drop_of_length_le (by omega), List.nil_append, List.drop_drop, h1,
    List.append_assoc, List.append_assoc]
  congr 3
  omega

theorem range_flatMap_congr {p q : Nat → Buf} {n : Nat} (h : ∀ x, x < n → p x = q x) :
    (List.range n).flatMap p = (List.range n).flatMap q := by
  induction n with
  | zero => rfl
  | succ n ih =>
    rw [List.range_succ, List.flatMap_append, List.flatMap_append, ih fun x hx => h x (by omega)]
    simp [h n (by omega)]

theorem painted_congr {cn : Nat} {p q : Nat → Buf} {cx : Nat} {row : Buf}
    (h : ∀ x, x < cx → p x = q x) : painted cn p cx row = painted cn q cx row := by
  unfold painted
  congr 1
  exact range_flatMap_congr h

theorem painted_pixel {cn : Nat} {pix : Nat → Buf} (hp : ∀ j, (pix j).length = cn) {cx : Nat}
    {row : Buf} {x : Nat} (hx : x < cx) :
    pixelAt (painted cn pix cx row) 0 cn x 0 = pix x := by
  obtain ⟨n, rfl⟩ : ∃ n, cx = x + (1 + n) := ⟨cx - x - 1, by omega⟩
  have h1 : ((List.range x).flatMap pix).length = x * cn := flatMap_length fun j _ => hp j
  simp only [pixelAt, painted, range_add_flatMap, Nat.zero_mul, Nat.zero_add]
  rw [List.append_assoc, List.drop_append, List.drop_of_length_le (by omega), h1, Nat.sub_self]
  simp only [List.range_one, List.flatMap_cons, List.flatMap_nil, List.append_nil, List.drop_zero,
    List.nil_append, Nat.add_zero, List.append_assoc]
  rw [List.take_append_of_le_length (by rw [hp]), List.take_of_length_le (by rw [hp])]

/-- What a painted row is, in terms of the row specification. -/
theorem painted_done {cn w m : Nat} (hcn : 0 < cn) {pix : Nat → Buf} (hp : ∀ j, (pix j).length = cn)
    {R : Nat → Buf → Prop} {cx : Nat} {row : Buf} (hw : w * cn ≤ row.length) (hcx : cx ≤ w)
    (hm : cx % m = 0 ∨ cx = w) (hR : ∀ x, x < cx → R x (pix x)) :
    RowDone cn w m R row (painted cn pix cx row) cx := by
  have hle : cx * cn ≤ w * cn := Nat.mul_le_mul_right _ hcx
  refine ⟨hcx, hm, painted_length hp (by omega), ?_, ?_⟩
  · intro x y hx hy
    obtain rfl : y = 0 := by omega
    rw [painted_pixel hp hx]
    exact hR x hx
  · intro i hi
    have h1 : ((List.range cx).flatMap pix).length = cx * cn := flatMap_length fun j _ => hp j
    have hge : cx * cn ≤ i := by
      by_contra hlt
      apply hi
      refine ⟨i / cn, 0, i % cn, ?_, by omega, Nat.mod_lt _ hcn, ?_⟩
      · exact Nat.div_lt_of_lt_mul (by rw [Nat.mul_comm]; omega)
      · rw [Nat.zero_mul, Nat.zero_add, Nat.mul_comm]; exact (Nat.div_add_mod i cn).symm
    rw [painted, List.getElem?_append_right (by omega), List.getElem?_drop, h1]
    congr 1; omega

end Verif.X86
