import Verif.Model.Wasm
import Verif.Spec.WasmDecode
import Verif.Lemmas.X86Rows
import Mathlib.Tactic.IntervalCases
/-! # What the WebAssembly kernels compute -/
namespace Verif.Wasm
open Spec X86

/-! ## Stores -/

theorem x3_bytes (a b c : Reg) (p : Nat) (row : Buf) :
    storeX3 p a b c row = put row p ((List.range 16).flatMap fun j => [a j, b j, c j]) := by
  have e : ((List.range 16).flatMap fun j => [a j, b j, c j]) =
      bytes 16 (shuffle [0, 1, 16, 3, 4, 17, 6, 7, 18, 9, 10, 19, 12, 13, 20, 15]
        (shuffle [0, 16, 0, 1, 17, 0, 2, 18, 0, 3, 19, 0, 4, 20, 0, 5] a b) c)
      ++ bytes 16 (shuffle [0, 21, 2, 3, 22, 5, 6, 23, 8, 9, 24, 11, 12, 25, 14, 15]
        (shuffle [21, 0, 6, 22, 0, 7, 23, 0, 8, 24, 0, 9, 25, 0, 10, 26] a b) c)
      ++ bytes 16 (shuffle [26, 1, 2, 27, 4, 5, 28, 7, 8, 29, 10, 11, 30, 13, 14, 31]
        (shuffle [0, 11, 27, 0, 12, 28, 0, 13, 29, 0, 14, 30, 0, 15, 31, 0] a b) c) := by
    rfl
  rw [e, ← put_put _ _ (p + 32) _ _ (by simp [bytes_length])]
  rw [← put_put _ _ (p + 16) _ _ (by simp [bytes_length]), bind_assoc']
  rfl

theorem x4_bytes (a b c d : Reg) (p : Nat) (row : Buf) :
    storeX4 p a b c d row = put row p ((List.range 16).flatMap fun j => [a j, b j, c j, d j]) := by
  have e : ((List.range 16).flatMap fun j => [a j, b j, c j, d j]) =
      bytes 16 (zipLo (zipLo a c) (zipLo b d)) ++ bytes 16 (zipHi (zipLo a c) (zipLo b d))
      ++ bytes 16 (zipLo (zipHi a c) (zipHi b d)) ++ bytes 16 (zipHi (zipHi a c) (zipHi b d)) := by
    rfl
  rw [e, ← put_put _ _ (p + 48) _ _ (by simp [bytes_length]),
    ← put_put _ _ (p + 32) _ _ (by simp [bytes_length]),
    ← put_put _ _ (p + 16) _ _ (by simp [bytes_length]), bind_assoc', bind_assoc']
  rfl

/-- The interleaving store writes sixteen pixels. -/
theorem storeRgb_eq (ch : Channels) (p : Nat) (r g b a : Reg) (row : Buf) :
    storeRgb ch p r g b a row = put row p (X86.pixels ch 16 r g b a) := by
  cases ch
  · exact x3_bytes ..
  · exact x4_bytes ..
  · exact x4_bytes ..
  · exact x3_bytes ..

/-! ## Elements -/

theorem s16_extendLow {a : Reg} {k : Nat} (h : a k < 256) : s16 (extendLow a) k = a k := by
  rw [extendLow, s16_mk16, asI16_id] <;> omega

theorem s16_extendHigh {a : Reg} {k : Nat} (h : a (8 + k) < 256) :
    s16 (extendHigh a) k = a (8 + k) := by
  rw [extendHigh, s16_mk16, asI16_id] <;> omega

theorem w16_of_s16 {a : Reg} {k : Nat} : asI16 (w16 a k) = s16 a k := rfl

theorem s16_shl2 (a : Reg) {k : Nat} (h : -1000 ≤ s16 a k ∧ s16 a k ≤ 1000) :
    s16 (slli16 2 a) k = 4 * s16 a k := by
  rw [slli16, s16_mk16]
  unfold s16 at *
  generalize w16 a k = x at *
  unfold asI16 at *
  omega

theorem s16_q15 {a : Reg} {t : Int} {k : Nat} (ha : -1023 ≤ s16 a k ∧ s16 a k ≤ 1023)
    (ht : -32767 ≤ t ∧ t ≤ 32767) :
    s16 (q15mulr a (set1_16 t)) k = mulRound (s16 a k) t := by
  have hb := X86.mulRound_bounds ha ht
  rw [q15mulr, s16_mk16, s16_set1, asI16_id (x := t) (by omega) (by omega)]
  have e : (s16 a k * t + 16384) / 32768 = mulRound (s16 a k) t := rfl
  rw [e]
  unfold satI16
  rw [asI16_id] <;> omega

/-- The saturating pack of two registers made of words. -/
theorem packSat_at (f g : Nat → Int) {i : Nat} (h : i < 16)
    (hf : ∀ k, -32768 ≤ f k ∧ f k ≤ 32767) (hg : ∀ k, -32768 ≤ g k ∧ g k ≤ 32767) :
    packSat (mk16 f) (mk16 g) i = byteSat (if i < 8 then f i else g (i - 8)) := by
  have key : ∀ (f : Nat → Int) k, (-32768 ≤ f k ∧ f k ≤ 32767) →
      bitselect (set1_16 0) (bitselect (set1_16 255) (mk16 f) (gt16 (mk16 f) (set1_16 255)))
        (lt16 (mk16 f) (set1_16 0)) (2 * k) = byteSat (f k) := by
    intro f k hk
    have e1 : (2 * k) % 2 = 0 := by omega
    have e2 : (2 * k) / 2 = k := by omega
    have c0 : s16 (set1_16 0) k = 0 := by rw [s16_set1]; rfl
    have c1 : s16 (set1_16 255) k = 255 := by rw [s16_set1]; rfl
    have c2 : s16 (mk16 f) k = f k := by rw [s16_mk16, asI16_id hk.1 hk.2]
    have m : ∀ P : Prop, ∀ [Decidable P], (asU16 (if P then -1 else 0) % 256 = 255) ↔ P := by
      intro P _
      by_cases hP : P
      · simp only [hP, if_true, iff_true]; rfl
      · simp only [hP, if_false, iff_false]; decide
    have g1 : gt16 (mk16 f) (set1_16 255) (2 * k) = 255 ↔ 255 < f k := by
      simp only [gt16]
      rw [mk16, if_pos e1, e2, c1, c2]
      exact m _
    have g2 : lt16 (mk16 f) (set1_16 0) (2 * k) = 255 ↔ f k < 0 := by
      simp only [lt16]
      rw [mk16, if_pos e1, e2, c0, c2]
      exact m _
    have v0 : set1_16 0 (2 * k) = 0 := by rw [set1_16, mk16, if_pos e1]; rfl
    have v1 : set1_16 255 (2 * k) = 255 := by rw [set1_16, mk16, if_pos e1]; rfl
    have v2 : mk16 f (2 * k) = asU16 (f k) % 256 := by rw [mk16, if_pos e1, e2]
    simp only [bitselect, g1, g2, v0, v1, v2]
    unfold byteSat asU16
    split
    · omega
    · split <;> omega
  unfold packSat shuffle
  by_cases h8 : i < 8
  · have e : [0, 2, 4, 6, 8, 10, 12, 14, 16, 18, 20, 22, 24, 26, 28, 30].getD i 0 = 2 * i := by
      interval_cases i <;> rfl
    rw [e, if_pos (by omega), if_pos h8]
    exact key f i (hf i)
  · obtain ⟨j, rfl⟩ : ∃ j, i = 8 + j := ⟨i - 8, by omega⟩
    have e : [0, 2, 4, 6, 8, 10, 12, 14, 16, 18, 20, 22, 24, 26, 28, 30].getD (8 + j) 0
        = 16 + 2 * j := by
      have : j < 8 := by omega
      interval_cases j <;> rfl
    rw [e, if_neg (by omega), if_neg h8, Nat.add_sub_cancel_left, Nat.add_sub_cancel_left]
    exact key g j (hg j)

theorem asI16_range (x : Int) : -32768 ≤ asI16 x ∧ asI16 x ≤ 32767 := by unfold asI16; omega

theorem mk16_asI16 (f : Nat → Int) : mk16 (fun k => asI16 (f k)) = mk16 f := by
  funext i
  have e : asU16 (asI16 (f (i / 2))) = asU16 (f (i / 2)) := by unfold asU16 asI16; omega
  simp only [mk16, e]

/-- … in terms of the signed words. -/
theorem packSat_words (f g : Nat → Int) {i : Nat} (h : i < 16) :
    packSat (mk16 f) (mk16 g) i
      = byteSat (if i < 8 then s16 (mk16 f) i else s16 (mk16 g) (i - 8)) := by
  rw [← mk16_asI16 f, ← mk16_asI16 g, packSat_at _ _ h (fun _ => asI16_range _) (fun _ => asI16_range _)]
  simp only [mk16_asI16, s16_mk16]

/-! ## Colours -/

variable {rg : ChromaRange} {t : InvCoef}

theorem lumaTerm_at (ht : Coef16 t) {y : Reg} {k Y : Nat} (hY : Y < 256) (h : s16 y k = Y) :
    s16 (lumaTerm t y) k = mulRound (4 * (Y : Int)) t.y := by
  have e := s16_shl2 y (k := k) (by omega)
  have h1 := ht.1
  rw [lumaTerm, asI16_id (by omega) (by omega), s16_q15 (by rw [e, h]; omega) h1, e, h]

/-- Word `k` of the three colours. -/
theorem colours_at (hb : rg.biasUv = 128) (ht : Coef16 t) {yt u v : Reg} {k Y U V : Nat}
    (hY : Y < 256) (hU : U < 256) (hV : V < 256)
    (hy : s16 yt k = mulRound (4 * (Y : Int)) t.y) (hu : s16 u k = U) (hv : s16 v k = V) :
    byteSat (s16 (colours rg t yt u v).1 k) = (wasmRGB t Y U V).1 ∧
    byteSat (s16 (colours rg t yt u v).2.1 k) = (wasmRGB t Y U V).2.1 ∧
    byteSat (s16 (colours rg t yt u v).2.2 k) = (wasmRGB t Y U V).2.2 := by
  obtain ⟨h1, h2, h3, h4, h5⟩ := ht
  have sc : ∀ (x : Reg) (X : Nat), X < 256 → s16 x k = X → s16 (scaled rg x) k = 4 * ((X : Int) - 128) := by
    intro x X hX hx
    have e : s16 (sub16 x (set1_16 (asI16 rg.biasUv))) k = (X : Int) - 128 := by
      rw [s16_sub, s16_set1, asI16_asI16, hx, hb]
      have : asI16 ((128 : Nat) : Int) = 128 := by decide
      rw [this, asI16_id] <;> omega
    rw [scaled, s16_shl2 _ (by rw [e]; omega), e]
  have su := sc u U hU hu
  have sv := sc v V hV hv
  have bu : -1023 ≤ s16 (scaled rg u) k ∧ s16 (scaled rg u) k ≤ 1023 := by rw [su]; omega
  have bv : -1023 ≤ s16 (scaled rg v) k ∧ s16 (scaled rg v) k ≤ 1023 := by rw [sv]; omega
  have by' := X86.mulRound_bounds (a := 4 * (Y : Int)) (by omega) h1
  have hg1 : -32767 ≤ -t.g1 ∧ -t.g1 ≤ 32767 := by omega
  have hg2 : -32767 ≤ -t.g2 ∧ -t.g2 ≤ 32767 := by omega
  have m1 := X86.mulRound_bounds bv h2
  have m2 := X86.mulRound_bounds bv hg1
  have m3 := X86.mulRound_bounds bu hg2
  have m4 := X86.mulRound_bounds bu h3
  have q1 := s16_q15 bv h2
  have q2 := s16_q15 bv hg1
  have q3 := s16_q15 bu hg2
  have q4 := s16_q15 bu h3
  have a1 := asI16_id (x := t.cr) (by omega) (by omega)
  have a2 := asI16_id (x := t.cb) (by omega) (by omega)
  have a3 := asI16_id (x := t.g1) (by omega) (by omega)
  have a4 := asI16_id (x := t.g2) (by omega) (by omega)
  simp only [colours, a1, a2, a3, a4]
  rw [s16_add, s16_add, s16_add, s16_add, q1, q2, q3, q4, hy]
  rw [su] at m3 m4 ⊢
  rw [sv] at m1 m2 ⊢
  unfold wasmRGB
  simp only
  generalize mulRound (4 * (Y : Int)) t.y = a at *
  generalize mulRound (4 * ((V : Int) - 128)) t.cr = b at *
  generalize mulRound (4 * ((V : Int) - 128)) (-t.g1) = c at *
  generalize mulRound (4 * ((U : Int) - 128)) (-t.g2) = d at *
  generalize mulRound (4 * ((U : Int) - 128)) t.cb = e at *
  rw [asI16_id (x := a + b) (by omega) (by omega), asI16_id (x := c + d) (by omega) (by omega),
    asI16_id (x := a + (c + d)) (by omega) (by omega), asI16_id (x := a + e) (by omega) (by omega)]
  exact ⟨rfl, rfl, rfl⟩

/-- The chroma words belong to the samples `U i`, `V i`. -/
def Chroma.At (c : Chroma) (U V : Nat → Nat) : Prop :=
  ∀ k, k < 8 → s16 c.uLow k = U k ∧ s16 c.uHigh k = U (8 + k) ∧ s16 c.vLow k = V k ∧
    s16 c.vHigh k = V (8 + k)

/-- Sixteen pixels. -/
theorem rgb16_at (hb : rg.biasUv = 128) (ht : Coef16 t) {y : Reg} {c : Chroma} {U V : Nat → Nat}
    (hy : ∀ i, i < 16 → y i < 256) (hU : ∀ i, i < 16 → U i < 256) (hV : ∀ i, i < 16 → V i < 256)
    (hc : c.At U V) {i : Nat} (hi : i < 16) :
    (rgb16 rg t y c).1 i = (wasmRGB t (y i) (U i) (V i)).1 ∧
    (rgb16 rg t y c).2.1 i = (wasmRGB t (y i) (U i) (V i)).2.1 ∧
    (rgb16 rg t y c).2.2 i = (wasmRGB t (y i) (U i) (V i)).2.2 := by
  have pk : ∀ a b : Reg, (∃ f, a = mk16 f) → (∃ g, b = mk16 g) →
      packSat a b i = byteSat (if i < 8 then s16 a i else s16 b (i - 8)) := by
    rintro _ _ ⟨f, rfl⟩ ⟨g, rfl⟩
    exact packSat_words f g hi
  have ex1 : ∀ yt u v, ∃ f, (colours rg t yt u v).1 = mk16 f := by
    intro yt u v; simp only [colours, add16]; exact ⟨_, rfl⟩
  have ex2 : ∀ yt u v, ∃ f, (colours rg t yt u v).2.1 = mk16 f := by
    intro yt u v; simp only [colours, add16]; exact ⟨_, rfl⟩
  have ex3 : ∀ yt u v, ∃ f, (colours rg t yt u v).2.2 = mk16 f := by
    intro yt u v; simp only [colours, add16]; exact ⟨_, rfl⟩
  simp only [rgb16]
  rw [pk _ _ (ex1 _ _ _) (ex1 _ _ _), pk _ _ (ex2 _ _ _) (ex2 _ _ _), pk _ _ (ex3 _ _ _) (ex3 _ _ _)]
  by_cases h8 : i < 8
  · simp only [if_pos h8]
    obtain ⟨c1, _, c3, _⟩ := hc i h8
    exact colours_at hb ht (hy i hi) (hU i hi) (hV i hi)
      (lumaTerm_at ht (hy i hi) (s16_extendLow (hy i hi))) c1 c3
  · simp only [if_neg h8]
    obtain ⟨j, rfl⟩ : ∃ j, i = 8 + j := ⟨i - 8, by omega⟩
    rw [Nat.add_sub_cancel_left]
    obtain ⟨_, c2, _, c4⟩ := hc j (by omega)
    exact colours_at hb ht (hy _ hi) (hU _ hi) (hV _ hi)
      (lumaTerm_at ht (hy _ hi) (s16_extendHigh (hy _ hi))) c2 c4

theorem widen_at {u v : Reg} (hu : ∀ i, i < 16 → u i < 256) (hv : ∀ i, i < 16 → v i < 256) :
    (widen u v).At u v := by
  intro k hk
  exact ⟨s16_extendLow (hu _ (by omega)), s16_extendHigh (hu _ (by omega)),
    s16_extendLow (hv _ (by omega)), s16_extendHigh (hv _ (by omega))⟩

theorem zipLo_at (a : Reg) {i : Nat} (h : i < 16) : zipLo a a i = a (i / 2) := by
  interval_cases i <;> rfl

theorem Chroma.At.congr {c : Chroma} {U V U' V' : Nat → Nat} (h : c.At U V)
    (hU : ∀ i, i < 16 → U i = U' i) (hV : ∀ i, i < 16 → V i = V' i) : c.At U' V' := by
  intro k hk
  obtain ⟨a, b, d, e⟩ := h k hk
  exact ⟨by rw [a, hU _ (by omega)], by rw [b, hU _ (by omega)], by rw [d, hV _ (by omega)],
    by rw [e, hV _ (by omega)]⟩

end Verif.Wasm
