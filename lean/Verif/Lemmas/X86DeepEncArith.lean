import Verif.Model.X86DeepEncode
import Verif.Spec.VecDeepEncode
import Verif.Lemmas.X86DeepArith
import Verif.Lemmas.X86Load
import Verif.Lemmas.DeepEncode
/-! # Arithmetic of the x86 10- to 16-bit encoders -/
namespace Verif.X86
open Spec

/-! ## Loads -/

/-- The words of registers of `n` words laid end to end. -/
def catW (n : Nat) : List Reg → Nat → Nat
  | [], _ => 0
  | r :: l, k => if k < n then w16 r k else catW n l (k - n)

theorem catW_cat (n : Nat) : ∀ (rs : List Reg) (k : Nat),
    cat (2 * n) rs (2 * k) + 256 * cat (2 * n) rs (2 * k + 1) = catW n rs k
  | [], _ => rfl
  | r :: rs, k => by
    unfold cat catW
    by_cases h : k < n
    · rw [if_pos (by omega), if_pos (by omega), if_pos h]; rfl
    · rw [if_neg (by omega), if_neg (by omega), if_neg h, ← catW_cat n rs (k - n)]
      congr 3 <;> omega

theorem catW_of_bytes {n : Nat} {rs : List Reg} {r : Reg} {k i j m : Nat}
    (h1 : r (2 * k) = cat (2 * n) rs i) (h2 : r (2 * k + 1) = cat (2 * n) rs j)
    (hi : i = 2 * m) (hj : j = 2 * m + 1) : w16 r k = catW n rs m := by
  rw [w16, h1, h2, hi, hj, catW_cat]

theorem avx2DeinterleaveRgb16_byte (a b c : Reg) {i : Nat} (h : i < 32) :
    (avx2DeinterleaveRgb16 a b c).1 i = cat 32 [a, b, c] (6 * (i / 2) + 0 + i % 2) ∧
    (avx2DeinterleaveRgb16 a b c).2.1 i = cat 32 [a, b, c] (6 * (i / 2) + 2 + i % 2) ∧
    (avx2DeinterleaveRgb16 a b c).2.2 i = cat 32 [a, b, c] (6 * (i / 2) + 4 + i % 2) := by
  interval_cases i <;> exact ⟨rfl, rfl, rfl⟩

theorem avx2DeinterleaveRgb16_at (a b c : Reg) {k : Nat} (h : k < 16) :
    w16 (avx2DeinterleaveRgb16 a b c).1 k = catW 16 [a, b, c] (3 * k + 0) ∧
    w16 (avx2DeinterleaveRgb16 a b c).2.1 k = catW 16 [a, b, c] (3 * k + 1) ∧
    w16 (avx2DeinterleaveRgb16 a b c).2.2 k = catW 16 [a, b, c] (3 * k + 2) := by
  obtain ⟨a1, a2, a3⟩ := avx2DeinterleaveRgb16_byte a b c (i := 2 * k) (by omega)
  obtain ⟨b1, b2, b3⟩ := avx2DeinterleaveRgb16_byte a b c (i := 2 * k + 1) (by omega)
  exact ⟨catW_of_bytes a1 b1 (by omega) (by omega), catW_of_bytes a2 b2 (by omega) (by omega),
    catW_of_bytes a3 b3 (by omega) (by omega)⟩

theorem avx2DeinterleaveRgba16_byte (a b c d : Reg) {i : Nat} (h : i < 32) :
    (avx2DeinterleaveRgba16 a b c d).1 i = cat 32 [a, b, c, d] (8 * (i / 2) + 0 + i % 2) ∧
    (avx2DeinterleaveRgba16 a b c d).2.1 i = cat 32 [a, b, c, d] (8 * (i / 2) + 2 + i % 2) ∧
    (avx2DeinterleaveRgba16 a b c d).2.2.1 i = cat 32 [a, b, c, d] (8 * (i / 2) + 4 + i % 2) := by
  interval_cases i <;> exact ⟨rfl, rfl, rfl⟩

theorem avx2DeinterleaveRgba16_at (a b c d : Reg) {k : Nat} (h : k < 16) :
    w16 (avx2DeinterleaveRgba16 a b c d).1 k = catW 16 [a, b, c, d] (4 * k + 0) ∧
    w16 (avx2DeinterleaveRgba16 a b c d).2.1 k = catW 16 [a, b, c, d] (4 * k + 1) ∧
    w16 (avx2DeinterleaveRgba16 a b c d).2.2.1 k = catW 16 [a, b, c, d] (4 * k + 2) := by
  obtain ⟨a1, a2, a3⟩ := avx2DeinterleaveRgba16_byte a b c d (i := 2 * k) (by omega)
  obtain ⟨b1, b2, b3⟩ := avx2DeinterleaveRgba16_byte a b c d (i := 2 * k + 1) (by omega)
  exact ⟨catW_of_bytes a1 b1 (by omega) (by omega), catW_of_bytes a2 b2 (by omega) (by omega),
    catW_of_bytes a3 b3 (by omega) (by omega)⟩

theorem sseDeinterleaveRgb16_byte (a b c : Reg) {i : Nat} (h : i < 16) :
    (sseDeinterleaveRgb16 a b c).1 i = cat 16 [a, b, c] (6 * (i / 2) + 0 + i % 2) ∧
    (sseDeinterleaveRgb16 a b c).2.1 i = cat 16 [a, b, c] (6 * (i / 2) + 2 + i % 2) ∧
    (sseDeinterleaveRgb16 a b c).2.2 i = cat 16 [a, b, c] (6 * (i / 2) + 4 + i % 2) := by
  interval_cases i <;> exact ⟨rfl, rfl, rfl⟩

theorem sseDeinterleaveRgb16_at (a b c : Reg) {k : Nat} (h : k < 8) :
    w16 (sseDeinterleaveRgb16 a b c).1 k = catW 8 [a, b, c] (3 * k + 0) ∧
    w16 (sseDeinterleaveRgb16 a b c).2.1 k = catW 8 [a, b, c] (3 * k + 1) ∧
    w16 (sseDeinterleaveRgb16 a b c).2.2 k = catW 8 [a, b, c] (3 * k + 2) := by
  obtain ⟨a1, a2, a3⟩ := sseDeinterleaveRgb16_byte a b c (i := 2 * k) (by omega)
  obtain ⟨b1, b2, b3⟩ := sseDeinterleaveRgb16_byte a b c (i := 2 * k + 1) (by omega)
  exact ⟨catW_of_bytes a1 b1 (by omega) (by omega), catW_of_bytes a2 b2 (by omega) (by omega),
    catW_of_bytes a3 b3 (by omega) (by omega)⟩

theorem sseDeinterleaveRgba16_byte (a b c d : Reg) {i : Nat} (h : i < 16) :
    (sseDeinterleaveRgba16 a b c d).1 i = cat 16 [a, b, c, d] (8 * (i / 2) + 0 + i % 2) ∧
    (sseDeinterleaveRgba16 a b c d).2.1 i = cat 16 [a, b, c, d] (8 * (i / 2) + 2 + i % 2) ∧
    (sseDeinterleaveRgba16 a b c d).2.2.1 i = cat 16 [a, b, c, d] (8 * (i / 2) + 4 + i % 2) := by
  interval_cases i <;> exact ⟨rfl, rfl, rfl⟩

theorem sseDeinterleaveRgba16_at (a b c d : Reg) {k : Nat} (h : k < 8) :
    w16 (sseDeinterleaveRgba16 a b c d).1 k = catW 8 [a, b, c, d] (4 * k + 0) ∧
    w16 (sseDeinterleaveRgba16 a b c d).2.1 k = catW 8 [a, b, c, d] (4 * k + 1) ∧
    w16 (sseDeinterleaveRgba16 a b c d).2.2.1 k = catW 8 [a, b, c, d] (4 * k + 2) := by
  obtain ⟨a1, a2, a3⟩ := sseDeinterleaveRgba16_byte a b c d (i := 2 * k) (by omega)
  obtain ⟨b1, b2, b3⟩ := sseDeinterleaveRgba16_byte a b c d (i := 2 * k + 1) (by omega)
  exact ⟨catW_of_bytes a1 b1 (by omega) (by omega), catW_of_bytes a2 b2 (by omega) (by omega),
    catW_of_bytes a3 b3 (by omega) (by omega)⟩

/-- Register `r` holds the `n` words from element `p` of `l`. -/
def Holds (n : Nat) (l : Buf) (p : Nat) (r : Reg) : Prop := ∀ k, k < n → w16 r k = l.getD (p + k) 0

theorem load16_holds {n : Nat} {l : Buf} {p : Nat} (h : p + n ≤ l.length) (hl : ∀ s ∈ l, s < 65536) :
    ∃ r : Reg, load16 n l p = .ok r ∧ Holds n l p r := by
  obtain ⟨r, e, h1, _⟩ := load16_at h hl
  exact ⟨r, e, h1⟩

theorem catW_cons {n : Nat} {l : Buf} {p k : Nat} {r : Reg} {rs : List Reg} (hr : Holds n l p r)
    (h : n ≤ k → catW n rs (k - n) = l.getD (p + n + (k - n)) 0) :
    catW n (r :: rs) k = l.getD (p + k) 0 := by
  by_cases c : k < n
  · rw [catW, if_pos c, hr k c]
  · rw [catW, if_neg c, h (by omega)]; congr 1; omega

theorem catW3 {n : Nat} {l : Buf} {p k : Nat} {a b c : Reg} (ha : Holds n l p a)
    (hb : Holds n l (p + n) b) (hc : Holds n l (p + 2 * n) c) (h : k < 3 * n) :
    catW n [a, b, c] k = l.getD (p + k) 0 := by
  refine catW_cons ha fun h1 => catW_cons hb fun h2 => ?_
  rw [show p + n + n = p + 2 * n by omega]
  exact catW_cons hc fun h3 => by omega

theorem catW4 {n : Nat} {l : Buf} {p k : Nat} {a b c d : Reg} (ha : Holds n l p a)
    (hb : Holds n l (p + n) b) (hc : Holds n l (p + 2 * n) c) (hd : Holds n l (p + 3 * n) d)
    (h : k < 4 * n) : catW n [a, b, c, d] k = l.getD (p + k) 0 := by
  refine catW_cons ha fun h1 => ?_
  rw [show p + 2 * n = p + n + n by omega] at hc
  rw [show p + 3 * n = p + n + 2 * n by omega] at hd
  exact catW3 hb hc hd (by omega)

/-- The registers hold the words `R`, `G`, `B`. -/
def ChansW (c : Reg × Reg × Reg) (n : Nat) (R G B : Nat → Nat) : Prop :=
  ∀ k, k < n → w16 c.1 k = R k ∧ w16 c.2.1 k = G k ∧ w16 c.2.2 k = B k

/-- The registers hold the components of the `n` pixels from `x0` on. -/
abbrev PixAtW (ch : Channels) (c : Reg × Reg × Reg) (n : Nat) (l : Buf) (x0 : Nat) : Prop :=
  ChansW c n (fun k => red ch (rowPx l ch.count (x0 + k))) (fun k => green ch (rowPx l ch.count (x0 + k)))
    (fun k => blue ch (rowPx l ch.count (x0 + k)))

theorem pixAtW_of_words {ch : Channels} {c : Reg × Reg × Reg} {n : Nat} {l : Buf} {x0 : Nat}
    {b : Nat → Nat} (hb : ∀ i, i < n * ch.count → b i = l.getD (x0 * ch.count + i) 0)
    (h : ∀ i, i < n → w16 c.2.1 i = b (ch.count * i + 1) ∧
      match ch with
      | .rgb | .rgba => w16 c.1 i = b (ch.count * i) ∧ w16 c.2.2 i = b (ch.count * i + 2)
      | .bgr | .bgra => w16 c.2.2 i = b (ch.count * i) ∧ w16 c.1 i = b (ch.count * i + 2)) :
    PixAtW ch c n l x0 := by
  intro i hi
  have hc : 3 ≤ ch.count := by cases ch <;> decide
  have hle : (i + 1) * ch.count ≤ n * ch.count := Nat.mul_le_mul_right _ hi
  have e1 : (i + 1) * ch.count = ch.count * i + ch.count := by ring
  have e2 : (x0 + i) * ch.count = x0 * ch.count + ch.count * i := by ring
  have key : ∀ k, k < ch.count →
      b (ch.count * i + k) = (rowPx l ch.count (x0 + i)).getD k 0 := by
    intro k hk
    rw [rowPx_getD hk, hb _ (by omega), e2, Nat.add_assoc]
  obtain ⟨h1, h2⟩ := h i hi
  have k0 := key 0 (by omega)
  have k1 := key 1 (by omega)
  have k2 := key 2 (by omega)
  rw [Nat.add_zero] at k0
  cases ch
  all_goals
    simp only [red, green, blue]
    rw [h1, h2.1, h2.2, k0, k1, k2]
    exact ⟨rfl, rfl, rfl⟩

theorem avx2Load16_at (ch : Channels) {l : Buf} {x0 : Nat} (h : (x0 + 16) * ch.count ≤ l.length)
    (hl : ∀ s ∈ l, s < 65536) :
    ∃ c, avx2Load16 ch l (x0 * ch.count) = .ok c ∧ PixAtW ch c 16 l x0 := by
  have e : (x0 + 16) * ch.count = x0 * ch.count + 16 * ch.count := by ring
  rw [e] at h
  have hc : 3 ≤ ch.count := by cases ch <;> decide
  obtain ⟨a, ea, ha⟩ := load16_holds (n := 16) (p := x0 * ch.count) (by omega) hl
  obtain ⟨b, eb, hb⟩ := load16_holds (n := 16) (p := x0 * ch.count + 16) (by omega) hl
  obtain ⟨c, ec, hc⟩ := load16_holds (n := 16) (p := x0 * ch.count + 32) (by omega) hl
  unfold avx2Load16
  rw [ea, Outcome.bind_ok, eb, Outcome.bind_ok, ec, Outcome.bind_ok]
  cases ch
  all_goals simp only [Channels.count] at *
  · refine ⟨_, rfl, pixAtW_of_words (fun i hi => catW3 ha hb hc hi) fun i hi => ?_⟩
    have := avx2DeinterleaveRgb16_at a b c hi
    exact ⟨this.2.1, this.1, this.2.2⟩
  · obtain ⟨d, ed, hd⟩ := load16_holds (n := 16) (p := x0 * 4 + 48) (by omega) hl
    rw [ed, Outcome.bind_ok]
    refine ⟨_, rfl, pixAtW_of_words (fun i hi => catW4 ha hb hc hd (by simpa [Channels.count, Nat.mul_comm] using hi)) fun i hi => ?_⟩
    have := avx2DeinterleaveRgba16_at a b c d hi
    exact ⟨this.2.1, this.1, this.2.2⟩
  · obtain ⟨d, ed, hd⟩ := load16_holds (n := 16) (p := x0 * 4 + 48) (by omega) hl
    rw [ed, Outcome.bind_ok]
    refine ⟨_, rfl, pixAtW_of_words (fun i hi => catW4 ha hb hc hd (by simpa [Channels.count, Nat.mul_comm] using hi)) fun i hi => ?_⟩
    have := avx2DeinterleaveRgba16_at a b c d hi
    exact ⟨this.2.1, this.1, this.2.2⟩
  · refine ⟨_, rfl, pixAtW_of_words (fun i hi => catW3 ha hb hc hi) fun i hi => ?_⟩
    have := avx2DeinterleaveRgb16_at a b c hi
    exact ⟨this.2.1, this.1, this.2.2⟩

theorem sseLoad16_at (ch : Channels) {l : Buf} {x0 : Nat} (h : (x0 + 8) * ch.count ≤ l.length)
    (hl : ∀ s ∈ l, s < 65536) :
    ∃ c, sseLoad16 ch l (x0 * ch.count) = .ok c ∧ PixAtW ch c 8 l x0 := by
  have e : (x0 + 8) * ch.count = x0 * ch.count + 8 * ch.count := by ring
  rw [e] at h
  have hc : 3 ≤ ch.count := by cases ch <;> decide
  obtain ⟨a, ea, ha⟩ := load16_holds (n := 8) (p := x0 * ch.count) (by omega) hl
  obtain ⟨b, eb, hb⟩ := load16_holds (n := 8) (p := x0 * ch.count + 8) (by omega) hl
  obtain ⟨c, ec, hc⟩ := load16_holds (n := 8) (p := x0 * ch.count + 16) (by omega) hl
  unfold sseLoad16
  rw [ea, Outcome.bind_ok, eb, Outcome.bind_ok, ec, Outcome.bind_ok]
  cases ch
  all_goals simp only [Channels.count] at *
  · refine ⟨_, rfl, pixAtW_of_words (fun i hi => catW3 ha hb hc hi) fun i hi => ?_⟩
    have := sseDeinterleaveRgb16_at a b c hi
    exact ⟨this.2.1, this.1, this.2.2⟩
  · obtain ⟨d, ed, hd⟩ := load16_holds (n := 8) (p := x0 * 4 + 24) (by omega) hl
    rw [ed, Outcome.bind_ok]
    refine ⟨_, rfl, pixAtW_of_words (fun i hi => catW4 ha hb hc hd (by simpa [Channels.count, Nat.mul_comm] using hi)) fun i hi => ?_⟩
    have := sseDeinterleaveRgba16_at a b c d hi
    exact ⟨this.2.1, this.1, this.2.2⟩
  · obtain ⟨d, ed, hd⟩ := load16_holds (n := 8) (p := x0 * 4 + 24) (by omega) hl
    rw [ed, Outcome.bind_ok]
    refine ⟨_, rfl, pixAtW_of_words (fun i hi => catW4 ha hb hc hd (by simpa [Channels.count, Nat.mul_comm] using hi)) fun i hi => ?_⟩
    have := sseDeinterleaveRgba16_at a b c d hi
    exact ⟨this.2.1, this.1, this.2.2⟩
  · refine ⟨_, rfl, pixAtW_of_words (fun i hi => catW3 ha hb hc hi) fun i hi => ?_⟩
    have := sseDeinterleaveRgb16_at a b c hi
    exact ⟨this.2.1, this.1, this.2.2⟩

/-! ## Stored words -/

theorem perm4_bytes {a : Reg} (h : RegBytes a) (m : Nat) : RegBytes (permute4x64 m a) := fun _ => h _

theorem storedReg_at (e : Endianness) (bp : BytesPacking) {d : Nat} (hd : Verif.Deep d) {a : Reg}
    (ha : RegBytes a) {k v : Nat} (hk : k < 16) (hv : v < 2 ^ d) (h : w16 a k = v) :
    w16 (storedReg e bp d a) k = wordOf e bp d v := by
  have hm : w16 (toMsb d a) k = v * 2 ^ (16 - d) ∧ RegBytes (toMsb d a) := by
    rcases hd with rfl | rfl | rfl | rfl
    · exact ⟨by show w16 (slli16 6 a) k = _; rw [w16_slli, h]; norm_num at hv ⊢; omega,
        by show RegBytes (slli16 6 a); exact mk16_bytes _⟩
    · exact ⟨by show w16 (slli16 4 a) k = _; rw [w16_slli, h]; norm_num at hv ⊢; omega,
        by show RegBytes (slli16 4 a); exact mk16_bytes _⟩
    · exact ⟨by show w16 (slli16 2 a) k = _; rw [w16_slli, h]; norm_num at hv ⊢; omega,
        by show RegBytes (slli16 2 a); exact mk16_bytes _⟩
    · exact ⟨by show w16 a k = _; rw [h]; norm_num, ha⟩
  cases e <;> cases bp
  · show w16 (shuffle8 (toMsb d a) swapMask) k = _
    rw [w16_swap hm.2 hk, hm.1]; rfl
  · show w16 (shuffle8 a swapMask) k = _
    rw [w16_swap ha hk, h]; rfl
  · exact hm.1
  · exact h

/-! ## Sums -/

theorem w16_packus (a b : Reg) (k : Nat) : w16 (packus32 a b) k
    = satU16 (s32 (if k % 8 < 4 then a else b) (k / 8 * 4 + k % 4)) := by
  rw [packus32, w16_mk16, asU16_nat (by unfold satU16; omega)]

theorem avx2Pack32_at (j : Reg) {k : Nat} (hk : k < 8) : w16 (avx2Pack32 j) k = satU16 (s32 j k) := by
  unfold avx2Pack32
  rw [w16_perm4 _ (by omega), w16_packus, ite_self]
  congr 2
  split
  · omega
  · rw [if_neg (by omega)]; omega

theorem ssePack32_at (j : Reg) {k : Nat} (hk : k < 4) : w16 (ssePack32 j) k = satU16 (s32 j k) := by
  unfold ssePack32
  rw [w16_packus, ite_self]
  congr 2; omega

/-- The exact sum. -/
def exactSum (bias : Int) (k : Int × Int × Int) (r g b : Nat) : Int :=
  r * k.1 + g * k.2.1 + b * k.2.2 + bias

theorem sumWord_eq (bias : Nat) (k : Int × Int × Int) (r g b : Nat) :
    sumWord bias k r g b = satU16 (asI32 (exactSum (deepBias bias) k r g b) / 2 ^ 15) := by
  rw [satU16_saturate]; rfl

/-- Weights of 16 bits whose sums for words below `B` stay between zero and `2^31`. -/
structure SumFits (B : Nat) (bias : Int) (k : Int × Int × Int) : Prop where
  r16 : -32768 ≤ k.1 ∧ k.1 ≤ 32767
  g16 : -32768 ≤ k.2.1 ∧ k.2.1 ≤ 32767
  b16 : -32768 ≤ k.2.2 ∧ k.2.2 ≤ 32767
  sum : ∀ r g b, r < B → g < B → b < B →
    0 ≤ exactSum bias k r g b ∧ exactSum bias k r g b ≤ 2147483647

/-- A register made of the weight of blue. -/
def BlueOk (wb : Int → Reg) : Prop := ∀ k : Int, -32768 ≤ k → k ≤ 32767 → ∀ j, s16 (wb k) (2 * j) = k

theorem blueWord_ok : BlueOk blueWord := fun k h1 h2 j => by
  rw [blueWord, s16_set1, asI16_id (x := k) h1 h2, asI16_id h1 h2]

theorem blueDword_ok : BlueOk blueDword := fun k h1 h2 j => by
  rw [blueDword, set1_32, s16, w16_mk32_lo]
  unfold asI16 asU32; omega

theorem s16_small {a : Reg} {k v : Nat} (h : w16 a k = v) (hv : v < 32768) : s16 a k = v := by
  rw [s16, h]; unfold asI16; omega

theorem affSum_at {B : Nat} {bias : Int} {k : Int × Int × Int} (hf : SumFits B bias k)
    {wb : Int → Reg} (hw : BlueOk wb) {rg bz : Reg} {j r g b : Nat} (hr : r < B) (hg : g < B) (hb : b < B)
    (h1 : s16 rg (2 * j) = r) (h2 : s16 rg (2 * j + 1) = g) (h3 : s16 bz (2 * j) = b)
    (h4 : s16 bz (2 * j + 1) = 0) :
    s32 (affSum bias (set1_32 (interleaved k.1 k.2.1)) (wb k.2.2) rg bz) j
      = asI32 (exactSum bias k r g b) / 2 ^ 15 := by
  obtain ⟨s0, s1⟩ := hf.sum r g b hr hg hb
  unfold affSum srli32
  rw [s32_mk32, add32v, w32_mk32, s32_set1, s32_add, s32_madd, s32_madd, (s16_interleaved k.1 k.2.1 j).1,
    (s16_interleaved k.1 k.2.1 j).2, h1, h2, h3, h4, hw _ hf.b16.1 hf.b16.2, Int.zero_mul, Int.add_zero,
    asI16_id hf.r16.1 hf.r16.2, asI16_id hf.g16.1 hf.g16.2]
  unfold exactSum at *
  rw [asI32_id (x := _ + bias) (by omega) s1]
  generalize (r : Int) * k.1 = x at *
  generalize (g : Int) * k.2.1 = y at *
  generalize (b : Int) * k.2.2 = z at *
  have e : asU32 (asI32 bias + asI32 (asI32 (x + y) + asI32 z)) = (x + y + z + bias).toNat := by
    unfold asU32 asI32; omega
  rw [e]
  norm_num
  rw [asI32_id] <;> omega

theorem affDot_at {B : Nat} (hB : B ≤ 32768) {bias : Nat} {k : Int × Int × Int}
    (hf : SumFits B (deepBias bias) k) {wb : Int → Reg} (hw : BlueOk wb) {c : Reg × Reg × Reg}
    {j r g b : Nat} (hr : r < B) (hg : g < B) (hb : b < B) (h1 : w16 c.1 j = r) (h2 : w16 c.2.1 j = g)
    (h3 : w16 c.2.2 j = b) : w16 (affDot wb (deepBias bias) k c) j = sumWord bias k r g b := by
  have e1 := s16_small h1 (by omega)
  have e2 := s16_small h2 (by omega)
  have e3 := s16_small h3 (by omega)
  unfold affDot
  rw [w16_packus, sumWord_eq]
  refine congrArg satU16 ?_
  by_cases hj : j % 8 < 4
  · have ej : (j / 8 * 4 + j % 4) / 4 * 8 + (j / 8 * 4 + j % 4) % 4 = j := by omega
    rw [if_pos hj]
    refine affSum_at hf hw hr hg hb ?_ ?_ ?_ ?_
    · rw [(s16_unpacklo2 _ _ _).1, ej, e1]
    · rw [(s16_unpacklo2 _ _ _).2, ej, e2]
    · rw [(s16_unpacklo2 _ _ _).1, ej, e3]
    · rw [(s16_unpacklo2 _ _ _).2, s16_zero]
  · have ej : (j / 8 * 4 + j % 4) / 4 * 8 + 4 + (j / 8 * 4 + j % 4) % 4 = j := by omega
    rw [if_neg hj]
    refine affSum_at hf hw hr hg hb ?_ ?_ ?_ ?_
    · rw [(s16_unpackhi2 _ _ _).1, ej, e1]
    · rw [(s16_unpackhi2 _ _ _).2, ej, e2]
    · rw [(s16_unpackhi2 _ _ _).1, ej, e3]
    · rw [(s16_unpackhi2 _ _ _).2, s16_zero]

theorem havg_at {a : Reg} {j x y : Nat} (hx : x < 32768) (hy : y < 32768) (h1 : w16 a (2 * j) = x)
    (h2 : w16 a (2 * j + 1) = y) :
    w16 (havg a) (2 * j) = (x + y + 1) / 2 ∧ w16 (havg a) (2 * j + 1) = 0 := by
  have e1 := s16_small h1 hx
  have e2 := s16_small h2 hy
  unfold havg srli32
  rw [w16_mk32_lo, w16_mk32_hi, add32v, w32_mk32, s32_madd, s32_set1, s16_set1, s16_set1, e1, e2]
  have i1 : asI16 1 = 1 := by decide
  have i2 : asI32 1 = 1 := by decide
  have e : asU32 (asI32 ((x : Int) * asI16 1 + (y : Int) * asI16 1) + asI32 1) = x + y + 1 := by
    rw [i1, i2, Int.mul_one, Int.mul_one, asI32_id (by omega) (by omega)]
    unfold asU32; omega
  rw [e]
  have e' : asU32 (((x + y + 1) / 2 ^ 1 : Nat) : Int) = (x + y + 1) / 2 := by unfold asU32; omega
  rw [e']
  omega

theorem affHalf_at {B : Nat} (hB : B ≤ 32768) {bias : Nat} {k : Int × Int × Int}
    (hf : SumFits B (deepBias bias) k) {wb : Int → Reg} (hw : BlueOk wb) {c : Reg × Reg × Reg}
    {j r g b r' g' b' : Nat} (hr : r < B) (hg : g < B) (hb : b < B) (hr' : r' < B) (hg' : g' < B)
    (hb' : b' < B) (h1 : w16 c.1 (2 * j) = r) (h2 : w16 c.2.1 (2 * j) = g) (h3 : w16 c.2.2 (2 * j) = b)
    (h1' : w16 c.1 (2 * j + 1) = r') (h2' : w16 c.2.1 (2 * j + 1) = g')
    (h3' : w16 c.2.2 (2 * j + 1) = b') :
    satU16 (s32 (affHalf wb (deepBias bias) k c) j)
      = sumWord bias k ((r + r' + 1) / 2) ((g + g' + 1) / 2) ((b + b' + 1) / 2) := by
  obtain ⟨r1, r2⟩ := havg_at (by omega) (by omega) h1 h1'
  obtain ⟨g1, g2⟩ := havg_at (by omega) (by omega) h2 h2'
  obtain ⟨b1, b2⟩ := havg_at (by omega) (by omega) h3 h3'
  have sl : w16 (slli32 16 (havg c.2.1)) (2 * j) = 0 ∧
      w16 (slli32 16 (havg c.2.1)) (2 * j + 1) = (g + g' + 1) / 2 := by
    unfold slli32
    rw [w16_mk32_lo, w16_mk32_hi, w32, g1, g2]
    unfold asU32; omega
  rw [sumWord_eq, affHalf]
  refine congrArg satU16 ?_
  refine affSum_at hf hw (r := (r + r' + 1) / 2) (g := (g + g' + 1) / 2) (b := (b + b' + 1) / 2)
    (by omega) (by omega) (by omega) ?_ ?_ ?_ ?_
  · refine s16_small ?_ (by omega)
    rw [or16, w16_mk16, r1, sl.1, Nat.or_zero, asU16_nat (by omega)]
  · refine s16_small ?_ (by omega)
    rw [or16, w16_mk16, r2, sl.2, Nat.zero_or, asU16_nat (by omega)]
  · exact s16_small b1 (by omega)
  · rw [s16, b2]; decide

/-! ## Sums of the 16-bit kernel -/

theorem asI32_sum (x y z b : Int) :
    asI32 (asI32 (asI32 (asI32 x + asI32 y) + asI32 b) + asI32 z) = asI32 (x + y + z + b) := by
  unfold asI32; omega
theorem asI32_sum' (x y z b : Int) :
    asI32 (asI32 (asI32 (asI32 x + asI32 b) + asI32 y) + asI32 z) = asI32 (x + y + z + b) := by
  unfold asI32; omega
theorem asI32_mul (n : Nat) (hn : n < 65536) (k : Int) :
    asI32 (asI32 (n : Int) * asI32 k) = asI32 ((n : Int) * k) := by
  rw [asI32_id (x := (n : Int)) (by omega) (by omega)]
  obtain ⟨q, hq⟩ : ∃ q, asI32 k = k + q * 4294967296 := by
    refine ⟨-((k + 2147483648) / 4294967296), ?_⟩
    unfold asI32; omega
  rw [hq, Int.mul_add, ← Int.mul_assoc]
  generalize (n : Int) * k = x
  generalize (n : Int) * q = y
  unfold asI32; omega
theorem asI32_shift (x : Int) : asI32 (asI32 x / 2 ^ 15) = asI32 x / 2 ^ 15 := by
  apply asI32_id <;> (unfold asI32; omega)

theorem wideSum_at {bias : Int} {k : Int × Int × Int} {rr gg bb : Reg} {j r g b : Nat}
    (hr : r < 65536) (hg : g < 65536) (hb : b < 65536) (h1 : w32 rr j = r) (h2 : w32 gg j = g)
    (h3 : w32 bb j = b) :
    s32 (wideSum bias k rr gg bb) j = asI32 (exactSum bias k r g b) / 2 ^ 15 := by
  unfold wideSum mullo32
  rw [s32_srai, s32_add, s32_add, s32_add, s32_mk32, s32_mk32, s32_mk32, s32_set1, s32_set1, s32_set1,
    s32_set1, s32, s32, s32, h1, h2, h3, asI32_mul r hr, asI32_mul g hg, asI32_mul b hb, asI32_sum,
    asI32_shift, exactSum]

theorem wideDot_at {bias : Nat} {k : Int × Int × Int} {c : Reg × Reg × Reg} {j r g b : Nat}
    (hr : r < 65536) (hg : g < 65536) (hb : b < 65536) (h1 : w16 c.1 j = r) (h2 : w16 c.2.1 j = g)
    (h3 : w16 c.2.2 j = b) : w16 (wideDot (deepBias bias) k c) j = sumWord bias k r g b := by
  unfold wideDot
  rw [w16_packus, sumWord_eq]
  refine congrArg satU16 ?_
  by_cases hj : j % 8 < 4
  · have ej : (j / 8 * 4 + j % 4) / 4 * 8 + (j / 8 * 4 + j % 4) % 4 = j := by omega
    rw [if_pos hj]
    exact wideSum_at hr hg hb (by rw [(w32_unpackZero _ _).1, ej, h1])
      (by rw [(w32_unpackZero _ _).1, ej, h2]) (by rw [(w32_unpackZero _ _).1, ej, h3])
  · have ej : (j / 8 * 4 + j % 4) / 4 * 8 + 4 + (j / 8 * 4 + j % 4) % 4 = j := by omega
    rw [if_neg hj]
    exact wideSum_at hr hg hb (by rw [(w32_unpackZero _ _).2, ej, h1])
      (by rw [(w32_unpackZero _ _).2, ej, h2]) (by rw [(w32_unpackZero _ _).2, ej, h3])

theorem rphaddMask_at : ∀ i, i < 32 → setr8 [0, 1, 4, 5, 8, 9, 12, 13, 2, 3, 6, 7, 10, 11, 14, 15,
    0, 1, 4, 5, 8, 9, 12, 13, 2, 3, 6, 7, 10, 11, 14, 15] i
      = i % 8 / 2 * 4 + i % 16 / 8 * 2 + i % 2 := by decide

theorem w16_shuffle {a m : Reg} {k n : Nat} (h1 : m (2 * k) = 2 * n) (h2 : m (2 * k + 1) = 2 * n + 1)
    (hn : n < 8) : w16 (shuffle8 a m) k = w16 a (k / 8 * 8 + n) := by
  unfold w16 shuffle8
  rw [h1, h2, if_neg (by omega), if_neg (by omega), show 2 * k / 16 * 16 + 2 * n % 16 = 2 * (k / 8 * 8 + n) by omega,
    show (2 * k + 1) / 16 * 16 + (2 * n + 1) % 16 = 2 * (k / 8 * 8 + n) + 1 by omega]

theorem rphadd_at {a : Reg} {j x y : Nat} (hj : j < 8) (hx : x < 65536) (hy : y < 65536)
    (h1 : w16 a (2 * j) = x) (h2 : w16 a (2 * j + 1) = y) : w32 (rphadd a) j = (x + y + 1) / 2 := by
  unfold rphadd srli32
  rw [w32_mk32, add32v, w32_mk32, s32_add, s32_set1, s32, s32, (w32_unpackZero _ _).1,
    (w32_unpackZero _ _).2, w16_shuffle (n := 2 * (j % 4)) (by rw [rphaddMask_at _ (by omega)]; omega)
      (by rw [rphaddMask_at _ (by omega)]; omega) (by omega),
    w16_shuffle (n := 2 * (j % 4) + 1) (by rw [rphaddMask_at _ (by omega)]; omega)
      (by rw [rphaddMask_at _ (by omega)]; omega) (by omega),
    show (j / 4 * 8 + j % 4) / 8 * 8 + 2 * (j % 4) = 2 * j by omega,
    show (j / 4 * 8 + 4 + j % 4) / 8 * 8 + (2 * (j % 4) + 1) = 2 * j + 1 by omega, h1, h2]
  have e : asU32 (asI32 (asI32 ((x : Nat) : Int) + asI32 ((y : Nat) : Int)) + asI32 1) = x + y + 1 := by
    rw [asI32_id (x := (x : Int)) (by omega) (by omega), asI32_id (x := (y : Int)) (by omega) (by omega),
      asI32_id (x := 1) (by omega) (by omega), asI32_id (by omega) (by omega)]
    unfold asU32; omega
  rw [e]
  unfold asU32; omega

theorem widePairSum_at {bias : Nat} {k : Int × Int × Int} {c : Reg × Reg × Reg}
    {j r g b r' g' b' : Nat} (hj : j < 8) (hr : r < 65536) (hg : g < 65536) (hb : b < 65536)
    (hr' : r' < 65536) (hg' : g' < 65536) (hb' : b' < 65536) (h1 : w16 c.1 (2 * j) = r)
    (h2 : w16 c.2.1 (2 * j) = g) (h3 : w16 c.2.2 (2 * j) = b) (h1' : w16 c.1 (2 * j + 1) = r')
    (h2' : w16 c.2.1 (2 * j + 1) = g') (h3' : w16 c.2.2 (2 * j + 1) = b') :
    satU16 (s32 (widePairSum (deepBias bias) k c) j)
      = sumWord bias k ((r + r' + 1) / 2) ((g + g' + 1) / 2) ((b + b' + 1) / 2) := by
  have e1 := rphadd_at hj hr hr' h1 h1'
  have e2 := rphadd_at hj hg hg' h2 h2'
  have e3 := rphadd_at hj hb hb' h3 h3'
  rw [sumWord_eq]
  unfold widePairSum mullo32
  rw [s32_srai, s32_add, s32_add, s32_add, s32_mk32, s32_mk32, s32_mk32, s32_set1, s32_set1, s32_set1,
    s32_set1, s32, s32, s32, e1, e2, e3, asI32_mul _ (by omega), asI32_mul _ (by omega),
    asI32_mul _ (by omega), asI32_sum', asI32_shift, exactSum]

theorem avgU16_at {a b : Reg} {j x y : Nat} (hx : x < 65536) (hy : y < 65536) (h1 : w16 a j = x)
    (h2 : w16 b j = y) : w16 (avgU16 a b) j = (x + y + 1) / 2 := by
  rw [avgU16, w16_mk16, h1, h2, asU16_nat (by omega)]

end Verif.X86
