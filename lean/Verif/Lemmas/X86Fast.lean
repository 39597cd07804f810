import Verif.Model.X86Fast
import Verif.Spec.FastEncode
import Verif.Lemmas.X86Prof
import Verif.Lemmas.X86Deep8
import Verif.Lemmas.X86DeepArith
/-!
# The steps of the fast encoders
-/
namespace Verif.X86
open Verif.Spec

/-! ## Pixels in four registers -/

/-- Pixel `j` of the `n` pixels in four registers of `n` bytes starts with the bytes `X j`, `Y j`, `Z j`. -/
def Trip (n : Nat) (c : Quad) (X Y Z : Nat → Nat) : Prop := ∀ j, j < n →
  (cat n [c.1, c.2.1, c.2.2.1, c.2.2.2] (4 * j) = X j ∧ cat n [c.1, c.2.1, c.2.2.1, c.2.2.2] (4 * j + 1) = Y j ∧
    cat n [c.1, c.2.1, c.2.2.1, c.2.2.2] (4 * j + 2) = Z j) ∧ X j < 256 ∧ Y j < 256 ∧ Z j < 256

/-- The components in the order of the channels. -/
def FastPx (ch : Channels) (n : Nat) (c : Quad) (R G B : Nat → Nat) : Prop :=
  match ch with
  | .rgb | .rgba => Trip n c R G B
  | .bgr | .bgra => Trip n c B G R

theorem avx2Expand_at (a b c : Reg) {i : Nat} (h : i < 32) :
    let e := avx2Expand a b c
    cat 32 [e.1, e.2.1, e.2.2.1, e.2.2.2] (4 * i) = cat 32 [a, b, c] (3 * i) ∧
    cat 32 [e.1, e.2.1, e.2.2.1, e.2.2.2] (4 * i + 1) = cat 32 [a, b, c] (3 * i + 1) ∧
    cat 32 [e.1, e.2.1, e.2.2.1, e.2.2.2] (4 * i + 2) = cat 32 [a, b, c] (3 * i + 2) := by
  interval_cases i <;> exact ⟨rfl, rfl, rfl⟩

theorem sseExpand_at (a b c : Reg) {i : Nat} (h : i < 16) :
    let e := sseExpand a b c
    cat 16 [e.1, e.2.1, e.2.2.1, e.2.2.2] (4 * i) = cat 16 [a, b, c] (3 * i) ∧
    cat 16 [e.1, e.2.1, e.2.2.1, e.2.2.2] (4 * i + 1) = cat 16 [a, b, c] (3 * i + 1) ∧
    cat 16 [e.1, e.2.1, e.2.2.1, e.2.2.2] (4 * i + 2) = cat 16 [a, b, c] (3 * i + 2) := by
  interval_cases i <;> exact ⟨rfl, rfl, rfl⟩

theorem fastLoad_at {n : Nat} {expand : Reg → Reg → Reg → Quad}
    (he : ∀ a b c i, i < n → let e := expand a b c
      cat n [e.1, e.2.1, e.2.2.1, e.2.2.2] (4 * i) = cat n [a, b, c] (3 * i) ∧
      cat n [e.1, e.2.1, e.2.2.1, e.2.2.2] (4 * i + 1) = cat n [a, b, c] (3 * i + 1) ∧
      cat n [e.1, e.2.1, e.2.2.1, e.2.2.2] (4 * i + 2) = cat n [a, b, c] (3 * i + 2))
    (ch : Channels) {l : Buf} {x0 : Nat} (hb : ∀ b ∈ l, b < 256) (hl : (x0 + n) * ch.count ≤ l.length) :
    ∃ c, fastLoad n expand ch l (x0 * ch.count) = .ok c ∧
      FastPx ch n c (fun j => red ch (rowPx l ch.count (x0 + j)))
        (fun j => green ch (rowPx l ch.count (x0 + j))) (fun j => blue ch (rowPx l ch.count (x0 + j))) := by
  have lt : ∀ i, l.getD i 0 < 256 := fun i => by
    rw [List.getD_eq_getElem?_getD]
    cases h : l[i]? with
    | none => simp
    | some v => simpa using hb v (List.mem_of_getElem? h)
  have e4 : ∀ j k, x0 * 4 + (4 * j + k) = (x0 + j) * 4 + k := fun j k => by omega
  have e3 : ∀ j k, x0 * 3 + (3 * j + k) = (x0 + j) * 3 + k := fun j k => by omega
  cases ch <;> simp only [Channels.count] at hl ⊢ <;>
    simp only [fastLoad, FastPx, red, green, blue]
  all_goals
    rw [load_ld (by omega), Outcome.bind_ok, load_ld (by omega), Outcome.bind_ok, load_ld (by omega),
      Outcome.bind_ok]
  case rgb | bgr =>
    refine ⟨_, rfl, fun j hj => ⟨?_, ?_, ?_, ?_⟩⟩
    · obtain ⟨h0, h1, h2⟩ := he (ld n l (x0 * 3)) (ld n l (x0 * 3 + n)) (ld n l (x0 * 3 + 2 * n)) j hj
      refine ⟨h0.trans ?_, h1.trans ?_, h2.trans ?_⟩ <;> dsimp only <;> rw [cat3 (by omega), rowPx_getD (by decide)]
      · exact congrArg (l.getD · 0) (e3 j 0)
      · exact congrArg (l.getD · 0) (e3 j 1)
      · exact congrArg (l.getD · 0) (e3 j 2)
    all_goals dsimp only; rw [rowPx_getD (by decide)]; exact lt _
  case rgba | bgra =>
    rw [load_ld (by omega), Outcome.bind_ok]
    refine ⟨_, rfl, fun j hj => ⟨⟨?_, ?_, ?_⟩, ?_, ?_, ?_⟩⟩
    · dsimp only; rw [cat4 (by omega), rowPx_getD (by decide)]
      exact congrArg (l.getD · 0) (e4 j 0)
    · dsimp only; rw [cat4 (by omega), rowPx_getD (by decide)]
      exact congrArg (l.getD · 0) (e4 j 1)
    · dsimp only; rw [cat4 (by omega), rowPx_getD (by decide)]
      exact congrArg (l.getD · 0) (e4 j 2)
    all_goals dsimp only; rw [rowPx_getD (by decide)]; exact lt _

theorem avg2_lt {a b : Nat} (ha : a < 256) (hb : b < 256) : Spec.avg2 a b < 256 := by
  unfold Spec.avg2; omega

theorem cat_avg (n : Nat) (c d : Quad) (i : Nat) (h : i < 4 * n) :
    cat n [(fastAvg c d).1, (fastAvg c d).2.1, (fastAvg c d).2.2.1, (fastAvg c d).2.2.2] i
      = Spec.avg2 (cat n [c.1, c.2.1, c.2.2.1, c.2.2.2] i) (cat n [d.1, d.2.1, d.2.2.1, d.2.2.2] i) := by
  unfold cat cat cat cat cat fastAvg avg8 Spec.avg2
  dsimp only
  by_cases h1 : i < n
  · simp only [h1, if_true]
  · by_cases h2 : i - n < n
    · simp only [h1, h2, if_true, if_false]
    · by_cases h3 : i - n - n < n
      · simp only [h1, h2, h3, if_true, if_false]
      · have h4 : i - n - n - n < n := by omega
        simp only [h1, h2, h3, h4, if_true, if_false]

theorem Trip.avg (h : Trip n c X Y Z) (h' : Trip n d X' Y' Z') :
    Trip n (fastAvg c d) (fun j => Spec.avg2 (X j) (X' j)) (fun j => Spec.avg2 (Y j) (Y' j))
      (fun j => Spec.avg2 (Z j) (Z' j)) := by
  intro j hj
  obtain ⟨⟨a1, a2, a3⟩, a4, a5, a6⟩ := h j hj
  obtain ⟨⟨b1, b2, b3⟩, b4, b5, b6⟩ := h' j hj
  refine ⟨⟨?_, ?_, ?_⟩, avg2_lt a4 b4, avg2_lt a5 b5, avg2_lt a6 b6⟩
  · rw [cat_avg _ _ _ _ (by omega), a1, b1]
  · rw [cat_avg _ _ _ _ (by omega), a2, b2]
  · rw [cat_avg _ _ _ _ (by omega), a3, b3]

theorem FastPx.avg (h : FastPx ch n c R G B) (h' : FastPx ch n d R' G' B') :
    FastPx ch n (fastAvg c d) (fun j => Spec.avg2 (R j) (R' j)) (fun j => Spec.avg2 (G j) (G' j))
      (fun j => Spec.avg2 (B j) (B' j)) := by
  cases ch <;> exact Trip.avg h h'

/-! ## The words -/

/-- The weights are bytes and no sum of two products saturates. -/
def FastFits (k : Int × Int × Int) : Prop :=
  (-128 ≤ k.1 ∧ k.1 ≤ 127) ∧ (-128 ≤ k.2.1 ∧ k.2.1 ≤ 127) ∧ (-128 ≤ k.2.2 ∧ k.2.2 ≤ 127) ∧
  (255 * (max 0 k.1 + max 0 k.2.1) ≤ 32767 ∧ -32768 ≤ 255 * (min 0 k.1 + min 0 k.2.1)) ∧
  (255 * (max 0 k.2.2 + max 0 k.2.1) ≤ 32767 ∧ -32768 ≤ 255 * (min 0 k.2.2 + min 0 k.2.1))
instance (k : Int × Int × Int) : Decidable (FastFits k) := inferInstanceAs (Decidable (_ ∧ _))

theorem fastFits (rg : YuvRange) (m : Matrix) :
    FastFits (kLuma (searchForward 7 8 rg m)) ∧ FastFits (kCb (searchForward 7 8 rg m)) ∧
    FastFits (kCr (searchForward 7 8 rg m)) := by
  cases rg <;> cases m <;> decide +kernel

theorem asI8_asU8 {x : Int} (h : -128 ≤ x) (h' : x ≤ 127) : asI8 ((asU8 x : Nat) : Int) = x := by
  unfold asI8 asU8; omega

/-- A word of two pixels' weighted sums; the first two weights, then the third. -/
theorem fastWords_at {w : Reg} {k1 k2 k3 : Int} (hw : ∀ j, asI8 (w (4 * j)) = k1 ∧ asI8 (w (4 * j + 1)) = k2 ∧
      asI8 (w (4 * j + 2)) = k3 ∧ asI8 (w (4 * j + 3)) = 0)
    (h3 : -128 ≤ k3 ∧ k3 ≤ 127)
    (h12 : 255 * (max 0 k1 + max 0 k2) ≤ 32767 ∧ -32768 ≤ 255 * (min 0 k1 + min 0 k2))
    {a b : Reg} {bias q x y z : Nat} (hx' : x < 256) (hy' : y < 256) (hz' : z < 256)
    (h : (if q % 8 < 4 then a else b) (4 * (q / 8 * 4 + q % 4)) = x ∧
      (if q % 8 < 4 then a else b) (4 * (q / 8 * 4 + q % 4) + 1) = y ∧
      (if q % 8 < 4 then a else b) (4 * (q / 8 * 4 + q % 4) + 2) = z) :
    s16 (fastWords bias w a b) q = asI16 (x * k1 + y * k2 + z * k3 + (bias * 128 + 63)) / 128 := by
  have key : ∀ r : Reg, (if q % 8 < 4 then maddubs a w else maddubs b w) = maddubs r w →
      r (4 * (q / 8 * 4 + q % 4)) = x → r (4 * (q / 8 * 4 + q % 4) + 1) = y →
      r (4 * (q / 8 * 4 + q % 4) + 2) = z →
      s16 (fastWords bias w a b) q = asI16 (x * k1 + y * k2 + z * k3 + (bias * 128 + 63)) / 128 := by
    intro r er hx hy hz
    obtain ⟨w1, w2, w3, w4⟩ := hw (q / 8 * 4 + q % 4)
    have m1 := mul_between_nat (k := k1) (show x ≤ 255 by omega)
    have m2 := mul_between_nat (k := k2) (show y ≤ 255 by omega)
    have m3 := mul_between_nat (k := k3) (show z ≤ 255 by omega)
    have e1 : s16 (maddubs r w) (q / 8 * 8 + q % 4 * 2) = x * k1 + y * k2 := by
      rw [maddubs, s16_mk16, show 2 * (q / 8 * 8 + q % 4 * 2) = 4 * (q / 8 * 4 + q % 4) by omega, w1, w2,
        hx, hy]
      generalize (x : Int) * k1 = X at *
      generalize (y : Int) * k2 = Y at *
      unfold satI16 asI16; push_cast at *; omega
    have e2 : s16 (maddubs r w) (q / 8 * 8 + q % 4 * 2 + 1) = z * k3 := by
      rw [maddubs, s16_mk16, show 2 * (q / 8 * 8 + q % 4 * 2 + 1) = 4 * (q / 8 * 4 + q % 4) + 2 by omega,
        show 4 * (q / 8 * 4 + q % 4) + 2 + 1 = 4 * (q / 8 * 4 + q % 4) + 3 by omega, w3, w4, hz,
        Int.mul_zero]
      generalize (z : Int) * k3 = Z at *
      unfold satI16 asI16; push_cast at *; omega
    rw [fastWords, s16_srai16, s16_add, s16_set1, hadd16, s16_mk16]
    dsimp only
    rw [er, e1, e2, fastBias]
    generalize (x : Int) * k1 = X at *
    generalize (y : Int) * k2 = Y at *
    generalize (z : Int) * k3 = Z at *
    unfold asI16; norm_num; omega
  by_cases c : q % 8 < 4
  · simp only [c, if_true] at h key
    exact key a rfl h.1 h.2.1 h.2.2
  · simp only [c, if_false] at h key
    exact key b rfl h.1 h.2.1 h.2.2

/-- The same for weights and components in the order of the channels. -/
theorem fastWords_px {ch : Channels} {k : Int × Int × Int} (hk : FastFits k) {a b : Reg}
    {bias q r g bl : Nat} (hr : r < 256) (hg : g < 256) (hb : bl < 256)
    (h : match ch with
      | .rgb | .rgba => (if q % 8 < 4 then a else b) (4 * (q / 8 * 4 + q % 4)) = r ∧
        (if q % 8 < 4 then a else b) (4 * (q / 8 * 4 + q % 4) + 1) = g ∧
        (if q % 8 < 4 then a else b) (4 * (q / 8 * 4 + q % 4) + 2) = bl
      | .bgr | .bgra => (if q % 8 < 4 then a else b) (4 * (q / 8 * 4 + q % 4)) = bl ∧
        (if q % 8 < 4 then a else b) (4 * (q / 8 * 4 + q % 4) + 1) = g ∧
        (if q % 8 < 4 then a else b) (4 * (q / 8 * 4 + q % 4) + 2) = r) :
    satU8 (s16 (fastWords bias (fastWeights ch k) a b) q) = fastVal bias k.1 k.2.1 k.2.2 r g bl := by
  obtain ⟨k1, k2, k3, h1, h2⟩ := hk
  have idx : ∀ j, 4 * j % 4 = 0 ∧ (4 * j + 1) % 4 = 1 ∧ (4 * j + 2) % 4 = 2 ∧ (4 * j + 3) % 4 = 3 :=
    fun j => by omega
  have z0 : asI8 ((asU8 0 : Nat) : Int) = 0 := by decide
  refine congrArg byteSat ?_
  have sw : (r : Int) * k.1 + g * k.2.1 + bl * k.2.2 + (bias * 128 + 63)
      = bl * k.2.2 + g * k.2.1 + r * k.1 + (bias * 128 + 63) := by omega
  cases ch <;> dsimp only at h
  case rgb | rgba =>
    refine fastWords_at (fun j => ?_) k3 h1 hr hg hb h
    obtain ⟨i0, i1, i2, i3⟩ := idx j
    simp only [fastWeights, i0, i1, i2, i3]
    exact ⟨asI8_asU8 k1.1 k1.2, asI8_asU8 k2.1 k2.2, asI8_asU8 k3.1 k3.2, z0⟩
  case bgr | bgra =>
    rw [sw]
    refine fastWords_at (fun j => ?_) k1 h2 hb hg hr h
    obtain ⟨i0, i1, i2, i3⟩ := idx j
    simp only [fastWeights, i0, i1, i2, i3]
    exact ⟨asI8_asU8 k3.1 k3.2, asI8_asU8 k2.1 k2.2, asI8_asU8 k1.1 k1.2, z0⟩

/-! ## The bytes -/

theorem FastPx.lt (h : FastPx ch n c R G B) (hj : j < n) : R j < 256 ∧ G j < 256 ∧ B j < 256 := by
  cases ch <;> obtain ⟨_, a, b, c⟩ := h j hj <;> refine ⟨?_, ?_, ?_⟩ <;> assumption

/-- Which word of the two registers a byte comes from after `avx2_pack_u16` of permuted registers. -/
theorem avx2Pack_at (a b : Reg) {i : Nat} (hi : i < 32) :
    avx2PackU16 (permute4x64 0xD8 a) (permute4x64 0xD8 b) i
      = satU8 (s16 (if i < 16 then a else b) (i % 16 / 4 % 2 * 8 + i % 16 / 8 * 4 + i % 4)) := by
  interval_cases i <;> rfl

theorem ssePack_at (a b : Reg) {i : Nat} (hi : i < 16) :
    packus16 a b i = satU8 (s16 (if i < 8 then a else b) (i % 8)) := by
  interval_cases i <;> rfl

theorem avx2FastBytes_at (hk : FastFits k) (hc : FastPx ch 32 c R G B) {i : Nat} (hi : i < 32) :
    avx2FastBytes ch bias k c i = fastVal bias k.1 k.2.1 k.2.2 (R i) (G i) (B i) := by
  obtain ⟨hr, hg, hb⟩ := hc.lt hi
  unfold avx2FastBytes
  rw [avx2Pack_at _ _ hi]
  by_cases h : i < 16
  · rw [if_pos h]
    refine fastWords_px hk hr hg hb ?_
    cases ch <;> have e := (hc i hi).1 <;> dsimp only <;> interval_cases i <;> exact e
  · rw [if_neg h]
    refine fastWords_px hk hr hg hb ?_
    cases ch <;> have e := (hc i hi).1 <;> dsimp only <;> interval_cases i <;> exact e

theorem sseFastBytes_at (hk : FastFits k) (hc : FastPx ch 16 c R G B) {i : Nat} (hi : i < 16) :
    sseFastBytes ch bias k c i = fastVal bias k.1 k.2.1 k.2.2 (R i) (G i) (B i) := by
  obtain ⟨hr, hg, hb⟩ := hc.lt hi
  unfold sseFastBytes
  rw [ssePack_at _ _ hi]
  by_cases h : i < 8
  · rw [if_pos h]
    refine fastWords_px hk hr hg hb ?_
    cases ch <;> have e := (hc i hi).1 <;> dsimp only <;> interval_cases i <;> exact e
  · rw [if_neg h]
    refine fastWords_px hk hr hg hb ?_
    cases ch <;> have e := (hc i hi).1 <;> dsimp only <;> interval_cases i <;> exact e

/-! ## Pairs -/

theorem avx2Half_at (c : Quad) {i k : Nat} (hi : i < 16) (hk : k < 3) :
    cat 32 [insertHi (avx2Half c.1) (avx2Half c.2.1), insertHi (avx2Half c.2.2.1) (avx2Half c.2.2.2)]
        (4 * i + k)
      = Spec.avg2 (cat 32 [c.1, c.2.1, c.2.2.1, c.2.2.2] (4 * (2 * i) + k))
        (cat 32 [c.1, c.2.1, c.2.2.1, c.2.2.2] (4 * (2 * i + 1) + k)) := by
  interval_cases i <;> interval_cases k <;> rfl

theorem sseHalf_at (c : Quad) {i k : Nat} (hi : i < 8) (hk : k < 3) :
    cat 16 [unpacklo 8 (sseHalf c.1) (sseHalf c.2.1), unpacklo 8 (sseHalf c.2.2.1) (sseHalf c.2.2.2)]
        (4 * i + k)
      = Spec.avg2 (cat 16 [c.1, c.2.1, c.2.2.1, c.2.2.2] (4 * (2 * i) + k))
        (cat 16 [c.1, c.2.1, c.2.2.1, c.2.2.2] (4 * (2 * i + 1) + k)) := by
  interval_cases i <;> interval_cases k <;> rfl

theorem avx2FastPairs_at (hk : FastFits k) (hc : FastPx ch 32 c R G B) {i : Nat} (hi : i < 16) :
    avx2FastPairs ch bias k c i = fastVal bias k.1 k.2.1 k.2.2 (Spec.avg2 (R (2 * i)) (R (2 * i + 1)))
      (Spec.avg2 (G (2 * i)) (G (2 * i + 1))) (Spec.avg2 (B (2 * i)) (B (2 * i + 1))) := by
  obtain ⟨hr, hg, hb⟩ := hc.lt (show 2 * i < 32 by omega)
  obtain ⟨hr', hg', hb'⟩ := hc.lt (show 2 * i + 1 < 32 by omega)
  unfold avx2FastPairs
  rw [avx2Pack_at _ _ (by omega), if_pos hi]
  refine fastWords_px hk (avg2_lt hr hr') (avg2_lt hg hg') (avg2_lt hb hb') ?_
  have a0 := avx2Half_at c (k := 0) hi (by decide)
  have a1 := avx2Half_at c (k := 1) hi (by decide)
  have a2 := avx2Half_at c (k := 2) hi (by decide)
  revert a0 a1 a2
  generalize insertHi (avx2Half c.1) (avx2Half c.2.1) = p
  generalize insertHi (avx2Half c.2.2.1) (avx2Half c.2.2.2) = q
  intro a0 a1 a2
  cases ch <;> obtain ⟨d0, d1, d2⟩ := (hc (2 * i) (by omega)).1 <;>
    obtain ⟨f0, f1, f2⟩ := (hc (2 * i + 1) (by omega)).1 <;> dsimp only <;>
    simp only [Nat.add_zero, d0, f0] at a0 <;> rw [d1, f1] at a1 <;> rw [d2, f2] at a2 <;>
    clear d0 d1 d2 f0 f1 f2 <;>
    interval_cases i <;> exact ⟨a0, a1, a2⟩

theorem sseFastPairs_at (hk : FastFits k) (hc : FastPx ch 16 c R G B) {i : Nat} (hi : i < 8) :
    sseFastPairs ch bias k c i = fastVal bias k.1 k.2.1 k.2.2 (Spec.avg2 (R (2 * i)) (R (2 * i + 1)))
      (Spec.avg2 (G (2 * i)) (G (2 * i + 1))) (Spec.avg2 (B (2 * i)) (B (2 * i + 1))) := by
  obtain ⟨hr, hg, hb⟩ := hc.lt (show 2 * i < 16 by omega)
  obtain ⟨hr', hg', hb'⟩ := hc.lt (show 2 * i + 1 < 16 by omega)
  unfold sseFastPairs
  rw [ssePack_at _ _ (by omega), if_pos hi]
  refine fastWords_px hk (avg2_lt hr hr') (avg2_lt hg hg') (avg2_lt hb hb') ?_
  have a0 := sseHalf_at c (k := 0) hi (by decide)
  have a1 := sseHalf_at c (k := 1) hi (by decide)
  have a2 := sseHalf_at c (k := 2) hi (by decide)
  revert a0 a1 a2
  generalize unpacklo 8 (sseHalf c.1) (sseHalf c.2.1) = p
  generalize unpacklo 8 (sseHalf c.2.2.1) (sseHalf c.2.2.2) = q
  intro a0 a1 a2
  cases ch <;> obtain ⟨d0, d1, d2⟩ := (hc (2 * i) (by omega)).1 <;>
    obtain ⟨f0, f1, f2⟩ := (hc (2 * i + 1) (by omega)).1 <;> dsimp only <;>
    simp only [Nat.add_zero, d0, f0] at a0 <;> rw [d1, f1] at a1 <;> rw [d2, f2] at a2 <;>
    clear d0 d1 d2 f0 f1 f2 <;>
    interval_cases i <;> exact ⟨a0, a1, a2⟩

/-! ## The steps -/

/-- The registers hold the `n` pixels `p`. -/
def QuadPx (ch : Channels) (n : Nat) (c : Quad) (p : Nat → Buf) : Prop :=
  FastPx ch n c (fun j => red ch (p j)) (fun j => green ch (p j)) (fun j => blue ch (p j))

theorem avx2Fast_ok (ch : Channels) (rg : YuvRange) (m : Matrix) :
    PartOk (avx2Fast ch (getYuvRange 8 rg) (searchForward 7 8 rg m)) ch (fastVals ch rg m)
      (QuadPx ch 32) := by
  obtain ⟨fy, fu, fv⟩ := fastFits rg m
  unfold fastVals fastCb fastCr avx2Fast
  generalize searchForward 7 8 rg m = t at *
  generalize getYuvRange 8 rg = y at *
  constructor <;> dsimp only
  · decide
  · decide
  · exact fun src x0 hb hl => fastLoad_at (fun a b c i h => avx2Expand_at a b c h) ch hb hl
  · exact fun c p hc i hi => avx2FastBytes_at fy hc hi
  · exact fun c p hc i hi => avx2FastBytes_at fu hc hi
  · exact fun c p hc i hi => avx2FastBytes_at fv hc hi
  · exact fun c p hc i hi => avx2FastPairs_at fu hc hi
  · exact fun c p hc i hi => avx2FastPairs_at fv hc hi
  · exact fun c p d r hc hd i hi => avx2FastPairs_at fu (FastPx.avg hc hd) hi
  · exact fun c p d r hc hd i hi => avx2FastPairs_at fv (FastPx.avg hc hd) hi
  · exact avx2Interleave2_low
  · exact avx2Interleave2_bytes

theorem sseFast_ok (ch : Channels) (rg : YuvRange) (m : Matrix) :
    PartOk (sseFast ch (getYuvRange 8 rg) (searchForward 7 8 rg m)) ch (fastVals ch rg m)
      (QuadPx ch 16) := by
  obtain ⟨fy, fu, fv⟩ := fastFits rg m
  unfold fastVals fastCb fastCr sseFast
  generalize searchForward 7 8 rg m = t at *
  generalize getYuvRange 8 rg = y at *
  constructor <;> dsimp only
  · decide
  · decide
  · exact fun src x0 hb hl => fastLoad_at (fun a b c i h => sseExpand_at a b c h) ch hb hl
  · exact fun c p hc i hi => sseFastBytes_at fy hc hi
  · exact fun c p hc i hi => sseFastBytes_at fu hc hi
  · exact fun c p hc i hi => sseFastBytes_at fv hc hi
  · exact fun c p hc i hi => sseFastPairs_at fu hc hi
  · exact fun c p hc i hi => sseFastPairs_at fv hc hi
  · exact fun c p d r hc hd i hi => sseFastPairs_at fu (FastPx.avg hc hd) hi
  · exact fun c p d r hc hd i hi => sseFastPairs_at fv (FastPx.avg hc hd) hi
  · exact sseInterleave2_low
  · exact sseInterleave2_bytes

end Verif.X86
