import Verif.Spec.DeepEncode
import Verif.Model.DeepFromRgba
import Verif.Lemmas.EncodeBlocks
import Verif.Lemmas.DeepFrames
import Verif.Props.EncodeArith
/-!
# Lemmas for the high-bit-depth encoders
-/
namespace Verif
open Spec

/-- The four depths of the high-bit-depth formats. -/
def Deep (d : Nat) : Prop := d = 10 ∨ d = 12 ∨ d = 14 ∨ d = 16

theorem Deep.depth {d : Nat} (h : Deep d) : Depth d := by unfold Deep at h; unfold Depth; omega
theorem Deep.le16 {d : Nat} (h : Deep d) : d ≤ 16 := by unfold Deep at h; omega

/-- The one configuration whose luma does not fit in 32 bits. -/
def Overflows (d : Nat) (rg : YuvRange) (m : Matrix) : Prop := d = 16 ∧ rg = .full ∧ m = .bt601
instance (d : Nat) (rg : YuvRange) (m : Matrix) : Decidable (Overflows d rg m) := by
  unfold Overflows; infer_instance

theorem corner {k mx : Int} {r : Nat} (hr : (r : Int) ≤ mx) :
    mx * min k 0 ≤ (r : Int) * k ∧ (r : Int) * k ≤ mx * max k 0 := by
  rcases Int.le_total k 0 with h | h
  · have h1 : (mx - (r : Int)) * k ≤ 0 := Int.mul_nonpos_of_nonneg_of_nonpos (by omega) h
    have h2 : (r : Int) * k ≤ 0 := Int.mul_nonpos_of_nonneg_of_nonpos (by omega) h
    rw [Int.sub_mul] at h1
    rw [Int.min_eq_left h, Int.max_eq_right h]; omega
  · have h1 : 0 ≤ (mx - (r : Int)) * k := Int.mul_nonneg (by omega) h
    have h2 : 0 ≤ (r : Int) * k := Int.mul_nonneg (by omega) h
    rw [Int.sub_mul] at h1
    rw [Int.min_eq_right h, Int.max_eq_left h]; omega

/-- One row of the forward transform at depth `d`: every intermediate fits in 32 bits and the
result in `d` bits, at the two corners of the RGB cube that minimise and maximise it. -/
structure DeepRow (p d : Nat) (k1 k2 k3 bias : Int) : Prop where
  b0 : 0 ≤ bias
  lo32 : -2147483648 ≤ (2 ^ d - 1) * (min k1 0 + min k2 0 + min k3 0)
  hi32 : (2 ^ d - 1) * (max k1 0 + max k2 0 + max k3 0) + bias ≤ 2147483647
  lo : 0 ≤ ((2 ^ d - 1) * (min k1 0 + min k2 0 + min k3 0) + bias) / 2 ^ p
  hi : ((2 ^ d - 1) * (max k1 0 + max k2 0 + max k3 0) + bias) / 2 ^ p < 2 ^ d

instance (p d : Nat) (k1 k2 k3 bias : Int) : Decidable (DeepRow p d k1 k2 k3 bias) :=
  decidable_of_iff (0 ≤ bias ∧ -2147483648 ≤ (2 ^ d - 1) * (min k1 0 + min k2 0 + min k3 0) ∧
    (2 ^ d - 1) * (max k1 0 + max k2 0 + max k3 0) + bias ≤ 2147483647 ∧
    0 ≤ ((2 ^ d - 1) * (min k1 0 + min k2 0 + min k3 0) + bias) / 2 ^ p ∧
    ((2 ^ d - 1) * (max k1 0 + max k2 0 + max k3 0) + bias) / 2 ^ p < 2 ^ d)
    ⟨fun ⟨a, b, c, d, e⟩ => ⟨a, b, c, d, e⟩, fun ⟨a, b, c, d, e⟩ => ⟨a, b, c, d, e⟩⟩

theorem deepRow_ok {p d : Nat} {k1 k2 k3 bias : Int} (h : DeepRow p d k1 k2 k3 bias) {r g b : Nat}
    (hr : r < 2 ^ d) (hg : g < 2 ^ d) (hb : b < 2 ^ d) :
    encodeSum p k1 k2 k3 bias r g b = .ok (encPure p k1 k2 k3 bias r g b) ∧
    0 ≤ encPure p k1 k2 k3 bias r g b ∧ encPure p k1 k2 k3 bias r g b < 2 ^ d := by
  have cast : ∀ x : Nat, x < 2 ^ d → (x : Int) ≤ 2 ^ d - 1 := by
    intro x hx; have : (x : Int) < 2 ^ d := by exact_mod_cast hx
    omega
  obtain ⟨a1, a2⟩ := corner (k := k1) (cast r hr)
  obtain ⟨a3, a4⟩ := corner (k := k2) (cast g hg)
  obtain ⟨a5, a6⟩ := corner (k := k3) (cast b hb)
  have m0 : (0 : Int) ≤ 2 ^ d - 1 := by have := cast r hr; omega
  have n1 : ∀ k : Int, (2 ^ d - 1) * min k 0 ≤ 0 := fun k =>
    Int.mul_nonpos_of_nonneg_of_nonpos m0 (by omega)
  have n2 : ∀ k : Int, 0 ≤ (2 ^ d - 1) * max k 0 := fun k => Int.mul_nonneg m0 (by omega)
  have h1 := h.b0; have h2 := h.lo32; have h3 := h.hi32; have h4 := h.lo; have h5 := h.hi
  rw [Int.mul_add, Int.mul_add] at h2 h3 h4 h5
  have x1 := n1 k1; have x2 := n1 k2; have x3 := n1 k3
  have z1 := n2 k1; have z2 := n2 k2; have z3 := n2 k3
  have hp := one_le_two_pow p
  refine ⟨?_, ?_, ?_⟩
  · unfold encodeSum encPure
    rw [mul32_ok (by omega) (by omega), Outcome.bind_ok,
      mul32_ok (by omega) (by omega), Outcome.bind_ok,
      add32_ok (by omega) (by omega), Outcome.bind_ok,
      mul32_ok (by omega) (by omega), Outcome.bind_ok,
      add32_ok (by omega) (by omega), Outcome.bind_ok,
      add32_ok (by omega) (by omega), Outcome.bind_ok, Outcome.pure_eq, sar]
  · refine Int.le_trans h4 ?_
    unfold encPure
    apply Int.ediv_le_ediv (by omega); omega
  · refine Int.lt_of_le_of_lt ?_ h5
    unfold encPure
    apply Int.ediv_le_ediv (by omega); omega

theorem deepRows {d : Nat} (hd : Deep d) (rg : YuvRange) (m : Matrix) (ho : ¬ Overflows d rg m) :
    let t := computedForward 15 d rg m
    let c := getYuvRange d rg
    DeepRow 15 d t.yr t.yg t.yb (encodeBias 15 c.biasY) ∧
    DeepRow 15 d t.cbR t.cbG t.cbB (encodeBias 15 c.biasUv) ∧
    DeepRow 15 d t.crR t.crG t.crB (encodeBias 15 c.biasUv) := by
  have h : ∀ d ∈ [10, 12, 14, 16], ∀ m ∈ allMatrix, ∀ rg ∈ allRange, ¬ Overflows d rg m →
      let t := computedForward 15 d rg m
      let c := getYuvRange d rg
      DeepRow 15 d t.yr t.yg t.yb (encodeBias 15 c.biasY) ∧
      DeepRow 15 d t.cbR t.cbG t.cbB (encodeBias 15 c.biasUv) ∧
      DeepRow 15 d t.crR t.crG t.crB (encodeBias 15 c.biasUv) := by decide +kernel
  exact h d (by rcases hd with rfl | rfl | rfl | rfl <;> simp) m (mem_allMatrix m) rg
    (mem_allRange rg) ho

theorem castI16_id {d : Nat} (hd : d = 10 ∨ d = 12) (rg : YuvRange) (m : Matrix) :
    (computedForward 15 d rg m).castI16 = computedForward 15 d rg m := by
  have h : ∀ d ∈ [10, 12], ∀ m ∈ allMatrix, ∀ rg ∈ allRange,
      (computedForward 15 d rg m).castI16 = computedForward 15 d rg m := by decide +kernel
  exact h d (by rcases hd with rfl | rfl <;> simp) m (mem_allMatrix m) rg (mem_allRange rg)

/-- Storing a value of `d` bits. -/
theorem transformInteger_eq (e : Endianness) (bp : BytesPacking) {d : Nat} (hd : Deep d) {v : Int}
    (h0 : 0 ≤ v) (h1 : v < 2 ^ d) : transformInteger e bp d v = wordOf e bp d v.toNat := by
  obtain ⟨n, rfl⟩ := Int.eq_ofNat_of_zero_le h0
  have hsw : ∀ w : Nat, w < 65536 → swap16 w = 256 * (w % 256) + w / 256 := by
    intro w hw; unfold swap16; omega
  have hl : asU16 (n : Int) = n ∧ n < 65536 := by
    unfold asU16
    rcases hd with rfl | rfl | rfl | rfl <;> norm_num at h1 <;> omega
  have hm : asU16 ((n : Int) * 2 ^ (16 - d)) = n * 2 ^ (16 - d) ∧ n * 2 ^ (16 - d) < 65536 := by
    unfold asU16
    rcases hd with rfl | rfl | rfl | rfl <;> norm_num at h1 ⊢ <;> omega
  cases e <;> cases bp <;>
    simp only [transformInteger, wordOf, fromEndian, Int.toNat_natCast, hl.1, hm.1, hsw _ hl.2,
      hsw _ hm.2]

/-- Reading back what was stored. -/
theorem native_wordOf (e : Endianness) (bp : BytesPacking) {d v : Nat} (hd : Deep d)
    (h : v < 2 ^ d) : nativeSample e bp d (wordOf e bp d v) = v := by
  have hl : v < 65536 := Nat.lt_of_lt_of_le h (Nat.pow_le_pow_right (by omega) hd.le16)
  have hm : v * 2 ^ (16 - d) < 65536 := by
    rcases hd with rfl | rfl | rfl | rfl <;> norm_num at h ⊢ <;> omega
  have hsw : ∀ w : Nat, w < 65536 →
      256 * ((256 * (w % 256) + w / 256) % 256) + (256 * (w % 256) + w / 256) / 256 = w := by
    intro w hw; omega
  have hdiv : v * 2 ^ (16 - d) / 2 ^ (16 - d) = v := Nat.mul_div_cancel _ (by positivity)
  cases e <;> cases bp <;> simp only [nativeSample, wordOf, hsw _ hl, hsw _ hm, hdiv]

theorem wordOf_lt (e : Endianness) (bp : BytesPacking) {d v : Nat} (hd : Deep d)
    (h : v < 2 ^ d) : wordOf e bp d v < 65536 := by
  have hl : v < 65536 := Nat.lt_of_lt_of_le h (Nat.pow_le_pow_right (by omega) hd.le16)
  have hm : v * 2 ^ (16 - d) < 65536 := by
    rcases hd with rfl | rfl | rfl | rfl <;> norm_num at h ⊢ <;> omega
  have hsw : ∀ w : Nat, w < 65536 → 256 * (w % 256) + w / 256 < 65536 := by
    intro w hw; omega
  cases e <;> cases bp <;> simp only [wordOf]
  · exact hsw _ hm
  · exact hsw _ hl
  · exact hm
  · exact hl

/-- Luma, Cb and Cr are samples of depth `d`. -/
theorem deepVals {d : Nat} (hd : Deep d) (rg : YuvRange) (m : Matrix) (ho : ¬ Overflows d rg m)
    {r g b : Nat} (hr : r < 2 ^ d) (hg : g < 2 ^ d) (hb : b < 2 ^ d) :
    (0 ≤ lumaVal 15 d rg m r g b ∧ lumaVal 15 d rg m r g b < 2 ^ d) ∧
    (0 ≤ cbVal 15 d rg m r g b ∧ cbVal 15 d rg m r g b < 2 ^ d) ∧
    (0 ≤ crVal 15 d rg m r g b ∧ crVal 15 d rg m r g b < 2 ^ d) := by
  obtain ⟨h1, h2, h3⟩ := deepRows hd rg m ho
  have e := c06_searchForward 15 d (by unfold Prec; omega) hd.depth rg m
  unfold lumaVal cbVal crVal
  rw [e]
  exact ⟨(deepRow_ok h1 hr hg hb).2, (deepRow_ok h2 hr hg hb).2, (deepRow_ok h3 hr hg hb).2⟩

theorem deepLuma_closed (e : Endianness) (bp : BytesPacking) {d : Nat} (hd : Deep d) (rg : YuvRange)
    (m : Matrix) (ho : ¬ Overflows d rg m) (r g b : Nat) (hr : r < 2 ^ d) (hg : g < 2 ^ d)
    (hb : b < 2 ^ d) :
    lumaOf (transformInteger e bp d) 15 (computedForward 15 d rg m) (getYuvRange d rg).biasY
      ((r : Int), (g : Int), (b : Int)) = .ok (wordOf e bp d (lumaVal 15 d rg m r g b).toNat) := by
  obtain ⟨h1, -, -⟩ := deepRows hd rg m ho
  obtain ⟨e1, e2, e3⟩ := deepRow_ok h1 hr hg hb
  have es := c06_searchForward 15 d (by unfold Prec; omega) hd.depth rg m
  have e1' : encodeY 15 (computedForward 15 d rg m) (getYuvRange d rg).biasY r g b = _ := e1
  unfold lumaOf
  rw [e1']
  simp only [Outcome.bind_ok]
  rw [transformInteger_eq e bp hd e2 e3]
  unfold lumaVal
  rw [es]
  rfl

theorem deepChroma_closed (e : Endianness) (bp : BytesPacking) {d : Nat} (hd : Deep d)
    (rg : YuvRange) (m : Matrix) (ho : ¬ Overflows d rg m) (r g b : Nat) (hr : r < 2 ^ d)
    (hg : g < 2 ^ d) (hb : b < 2 ^ d) :
    chromaOf (transformInteger e bp d) 15 (computedForward 15 d rg m) (getYuvRange d rg).biasUv
      (r : Int) (g : Int) (b : Int) = .ok (wordOf e bp d (cbVal 15 d rg m r g b).toNat,
        wordOf e bp d (crVal 15 d rg m r g b).toNat) := by
  obtain ⟨-, h1, h2⟩ := deepRows hd rg m ho
  obtain ⟨e1, e2, e3⟩ := deepRow_ok h1 hr hg hb
  obtain ⟨f1, f2, f3⟩ := deepRow_ok h2 hr hg hb
  have es := c06_searchForward 15 d (by unfold Prec; omega) hd.depth rg m
  have e1' : encodeCb 15 (computedForward 15 d rg m) (getYuvRange d rg).biasUv r g b = _ := e1
  have f1' : encodeCr 15 (computedForward 15 d rg m) (getYuvRange d rg).biasUv r g b = _ := f1
  unfold chromaOf
  rw [e1', f1']
  simp only [Outcome.bind_ok]
  rw [transformInteger_eq e bp hd e2 e3, transformInteger_eq e bp hd f2 f3]
  unfold cbVal crVal
  rw [es]
  rfl

/-- The scalar values of the high-bit-depth encoders. -/
abbrev deepFun (bug11 : Bool) (e : Endianness) (bp : BytesPacking) (d : Nat) (ch : Channels)
    (rg : YuvRange) (m : Matrix) : EncFun :=
  linFun 1 bug11 ch (fun r g b => wordOf e bp d (lumaVal 15 d rg m r g b).toNat)
    (fun r g b => wordOf e bp d (cbVal 15 d rg m r g b).toNat)
    (fun r g b => wordOf e bp d (crVal 15 d rg m r g b).toNat)

theorem deep_blocks (bug11 : Bool) (e : Endianness) (bp : BytesPacking) {d : Nat} (hd : Deep d)
    (ch : Channels) (rg : YuvRange) (m : Matrix) (ho : ¬ Overflows d rg m) :
    BlocksOk (linBlocks (transformInteger e bp d) 1 bug11 15 (computedForward 15 d rg m)
      (getYuvRange d rg) ch) (2 ^ d) ch.count (deepFun bug11 e bp d ch rg m) :=
  linBlocks_ok (rnd := 1) (Nat.le_refl 1) (show 2 ^ d ≤ 65536 from Nat.pow_le_pow_right (by omega) hd.le16)
    (deepLuma_closed e bp hd rg m ho) (deepChroma_closed e bp hd rg m ho)

end Verif
