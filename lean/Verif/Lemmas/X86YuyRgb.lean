import Verif.Model.X86YuyRgb
import Verif.Lemmas.X86Yuy2Unpack
import Verif.Lemmas.X86Alpha
import Verif.Lemmas.Remainder
/-! # The vector code of the packed 4:2:2 decoders -/
namespace Verif.X86
open Spec

/-! ## Arithmetic -/

/-- Coefficients for which the 16-bit arithmetic of the kernels is exact up to saturation. -/
def Coef6 (t : InvCoef) : Prop :=
  (0 ≤ t.y ∧ t.y ≤ 80) ∧ (0 ≤ t.cr ∧ t.cr ≤ 160) ∧ (0 ≤ t.cb ∧ t.cb ≤ 160) ∧
    (0 ≤ t.g1 ∧ t.g1 ≤ 100) ∧ (0 ≤ t.g2 ∧ t.g2 ≤ 100)

instance (t : InvCoef) : Decidable (Coef6 t) := by unfold Coef6; infer_instance

theorem coef6 (rg : YuvRange) (m : Matrix) : Coef6 (computedInverse 6 8 rg m) := by
  cases rg <;> cases m <;> decide +kernel

/-- Saturation of a sum shifted by 6 with ties down, as the kernels compute it. -/
theorem yuyRound_at {s : Reg} {k : Nat} {x : Int} (h : s16 s k = satI16 x) :
    satU8 (s16 (yuyRound s) k) = saturate 8 (roundShift (2 ^ 5 - 1) 6 x) := by
  have h0 : s16 zero k = 0 := by
    show asI16 ((0 + 256 * 0 : Nat) : Int) = 0; decide
  unfold yuyRound srai16 adds16 max16
  rw [s16_mk16, s16_mk16, s16_mk16, s16_set1, h, h0]
  unfold satU8 saturate roundShift satI16
  have e : ∀ z : Int, -32768 ≤ z → z ≤ 32767 → asI16 z = z := fun z h1 h2 => asI16_id h1 h2
  rw [e 31 (by omega) (by omega), e (max _ _) (by omega) (by omega), e (max _ _) (by omega) (by omega),
    e (_ / _) (by omega) (by omega)]
  omega

theorem satI16_id {x : Int} (h1 : -32768 ≤ x) (h2 : x ≤ 32767) : satI16 x = x := by
  unfold satI16; omega

theorem s16_mulc {a : Reg} {k : Nat} {x c : Int} (ha : s16 a k = x) (hc : -32768 ≤ c ∧ c ≤ 32767)
    (h1 : -32768 ≤ x * c) (h2 : x * c ≤ 32767) : s16 (mullo16 a (set1_16 c)) k = x * c := by
  rw [mullo16, s16_mk16, ha, s16_set1, asI16_id hc.1 hc.2, asI16_id h1 h2]

theorem s16_adds {a b : Reg} {k : Nat} {x y : Int} (ha : s16 a k = x) (hb : s16 b k = y) :
    s16 (adds16 a b) k = satI16 (x + y) := by
  rw [adds16, s16_mk16, ha, hb, asI16_id (by unfold satI16; omega) (by unfold satI16; omega)]

theorem mulc_bounds {x c M N : Int} (hx : -M ≤ x ∧ x ≤ M) (hc : 0 ≤ c ∧ c ≤ N) (hM : 0 ≤ M) :
    -(M * N) ≤ x * c ∧ x * c ≤ M * N := by
  constructor
  · nlinarith [hx.1, hx.2, hc.1, hc.2, mul_nonneg hM hc.1, mul_nonneg hM (sub_nonneg.2 hc.2)]
  · nlinarith [hx.1, hx.2, hc.1, hc.2, mul_nonneg hM hc.1, mul_nonneg hM (sub_nonneg.2 hc.2)]

/-- One component of the pixels: `Y` above its offset, chroma before its offset. -/
def yuyR (t : InvCoef) (Y V : Int) : Int := Y * t.y + (V - 128) * t.cr
def yuyG (t : InvCoef) (Y U V : Int) : Int := Y * t.y + ((V - 128) * (-t.g1) + (U - 128) * (-t.g2))
def yuyB (t : InvCoef) (Y U : Int) : Int := Y * t.y + (U - 128) * t.cb

/-- What becomes of a sum. -/
def yuySat (x : Int) : Nat := saturate 8 (roundShift (2 ^ 5 - 1) 6 x)

theorem yuyWords_at {rg : ChromaRange} (hb : rg.biasUv = 128) {t : InvCoef} (ht : Coef6 t)
    {y u v : Reg} {k : Nat} {Y U V : Nat} (hY : Y < 256) (hU : U < 256) (hV : V < 256)
    (h1 : s16 y k = Y) (h2 : s16 u k = U) (h3 : s16 v k = V) :
    satU8 (s16 (yuyWords rg t y u v).1 k) = yuySat (yuyR t Y V) ∧
    satU8 (s16 (yuyWords rg t y u v).2.1 k) = yuySat (yuyG t Y U V) ∧
    satU8 (s16 (yuyWords rg t y u v).2.2 k) = yuySat (yuyB t Y U) := by
  obtain ⟨t1, t2, t3, t4, t5⟩ := ht
  have e : ∀ c : Int, 0 ≤ c → c ≤ 160 → asI16 c = c := fun c a b => asI16_id (by omega) (by omega)
  have hu : s16 (sub16 u (set1_16 (asI16 rg.biasUv))) k = (U : Int) - 128 := by
    rw [s16_sub, h2, s16_set1, hb,
      show asI16 (asI16 ((128 : Nat) : Int)) = 128 by decide]
    exact asI16_id (by omega) (by omega)
  have hv : s16 (sub16 v (set1_16 (asI16 rg.biasUv))) k = (V : Int) - 128 := by
    rw [s16_sub, h3, s16_set1, hb,
      show asI16 (asI16 ((128 : Nat) : Int)) = 128 by decide]
    exact asI16_id (by omega) (by omega)
  have by' := mulc_bounds (x := (Y : Int)) (M := 255) ⟨by omega, by omega⟩ t1 (by omega)
  have b1 := mulc_bounds (x := (V : Int) - 128) (M := 128) ⟨by omega, by omega⟩ t2 (by omega)
  have b2 := mulc_bounds (x := (U : Int) - 128) (M := 128) ⟨by omega, by omega⟩ t3 (by omega)
  have b3 := mulc_bounds (x := (V : Int) - 128) (M := 128) ⟨by omega, by omega⟩ t4 (by omega)
  have b4 := mulc_bounds (x := (U : Int) - 128) (M := 128) ⟨by omega, by omega⟩ t5 (by omega)
  have n3 : ((V : Int) - 128) * -t.g1 = -(((V : Int) - 128) * t.g1) := by ring
  have n4 : ((U : Int) - 128) * -t.g2 = -(((U : Int) - 128) * t.g2) := by ring
  simp only [yuyWords, e t.y t1.1 (by omega), e t.cr t2.1 t2.2, e t.cb t3.1 t3.2,
    e t.g1 t4.1 (by omega), e t.g2 t5.1 (by omega)]
  have my := s16_mulc h1 (c := t.y) ⟨by omega, by omega⟩ (by omega) (by omega)
  have mr := s16_mulc hv (c := t.cr) ⟨by omega, by omega⟩ (by omega) (by omega)
  have mb := s16_mulc hu (c := t.cb) ⟨by omega, by omega⟩ (by omega) (by omega)
  have mg1 := s16_mulc hv (c := -t.g1) ⟨by omega, by omega⟩ (by omega) (by omega)
  have mg2 := s16_mulc hu (c := -t.g2) ⟨by omega, by omega⟩ (by omega) (by omega)
  have mg := s16_adds mg1 mg2
  rw [satI16_id (by omega) (by omega)] at mg
  exact ⟨yuyRound_at (s16_adds my mr), yuyRound_at (s16_adds my mg), yuyRound_at (s16_adds my mb)⟩

/-! ## Pixels -/

/-- A pixel of the vector code. -/
def yuyVecPix (ch : Channels) (t : InvCoef) (Y U V : Nat) : Buf :=
  layout ch (yuySat (yuyR t Y V)) (yuySat (yuyG t Y U V)) (yuySat (yuyB t Y U)) 255

theorem yuyPixels {t : InvCoef} {r g b : Reg} {n : Nat} {Y U V : Nat → Nat}
    (h : ∀ i, i < n → r i = yuySat (yuyR t (Y i) (V i)) ∧ g i = yuySat (yuyG t (Y i) (U i) (V i)) ∧
      b i = yuySat (yuyB t (Y i) (U i))) (ch : Channels) :
    pixels ch n r g b (set1_8 255)
      = (List.range n).flatMap fun i => yuyVecPix ch t (Y i) (U i) (V i) := by
  apply range_flatMap_congr
  intro i hi
  obtain ⟨h1, h2, h3⟩ := h i hi
  rw [h1, h2, h3]
  rfl

theorem s16_widenLo {a : Reg} {k : Nat} (h : a k < 256) : s16 (widenLo a) k = (a k : Int) := by
  rw [widenLo, s16_mk16]; exact asI16_id (by omega) (by omega)
theorem s16_widenHi {a : Reg} {k : Nat} (h : a (16 + k) < 256) :
    s16 (widenHi a) k = (a (16 + k) : Int) := by
  rw [widenHi, s16_mk16]; exact asI16_id (by omega) (by omega)

theorem packus_at16 (a b : Reg) {i : Nat} (h : i < 16) :
    packus16 a b i = satU8 (if i < 8 then s16 a i else s16 b (i - 8)) := by
  unfold packus16
  by_cases h8 : i < 8
  · rw [if_pos (by omega), if_pos h8, show i / 16 * 8 + i % 8 = i by omega]
  · rw [if_neg (by omega), if_neg h8, show i / 16 * 8 + i % 8 = i - 8 by omega]

theorem avx2PackU16_at (a b : Reg) {i : Nat} (h : i < 32) :
    avx2PackU16 a b i = satU8 (if i < 16 then s16 a i else s16 b (i - 16)) := by
  have hj : 216 / 4 ^ (i / 8) % 4 * 8 + i % 8
      = if i < 8 then i else if i < 16 then i + 8 else if i < 24 then i - 8 else i := by
    have : ∀ i, i < 32 → 216 / 4 ^ (i / 8) % 4 * 8 + i % 8
      = if i < 8 then i else if i < 16 then i + 8 else if i < 24 then i - 8 else i := by decide
    exact this i h
  unfold avx2PackU16 permute4x64 packus16
  rw [hj]
  by_cases h1 : i < 8
  · rw [if_pos h1, if_pos (by omega), if_pos (by omega), show i / 16 * 8 + i % 8 = i by omega]
  rw [if_neg h1]
  by_cases h2 : i < 16
  · rw [if_pos h2, if_pos (by omega), if_pos h2, show (i + 8) / 16 * 8 + (i + 8) % 8 = i by omega]
  rw [if_neg h2, if_neg h2]
  by_cases h3 : i < 24
  · rw [if_pos h3, if_neg (by omega), show (i - 8) / 16 * 8 + (i - 8) % 8 = i - 16 by omega]
  · rw [if_neg h3, if_neg (by omega), show i / 16 * 8 + i % 8 = i - 16 by omega]

section
variable {rg : ChromaRange} (hb : rg.biasUv = 128) {t : InvCoef} (ht : Coef6 t)
include hb ht

theorem avx2YuyBlock_eq (ch : Channels) {y u v : Reg} {Y U V : Nat → Nat}
    (hy : ∀ i, i < 32 → y i = Y i ∧ Y i < 256) (hu : ∀ i, i < 32 → u i = U i ∧ U i < 256)
    (hv : ∀ i, i < 32 → v i = V i ∧ V i < 256) (p : Nat) (row : Buf) :
    avx2YuyBlock ch rg t y u v p row
      = put row p ((List.range 32).flatMap fun i => yuyVecPix ch t (Y i) (U i) (V i)) := by
  unfold avx2YuyBlock
  simp only []
  rw [avx2Store_eq, yuyPixels (fun i hi => ?_) ch]
  simp only [avx2PackU16_at _ _ hi]
  by_cases h : i < 16
  · simp only [if_pos h]
    refine yuyWords_at hb ht (hy i hi).2 (hu i hi).2 (hv i hi).2 ?_ ?_ ?_
    · rw [s16_widenLo (by rw [(hy i hi).1]; exact (hy i hi).2), (hy i hi).1]
    · rw [s16_widenLo (by rw [(hu i hi).1]; exact (hu i hi).2), (hu i hi).1]
    · rw [s16_widenLo (by rw [(hv i hi).1]; exact (hv i hi).2), (hv i hi).1]
  · simp only [if_neg h]
    have e : 16 + (i - 16) = i := by omega
    refine yuyWords_at hb ht (hy i hi).2 (hu i hi).2 (hv i hi).2 ?_ ?_ ?_
    · rw [s16_widenHi (by rw [e, (hy i hi).1]; exact (hy i hi).2), e, (hy i hi).1]
    · rw [s16_widenHi (by rw [e, (hu i hi).1]; exact (hu i hi).2), e, (hu i hi).1]
    · rw [s16_widenHi (by rw [e, (hv i hi).1]; exact (hv i hi).2), e, (hv i hi).1]

/-- Words of the two halves of 16 pixels. -/
theorem sseYuyStore_eq (ch : Channels) {yl yh ul uh vl vh : Reg} {Y U V : Nat → Nat}
    (hY : ∀ i, i < 16 → Y i < 256) (hU : ∀ i, i < 16 → U i < 256) (hV : ∀ i, i < 16 → V i < 256)
    (y0 : ∀ k, k < 8 → s16 yl k = Y k) (y1 : ∀ k, k < 8 → s16 yh k = Y (8 + k))
    (u0 : ∀ k, k < 8 → s16 ul k = U k) (u1 : ∀ k, k < 8 → s16 uh k = U (8 + k))
    (v0 : ∀ k, k < 8 → s16 vl k = V k) (v1 : ∀ k, k < 8 → s16 vh k = V (8 + k)) (p : Nat) (row : Buf) :
    sseYuyStore ch (yuyWords rg t yl ul vl) (yuyWords rg t yh uh vh) p row
      = put row p ((List.range 16).flatMap fun i => yuyVecPix ch t (Y i) (U i) (V i)) := by
  unfold sseYuyStore
  rw [sseStore_eq, yuyPixels (fun i hi => ?_) ch]
  simp only [packus_at16 _ _ hi]
  by_cases h : i < 8
  · simp only [if_pos h]
    exact yuyWords_at hb ht (hY i hi) (hU i hi) (hV i hi) (y0 i h) (u0 i h) (v0 i h)
  · simp only [if_neg h]
    have e : 8 + (i - 8) = i := by omega
    have a := y1 (i - 8) (by omega)
    have b := u1 (i - 8) (by omega)
    have c := v1 (i - 8) (by omega)
    rw [e] at a b c
    exact yuyWords_at hb ht (hY i hi) (hU i hi) (hV i hi) a b c

omit hb ht in
theorem zeroLo {a : Reg} {F : Nat → Nat} (h : ∀ i, i < 16 → a i = F i ∧ F i < 256) {k : Nat} (hk : k < 8) :
    s16 (unpacklo 1 a zero) k = (F k : Int) := by
  have e : k / 8 * 16 + k % 8 = k := by omega
  rw [s16_zeroLo (by rw [e, (h k (by omega)).1]; exact (h k (by omega)).2), e, (h k (by omega)).1]
omit hb ht in
theorem zeroHi {a : Reg} {F : Nat → Nat} (h : ∀ i, i < 16 → a i = F i ∧ F i < 256) {k : Nat} (hk : k < 8) :
    s16 (unpackhi 1 a zero) k = (F (8 + k) : Int) := by
  have e : k / 8 * 16 + 8 + k % 8 = 8 + k := by omega
  rw [s16_zeroHi (by rw [e, (h (8 + k) (by omega)).1]; exact (h (8 + k) (by omega)).2), e,
    (h (8 + k) (by omega)).1]

theorem sseYuyBlock_eq (ch : Channels) {y u v : Reg} {Y U V : Nat → Nat}
    (hy : ∀ i, i < 16 → y i = Y i ∧ Y i < 256) (hu : ∀ i, i < 16 → u i = U i ∧ U i < 256)
    (hv : ∀ i, i < 16 → v i = V i ∧ V i < 256) (p : Nat) (row : Buf) :
    sseYuyBlock ch rg t y u v p row
      = put row p ((List.range 16).flatMap fun i => yuyVecPix ch t (Y i) (U i) (V i)) :=
  sseYuyStore_eq hb ht ch (fun i h => (hy i h).2) (fun i h => (hu i h).2) (fun i h => (hv i h).2)
    (fun _ h => zeroLo hy h) (fun _ h => zeroHi hy h)
    (fun _ h => zeroLo hu h) (fun _ h => zeroHi hu h)
    (fun _ h => zeroLo hv h) (fun _ h => zeroHi hv h) p row
end

end Verif.X86
