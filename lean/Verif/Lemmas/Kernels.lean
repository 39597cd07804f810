import Verif.Model.Kernels
import Verif.Lemmas.Finite
/-! # The pixel kernels do not overflow and equal their exact integer formulas -/
namespace Verif

theorem chk32_ok {x : Int} (h1 : -2147483648 ≤ x) (h2 : x ≤ 2147483647) : chk32 x = .ok x := by
  unfold chk32; rw [if_pos ⟨h1, h2⟩]
theorem add32_ok {a b : Int} (h1 : -2147483648 ≤ a + b) (h2 : a + b ≤ 2147483647) :
    add32 a b = .ok (a + b) := chk32_ok h1 h2
theorem sub32_ok {a b : Int} (h1 : -2147483648 ≤ a - b) (h2 : a - b ≤ 2147483647) :
    sub32 a b = .ok (a - b) := chk32_ok h1 h2
theorem mul32_ok {a b : Int} (h1 : -2147483648 ≤ a * b) (h2 : a * b ≤ 2147483647) :
    mul32 a b = .ok (a * b) := chk32_ok h1 h2

/-- `|a| ≤ A` and `0 ≤ c` bound a product. -/
theorem mul_bound {a A c : Int} (h1 : -A ≤ a) (h2 : a ≤ A) (hc : 0 ≤ c) :
    -(A * c) ≤ a * c ∧ a * c ≤ A * c := by
  constructor
  · have := Int.mul_le_mul_of_nonneg_right h1 hc
    rwa [Int.neg_mul] at this
  · exact Int.mul_le_mul_of_nonneg_right h2 hc

theorem mul_bound' {a A c : Int} (h1 : -A ≤ a) (h2 : a ≤ A) (hc : 0 ≤ c) :
    -(A * c) ≤ c * a ∧ c * a ≤ A * c := by
  rw [Int.mul_comm c a]; exact mul_bound h1 h2 hc

/-! ## Decoder -/

/-- Saturating rounding shift on exact integers. -/
def qr (p bd : Nat) (v : Int) : Int := max (min ((v + (2 ^ (p - 1) - 1)) / 2 ^ p) (2 ^ bd - 1)) 0
/-- The same with the rounding constant of `qrshr_n`. -/
def qrN (p : Nat) (mx v : Int) : Int := max (min ((v + 2 ^ (p - 1)) / 2 ^ p) mx) 0

theorem qrshr_ok {p bd : Nat} {v : Int} (h1 : -2147483648 ≤ v + (2 ^ (p - 1) - 1))
    (h2 : v + (2 ^ (p - 1) - 1) ≤ 2147483647) : qrshr p bd v = .ok (qr p bd v) := by
  simp only [qrshr, add32_ok h1 h2, Outcome.bind_ok, Outcome.pure_eq, sar, qr]

theorem qrshrN_ok {p : Nat} {v mx : Int} (h1 : -2147483648 ≤ v + 2 ^ (p - 1))
    (h2 : v + 2 ^ (p - 1) ≤ 2147483647) : qrshrN p v mx = .ok (qrN p mx v) := by
  simp only [qrshrN, add32_ok h1 h2, Outcome.bind_ok, Outcome.pure_eq, sar, qrN]

/-- Unclamped red, blue and green sums. -/
def sumR (t : InvCoef) (biasY biasUv : Nat) (y v : Nat) : Int :=
  ((y : Int) - biasY) * t.y + t.cr * ((v : Int) - biasUv)
def sumB (t : InvCoef) (biasY biasUv : Nat) (y u : Nat) : Int :=
  ((y : Int) - biasY) * t.y + t.cb * ((u : Int) - biasUv)
def sumG (t : InvCoef) (biasY biasUv : Nat) (y u v : Nat) : Int :=
  ((y : Int) - biasY) * t.y - t.g1 * ((v : Int) - biasUv) - t.g2 * ((u : Int) - biasUv)

/-- Coefficients, luma excursion `my` and chroma excursion `mc` small enough for `i32`;
`sl` is the room left for the rounding constant. -/
structure Fits (t : InvCoef) (my mc sl : Int) : Prop where
  y0 : 0 ≤ t.y
  cr0 : 0 ≤ t.cr
  cb0 : 0 ≤ t.cb
  g10 : 0 ≤ t.g1
  g20 : 0 ≤ t.g2
  my0 : 0 ≤ my
  mc0 : 0 ≤ mc
  sl0 : 0 ≤ sl
  ms : my + mc + sl ≤ 2147483647
  r : my * t.y + mc * t.cr + sl ≤ 2147483647
  b : my * t.y + mc * t.cb + sl ≤ 2147483647
  g : my * t.y + mc * t.g1 + mc * t.g2 + sl ≤ 2147483647
  g1s : t.g1 ≤ 2147483647

instance (t : InvCoef) (my mc sl : Int) : Decidable (Fits t my mc sl) :=
  decidable_of_iff (0 ≤ t.y ∧ 0 ≤ t.cr ∧ 0 ≤ t.cb ∧ 0 ≤ t.g1 ∧ 0 ≤ t.g2 ∧ 0 ≤ my ∧ 0 ≤ mc ∧ 0 ≤ sl ∧
    my + mc + sl ≤ 2147483647 ∧
    my * t.y + mc * t.cr + sl ≤ 2147483647 ∧ my * t.y + mc * t.cb + sl ≤ 2147483647 ∧
    my * t.y + mc * t.g1 + mc * t.g2 + sl ≤ 2147483647 ∧ t.g1 ≤ 2147483647)
    ⟨fun ⟨a, b, c, d, e, f, g, h, i, j, k, l, m⟩ => ⟨a, b, c, d, e, f, g, h, i, j, k, l, m⟩,
     fun ⟨a, b, c, d, e, f, g, h, i, j, k, l, m⟩ => ⟨a, b, c, d, e, f, g, h, i, j, k, l, m⟩⟩

/-- Excursion of a sample. -/
structure Near (y u v biasY biasUv : Nat) (my mc : Int) : Prop where
  y1 : -my ≤ (y : Int) - biasY
  y2 : (y : Int) - biasY ≤ my
  u1 : -mc ≤ (u : Int) - biasUv
  u2 : (u : Int) - biasUv ≤ mc
  v1 : -mc ≤ (v : Int) - biasUv
  v2 : (v : Int) - biasUv ≤ mc

theorem sums_bound {t : InvCoef} {my mc sl : Int} {biasY biasUv y u v : Nat}
    (hf : Fits t my mc sl) (hn : Near y u v biasY biasUv my mc) :
    (-(2147483647 - sl) ≤ sumR t biasY biasUv y v ∧ sumR t biasY biasUv y v ≤ 2147483647 - sl) ∧
    (-(2147483647 - sl) ≤ sumB t biasY biasUv y u ∧ sumB t biasY biasUv y u ≤ 2147483647 - sl) ∧
    (-(2147483647 - sl) ≤ sumG t biasY biasUv y u v ∧
      sumG t biasY biasUv y u v ≤ 2147483647 - sl) := by
  have b1 := mul_bound hn.y1 hn.y2 hf.y0
  have b2 := mul_bound' hn.v1 hn.v2 hf.cr0
  have b3 := mul_bound' hn.u1 hn.u2 hf.cb0
  have b4 := mul_bound' hn.v1 hn.v2 hf.g10
  have b5 := mul_bound' hn.u1 hn.u2 hf.g20
  have c1 := hf.r
  have c2 := hf.b
  have c3 := hf.g
  unfold sumR sumB sumG
  omega

/-- The rounding shift `q` succeeds with value `qp` on everything that leaves room `sl`. -/
def QOk (q : Int → Outcome Int) (qp : Int → Int) (sl : Int) : Prop :=
  ∀ v, -(2147483647 - sl) ≤ v → v ≤ 2147483647 - sl → q v = .ok (qp v)

theorem qrshr_QOk (p bd : Nat) : QOk (qrshr p bd) (qr p bd) (2 ^ p) := by
  intro v h1 h2
  have hp : (2 : Int) ^ (p - 1) ≤ 2 ^ p := by
    have := Nat.pow_le_pow_right (show 0 < 2 by decide) (show p - 1 ≤ p by omega)
    exact_mod_cast this
  have hp0 : (1 : Int) ≤ 2 ^ (p - 1) := by
    have := Nat.pow_le_pow_right (show 0 < 2 by decide) (show 0 ≤ p - 1 by omega)
    exact_mod_cast this
  exact qrshr_ok (by omega) (by omega)

theorem qrshrN_QOk (p : Nat) (mx : Int) : QOk (fun v => qrshrN p v mx) (qrN p mx) (2 ^ p) := by
  intro v h1 h2
  have hp : (2 : Int) ^ (p - 1) ≤ 2 ^ p := by
    have := Nat.pow_le_pow_right (show 0 < 2 by decide) (show p - 1 ≤ p by omega)
    exact_mod_cast this
  have hp0 : (1 : Int) ≤ 2 ^ (p - 1) := by
    have := Nat.pow_le_pow_right (show 0 < 2 by decide) (show 0 ≤ p - 1 by omega)
    exact_mod_cast this
  exact qrshrN_ok (by omega) (by omega)

/-- The decoded triple, on exact integers. -/
def decodePure (qp : Int → Int) (t : InvCoef) (biasY biasUv : Nat) (y u v : Nat) :
    Int × Int × Int :=
  (qp (sumR t biasY biasUv y v), qp (sumG t biasY biasUv y u v), qp (sumB t biasY biasUv y u))

theorem decodeRow_ok {q : Int → Outcome Int} {qp : Int → Int} {t : InvCoef} {my mc sl : Int}
    {biasY biasUv y u v : Nat} (hq : QOk q qp sl) (hf : Fits t my mc sl)
    (hn : Near y u v biasY biasUv my mc) :
    decodeRow q t biasY biasUv y u v = .ok (decodePure qp t biasY biasUv y u v) := by
  have b1 := mul_bound hn.y1 hn.y2 hf.y0
  have b2 := mul_bound' hn.v1 hn.v2 hf.cr0
  have b3 := mul_bound' hn.u1 hn.u2 hf.cb0
  have b4 := mul_bound' hn.v1 hn.v2 hf.g10
  have b5 := mul_bound' hn.u1 hn.u2 hf.g20
  have c1 := hf.r
  have c2 := hf.b
  have c3 := hf.g
  have c4 := hf.ms
  have n1 := hn.y1
  have n2 := hn.y2
  have n3 := hn.u1
  have n4 := hn.u2
  have n5 := hn.v1
  have n6 := hn.v2
  have p1 := hf.my0
  have p2 := hf.mc0
  have p3 := hf.sl0
  have q1 := Int.mul_nonneg hf.my0 hf.y0
  have q2 := Int.mul_nonneg hf.mc0 hf.cr0
  have q3 := Int.mul_nonneg hf.mc0 hf.cb0
  have q4 := Int.mul_nonneg hf.mc0 hf.g10
  have q5 := Int.mul_nonneg hf.mc0 hf.g20
  obtain ⟨s1, s2, s3⟩ := sums_bound hf hn
  unfold sumR at s1; unfold sumB at s2; unfold sumG at s3
  unfold decodeRow decodePure sumR sumB sumG
  rw [sub32_ok (by omega) (by omega), Outcome.bind_ok,
    mul32_ok (by omega) (by omega), Outcome.bind_ok,
    sub32_ok (by omega) (by omega), Outcome.bind_ok,
    sub32_ok (by omega) (by omega), Outcome.bind_ok,
    mul32_ok (by omega) (by omega), Outcome.bind_ok,
    add32_ok (by omega) (by omega), Outcome.bind_ok,
    hq _ s1.1 s1.2, Outcome.bind_ok,
    mul32_ok (by omega) (by omega), Outcome.bind_ok,
    add32_ok (by omega) (by omega), Outcome.bind_ok,
    hq _ s2.1 s2.2, Outcome.bind_ok,
    mul32_ok (by omega) (by omega), Outcome.bind_ok,
    sub32_ok (by omega) (by omega), Outcome.bind_ok,
    mul32_ok (by omega) (by omega), Outcome.bind_ok,
    sub32_ok (by omega) (by omega), Outcome.bind_ok,
    hq _ s3.1 s3.2, Outcome.bind_ok, Outcome.pure_eq]

theorem decodeTwoRow_ok {q : Int → Outcome Int} {qp : Int → Int} {t : InvCoef} {my mc sl : Int}
    {biasY biasUv y u v : Nat} (hq : QOk q qp sl) (hf : Fits t my mc sl)
    (hn : Near y u v biasY biasUv my mc) :
    decodeTwoRow q t biasY biasUv y u v = .ok (decodePure qp t biasY biasUv y u v) := by
  have b1 := mul_bound hn.y1 hn.y2 hf.y0
  have b2 := mul_bound' hn.v1 hn.v2 hf.cr0
  have b3 := mul_bound' hn.u1 hn.u2 hf.cb0
  have b4 := mul_bound' hn.v1 hn.v2 hf.g10
  have b5 := mul_bound' hn.u1 hn.u2 hf.g20
  have c1 := hf.r
  have c2 := hf.b
  have c3 := hf.g
  have c4 := hf.ms
  have c5 := hf.g1s
  have c6 := hf.g10
  have n1 := hn.y1
  have n2 := hn.y2
  have n3 := hn.u1
  have n4 := hn.u2
  have n5 := hn.v1
  have n6 := hn.v2
  have p1 := hf.my0
  have p2 := hf.mc0
  have p3 := hf.sl0
  have q1 := Int.mul_nonneg hf.my0 hf.y0
  have q2 := Int.mul_nonneg hf.mc0 hf.cr0
  have q3 := Int.mul_nonneg hf.mc0 hf.cb0
  have q4 := Int.mul_nonneg hf.mc0 hf.g10
  have q5 := Int.mul_nonneg hf.mc0 hf.g20
  obtain ⟨s1, s2, s3⟩ := sums_bound hf hn
  unfold sumR at s1; unfold sumB at s2; unfold sumG at s3
  have e : ((y : Int) - biasY) * t.y + ((0 - t.g1) * ((v : Int) - biasUv) - t.g2 * ((u : Int) - biasUv))
      = ((y : Int) - biasY) * t.y - t.g1 * ((v : Int) - biasUv) - t.g2 * ((u : Int) - biasUv) := by
    rw [Int.zero_sub, Int.neg_mul]; omega
  have e' : (0 - t.g1) * ((v : Int) - biasUv) = -(t.g1 * ((v : Int) - biasUv)) := by
    rw [Int.zero_sub, Int.neg_mul]
  unfold decodeTwoRow decodePure sumR sumB sumG
  rw [sub32_ok (by omega) (by omega), Outcome.bind_ok,
    mul32_ok (by omega) (by omega), Outcome.bind_ok,
    sub32_ok (by omega) (by omega), Outcome.bind_ok,
    sub32_ok (by omega) (by omega), Outcome.bind_ok,
    sub32_ok (by omega) (by omega), Outcome.bind_ok,
    mul32_ok (by omega) (by omega), Outcome.bind_ok,
    mul32_ok (by omega) (by omega), Outcome.bind_ok,
    sub32_ok (by omega) (by omega), Outcome.bind_ok,
    mul32_ok (by omega) (by omega), Outcome.bind_ok,
    add32_ok (by omega) (by omega), Outcome.bind_ok,
    hq _ s1.1 s1.2, Outcome.bind_ok,
    mul32_ok (by omega) (by omega), Outcome.bind_ok,
    add32_ok (by omega) (by omega), Outcome.bind_ok,
    hq _ s2.1 s2.2, Outcome.bind_ok,
    add32_ok (by omega) (by omega), Outcome.bind_ok, e,
    hq _ s3.1 s3.2, Outcome.bind_ok, Outcome.pure_eq]

/-! ## Encoder -/

/-- The encoder sum on exact integers. -/
def encPure (p : Nat) (cr cg cb bias r g b : Int) : Int :=
  (r * cr + g * cg + b * cb + bias) / 2 ^ p

/-- A product of a sample in `[0, mx]` with a coefficient of magnitude at most `c`. -/
theorem sample_mul_bound {r mx c k : Int} (h0 : 0 ≤ r) (h1 : r ≤ mx) (k1 : -c ≤ k) (k2 : k ≤ c) :
    -(mx * c) ≤ r * k ∧ r * k ≤ mx * c := by
  have hc : 0 ≤ c := by omega
  have b := mul_bound (a := r) (A := mx) (by omega) h1 hc
  have e1 : r * k ≤ r * c := Int.mul_le_mul_of_nonneg_left k2 h0
  have e2 : r * (-c) ≤ r * k := Int.mul_le_mul_of_nonneg_left k1 h0
  rw [Int.mul_neg] at e2
  omega

/-- Coefficients of one encoder row bounded by `c`, samples by `mx`, and everything in `i32`. -/
structure EncFits (k1 k2 k3 bias mx c : Int) : Prop where
  k1l : -c ≤ k1
  k1u : k1 ≤ c
  k2l : -c ≤ k2
  k2u : k2 ≤ c
  k3l : -c ≤ k3
  k3u : k3 ≤ c
  mx0 : 0 ≤ mx
  b0 : 0 ≤ bias
  tot : 3 * (mx * c) + bias ≤ 2147483647

theorem encodeSum_ok {p : Nat} {k1 k2 k3 bias mx c r g b : Int} (h : EncFits k1 k2 k3 bias mx c)
    (r0 : 0 ≤ r) (r1 : r ≤ mx) (g0 : 0 ≤ g) (g1 : g ≤ mx) (b0 : 0 ≤ b) (b1 : b ≤ mx) :
    encodeSum p k1 k2 k3 bias r g b = .ok (encPure p k1 k2 k3 bias r g b) := by
  have e1 := sample_mul_bound r0 r1 h.k1l h.k1u
  have e2 := sample_mul_bound g0 g1 h.k2l h.k2u
  have e3 := sample_mul_bound b0 b1 h.k3l h.k3u
  have ht := h.tot
  have hb := h.b0
  have hc : 0 ≤ mx * c := Int.mul_nonneg h.mx0 (by have := h.k1l; have := h.k1u; omega)
  unfold encodeSum encPure
  rw [mul32_ok (by omega) (by omega), Outcome.bind_ok,
    mul32_ok (by omega) (by omega), Outcome.bind_ok,
    add32_ok (by omega) (by omega), Outcome.bind_ok,
    mul32_ok (by omega) (by omega), Outcome.bind_ok,
    add32_ok (by omega) (by omega), Outcome.bind_ok,
    add32_ok (by omega) (by omega), Outcome.bind_ok, Outcome.pure_eq, sar]

end Verif
