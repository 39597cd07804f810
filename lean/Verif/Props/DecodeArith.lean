import Verif.Lemmas.Rounding
/-!
# C07, C08, C10, C12, C14: the arithmetic of one decoded pixel
-/
namespace Verif
open Spec

/-! ## C07: division by 255 -/

/-- C07: for every product of two 8-bit values the division neither overflows nor
wraps, and gives a nearest integer to `colour * alpha / 255`. -/
theorem c07_div255_nearest (c a : Nat) (hc : c ≤ 255) (ha : a ≤ 255) :
    ∃ q, divBy255 (c * a) = .ok q ∧ q ≤ 255 ∧
      2 * (255 * q) ≤ 2 * (c * a) + 255 ∧ 2 * (c * a) ≤ 2 * (255 * q) + 255 := by
  have h : c * a ≤ 255 * 255 := Nat.mul_le_mul hc ha
  generalize c * a = v at h
  have key : ((v + 0x80) / 256 + v + 0x80) / 256 = v / 255 + (if v % 255 ≤ 127 then 0 else 1) := by
    obtain ⟨k, r, hk, hr, rfl⟩ : ∃ k r, k ≤ 255 ∧ r < 255 ∧ v = 255 * k + r :=
      ⟨v / 255, v % 255, by omega, by omega, by omega⟩
    have e1 : (255 * k + r) / 255 = k := by omega
    have e2 : (255 * k + r) % 255 = r := by omega
    have e3 : (255 * k + r + 128) / 256 + 1 = k ∧ r + 128 < k ∨ (255 * k + r + 128) / 256 = k ∧
        k ≤ r + 128 ∧ r + 128 < k + 256 ∨ (255 * k + r + 128) / 256 = k + 1 ∧ k + 256 ≤ r + 128 := by
      omega
    rw [e1, e2]
    split <;> rcases e3 with ⟨e, _⟩ | ⟨e, _⟩ | ⟨e, _⟩ <;> omega
  refine ⟨((v + 0x80) / 256 + v + 0x80) / 256 % 256, ?_, ?_, ?_, ?_⟩
  · unfold divBy255; rw [if_pos (by omega)]
  all_goals rw [key]; split <;> omega

/-- C07: premultiplying never exceeds the colour or alpha; opaque alpha is the identity and
zero alpha clears. -/
theorem c07_premultiply (c a : Nat) (hc : c ≤ 255) (ha : a ≤ 255) :
    ∃ q, divBy255 (c * a) = .ok q ∧ q ≤ c ∧ q ≤ a ∧ (a = 255 → q = c) ∧ (a = 0 → q = 0) := by
  obtain ⟨q, h1, h2, h3, h4⟩ := c07_div255_nearest c a hc ha
  have e1 : c * a ≤ c * 255 := Nat.mul_le_mul_left c ha
  have e2 : c * a ≤ 255 * a := Nat.mul_le_mul_right a hc
  refine ⟨q, h1, by omega, by omega, ?_, ?_⟩
  · intro h; subst h; omega
  · intro h; subst h; omega

example : divBy255 (255 * 128) = .ok 128 ∧ divBy255 (1 * 128) = .ok 1 := by decide

/-! ## C08: no overflow, always in range -/

/-- The precision/depth pairs used by the decoders: 6 bits for 8-bit "Fast" bi-planar
decoding, 13 bits at every depth, 14 bits up to 14-bit samples. -/
def DecodeCfg (p d : Nat) : Prop := (p = 6 ∧ d = 8) ∨ (p = 13 ∧ Depth d) ∨ (p = 14 ∧ Depth d ∧ d ≤ 14)

theorem fits_search {p d : Nat} (h : DecodeCfg p d) (r : YuvRange) (m : Matrix) :
    Fits (searchInverse p d r m) (2 ^ d) (2 ^ (d - 1)) (2 ^ p) := by
  have h1 : ∀ m ∈ allMatrix, ∀ r ∈ allRange, Fits (searchInverse 6 8 r m) (2 ^ 8) (2 ^ 7) (2 ^ 6) := by
    decide +kernel
  have h2 : ∀ d ∈ allDepth, ∀ m ∈ allMatrix, ∀ r ∈ allRange,
      Fits (searchInverse 13 d r m) (2 ^ d) (2 ^ (d - 1)) (2 ^ 13) := by
    decide +kernel
  have h3 : ∀ d ∈ [8, 10, 12, 14], ∀ m ∈ allMatrix, ∀ r ∈ allRange,
      Fits (searchInverse 14 d r m) (2 ^ d) (2 ^ (d - 1)) (2 ^ 14) := by
    decide +kernel
  rcases h with ⟨rfl, rfl⟩ | ⟨rfl, hd⟩ | ⟨rfl, hd, hd2⟩
  · exact forall_mr h1 m r
  · exact forall_mr (h2 d (mem_allDepth hd)) m r
  · refine forall_mr (h3 d ?_) m r
    rcases hd with h | h | h | h | h <;> subst h <;> first | decide | omega

theorem near_of_lt {d : Nat} (hd : 8 ≤ d) (r : YuvRange) {y u v : Nat} (hy : y < 2 ^ d)
    (hu : u < 2 ^ d) (hv : v < 2 ^ d) :
    Near y u v (getYuvRange d r).biasY (getYuvRange d r).biasUv (2 ^ d) (2 ^ (d - 1)) := by
  obtain ⟨k, rfl⟩ : ∃ k, d = k + 8 := ⟨d - 8, by omega⟩
  have e1 : k + 8 - 8 = k := by omega
  have e2 : k + 8 - 1 = k + 7 := by omega
  have p8 : (2 : Nat) ^ (k + 8) = 2 ^ k * 256 := by rw [Nat.pow_add]
  have p7 : (2 : Nat) ^ (k + 7) = 2 ^ k * 128 := by rw [Nat.pow_add]
  have q8 : (2 : Int) ^ (k + 8) = ((2 ^ k : Nat) : Int) * 256 := by rw [pow_add]; push_cast; ring
  have q7 : (2 : Int) ^ (k + 7) = ((2 ^ k : Nat) : Int) * 128 := by rw [pow_add]; push_cast; ring
  rw [p8] at hy hu hv
  cases r <;> simp only [getYuvRange, e1, e2, p7] <;> constructor <;> rw [e2] at * <;>
    first
    | (rw [q8]; omega)
    | (rw [q7]; omega)

theorem DecodeCfg.depth {p d : Nat} (h : DecodeCfg p d) : Depth d := by
  rcases h with ⟨_, rfl⟩ | ⟨_, h⟩ | ⟨_, h, _⟩
  · exact Or.inl rfl
  · exact h
  · exact h
theorem DecodeCfg.pos {p d : Nat} (h : DecodeCfg p d) : 0 < p := by
  rcases h with ⟨rfl, _⟩ | ⟨rfl, h⟩ | ⟨rfl, h, _⟩ <;> omega
theorem DecodeCfg.prec {p d : Nat} (h : DecodeCfg p d) : Prec p := by
  unfold Prec; rcases h with ⟨rfl, _⟩ | ⟨rfl, h⟩ | ⟨rfl, h, _⟩ <;> omega
theorem Depth.ge8 {d : Nat} (h : Spec.Depth d) : 8 ≤ d := by
  rcases h with h | h | h | h | h <;> omega

/-- The rounding shifts of the decoders. -/
def IsShift (p d : Nat) (q : Int → Outcome Int) : Prop :=
  q = qrshr p d ∨ q = fun v => qrshrN p v (2 ^ d - 1)
/-- The two forms of the decoder kernel. -/
def IsKernel (k : (Int → Outcome Int) → InvCoef → Nat → Nat → Nat → Nat → Nat →
    Outcome (Int × Int × Int)) : Prop := k = decodeRow ∨ k = decodeTwoRow

theorem shift_spec {p d : Nat} (hp : 0 < p) {q : Int → Outcome Int} (h : IsShift p d q) :
    ∃ qp, QOk q qp (2 ^ p) ∧ ∀ v, ∃ n, NearestShift p n v ∧ qp v = satI d n := by
  rcases h with rfl | rfl
  · exact ⟨qr p d, qrshr_QOk p d, fun v => ⟨_, shift_near_down hp v, rfl⟩⟩
  · exact ⟨qrN p (2 ^ d - 1), qrshrN_QOk p _, fun v => ⟨_, shift_near_up hp v, rfl⟩⟩

theorem kernel_ok {k} (hk : IsKernel k) {q : Int → Outcome Int} {qp : Int → Int} {t : InvCoef}
    {my mc sl : Int} {biasY biasUv y u v : Nat} (hq : QOk q qp sl) (hf : Fits t my mc sl)
    (hn : Near y u v biasY biasUv my mc) :
    k q t biasY biasUv y u v = .ok (decodePure qp t biasY biasUv y u v) := by
  rcases hk with rfl | rfl
  · exact decodeRow_ok hq hf hn
  · exact decodeTwoRow_ok hq hf hn

/-- C08: for every named matrix and range, every precision/depth pair in use and every sample
triple of that depth, the decoder kernel does not overflow; each component is a nearest integer
to the unclamped fixed-point sum, saturated to `[0, 2^d - 1]`. -/
theorem c08_decode_no_overflow (p d : Nat) (h : DecodeCfg p d) (rg : YuvRange) (m : Matrix)
    (k) (hk : IsKernel k) (q) (hq : IsShift p d q)
    (y u v : Nat) (hy : y < 2 ^ d) (hu : u < 2 ^ d) (hv : v < 2 ^ d) :
    let t := searchInverse p d rg m
    let by' := (getYuvRange d rg).biasY
    let buv := (getYuvRange d rg).biasUv
    ∃ r g b nr ng nb : Int,
      k q t by' buv y u v = .ok (r, g, b) ∧
      r = max (min nr (2 ^ d - 1)) 0 ∧ g = max (min ng (2 ^ d - 1)) 0 ∧
      b = max (min nb (2 ^ d - 1)) 0 ∧
      NearestShift p nr (((y : Int) - by') * t.y + t.cr * ((v : Int) - buv)) ∧
      NearestShift p ng (((y : Int) - by') * t.y - t.g1 * ((v : Int) - buv)
        - t.g2 * ((u : Int) - buv)) ∧
      NearestShift p nb (((y : Int) - by') * t.y + t.cb * ((u : Int) - buv)) := by
  obtain ⟨qp, h1, h2⟩ := shift_spec h.pos hq
  have hn := near_of_lt (Depth.ge8 h.depth) rg hy hu hv
  have e := kernel_ok hk h1 (fits_search h rg m) hn
  obtain ⟨nr, a1, a2⟩ := h2 (sumR (searchInverse p d rg m) (getYuvRange d rg).biasY
    (getYuvRange d rg).biasUv y v)
  obtain ⟨ng, b1, b2⟩ := h2 (sumG (searchInverse p d rg m) (getYuvRange d rg).biasY
    (getYuvRange d rg).biasUv y u v)
  obtain ⟨nb, c1, c2⟩ := h2 (sumB (searchInverse p d rg m) (getYuvRange d rg).biasY
    (getYuvRange d rg).biasUv y u)
  exact ⟨_, _, _, nr, ng, nb, e, a2, b2, c2, a1, b1, c1⟩

/-- C08, range part. -/
theorem c08_decode_in_range (p d : Nat) (h : DecodeCfg p d) (rg : YuvRange) (m : Matrix)
    (k) (hk : IsKernel k) (q) (hq : IsShift p d q)
    (y u v : Nat) (hy : y < 2 ^ d) (hu : u < 2 ^ d) (hv : v < 2 ^ d) :
    ∃ r g b : Int, k q (searchInverse p d rg m) (getYuvRange d rg).biasY
        (getYuvRange d rg).biasUv y u v = .ok (r, g, b) ∧
      (0 ≤ r ∧ r ≤ 2 ^ d - 1) ∧ (0 ≤ g ∧ g ≤ 2 ^ d - 1) ∧ (0 ≤ b ∧ b ≤ 2 ^ d - 1) := by
  obtain ⟨r, g, b, nr, ng, nb, e, h1, h2, h3, _⟩ :=
    c08_decode_no_overflow p d h rg m k hk q hq y u v hy hu hv
  have := one_le_two_pow d
  exact ⟨r, g, b, e, by omega, by omega, by omega⟩

/-- C08: the two kernels agree, so the single-row and two-row paths give the same colours. -/
theorem c08_kernels_agree (p d : Nat) (h : DecodeCfg p d) (rg : YuvRange) (m : Matrix)
    (q) (hq : IsShift p d q)
    (y u v : Nat) (hy : y < 2 ^ d) (hu : u < 2 ^ d) (hv : v < 2 ^ d) :
    decodeRow q (searchInverse p d rg m) (getYuvRange d rg).biasY (getYuvRange d rg).biasUv y u v =
    decodeTwoRow q (searchInverse p d rg m) (getYuvRange d rg).biasY (getYuvRange d rg).biasUv
      y u v := by
  obtain ⟨qp, h1, h2⟩ := shift_spec h.pos hq
  have hn := near_of_lt (Depth.ge8 h.depth) rg hy hu hv
  rw [kernel_ok (Or.inl rfl) h1 (fits_search h rg m) hn,
    kernel_ok (Or.inr rfl) h1 (fits_search h rg m) hn]

example : DecodeCfg 13 8 ∧ IsKernel decodeRow ∧ IsShift 13 8 (qrshr 13 8) :=
  ⟨Or.inr (Or.inl ⟨rfl, Or.inl rfl⟩), Or.inl rfl, Or.inl rfl⟩
example : decodeRow (qrshr 13 8) (searchInverse 13 8 .limited .bt601) 16 128 81 90 240
    = .ok (254, 0, 0) := by decide +kernel

/-! ## C10: distance to the exact ITU result -/

theorem c10_abs_cast {x : Nat} {b : Nat} {M : Int} (h1 : -M ≤ (x : Int) - b)
    (h2 : (x : Int) - b ≤ M) : |(x : Rat) - b| ≤ (M : Rat) := by
  rw [abs_le]; constructor
  · have : ((-M : Int) : Rat) ≤ (((x : Int) - b : Int) : Rat) := by exact_mod_cast h1
    push_cast at this; exact this
  · have : (((x : Int) - b : Int) : Rat) ≤ (M : Rat) := by exact_mod_cast h2
    push_cast at this; exact this

theorem nearest_inv {p d : Nat} (h : DecodeCfg p d) (h6 : p ≠ 6) (r : YuvRange) (m : Matrix) :
    NearestCoef p (searchInverse p d r m).y (invY d r) ∧
    NearestCoef p (searchInverse p d r m).cr (invCr d r m) ∧
    NearestCoef p (searchInverse p d r m).cb (invCb d r m) ∧
    NearestCoef p (searchInverse p d r m).g1 (invG1 d r m) ∧
    NearestCoef p (searchInverse p d r m).g2 (invG2 d r m) := by
  have e := c06_searchInverse p d h.prec h.depth r m
  simp only [h6, if_false] at e
  rw [e]
  exact (c06_inverse_tables p d h.prec h.depth r m).2

/-- The fixed-point sums with nearest coefficients are within `2^d / 2^p` of the exact result. -/
theorem sums_close_of {p d : Nat} (hd : Depth d) {t : InvCoef} (rg : YuvRange) (m : Matrix)
    (hN : NearestCoef p t.y (invY d rg) ∧ NearestCoef p t.cr (invCr d rg m) ∧
      NearestCoef p t.cb (invCb d rg m) ∧ NearestCoef p t.g1 (invG1 d rg m) ∧
      NearestCoef p t.g2 (invG2 d rg m))
    {y u v : Nat} (hy : y < 2 ^ d) (hu : u < 2 ^ d) (hv : v < 2 ^ d) :
    |((sumR t (getYuvRange d rg).biasY (getYuvRange d rg).biasUv y v
      : Int) : Rat) / 2 ^ p - exactR d rg m y u v| ≤ 2 ^ d / 2 ^ p ∧
    |((sumG t (getYuvRange d rg).biasY (getYuvRange d rg).biasUv y u v
      : Int) : Rat) / 2 ^ p - exactG d rg m y u v| ≤ 2 ^ d / 2 ^ p ∧
    |((sumB t (getYuvRange d rg).biasY (getYuvRange d rg).biasUv y u
      : Int) : Rat) / 2 ^ p - exactB d rg m y u v| ≤ 2 ^ d / 2 ^ p := by
  have hd8 := Depth.ge8 hd
  have hn := near_of_lt hd8 rg hy hu hv
  obtain ⟨ny, ncr, ncb, ng1, ng2⟩ := hN
  have ay := c10_abs_cast hn.y1 hn.y2
  have au := c10_abs_cast hn.u1 hn.u2
  have av := c10_abs_cast hn.v1 hn.v2
  have h2d : ((2 ^ d : Int) : Rat) = 2 * ((2 ^ (d - 1) : Int) : Rat) := by
    have := two_pow_split (p := d) (by omega)
    exact_mod_cast this
  have hp : (0 : Rat) < 2 ^ p := by positivity
  have ey := coef_err ny ay
  have er := coef_err ncr av
  have eb := coef_err ncb au
  have eg1 := coef_err ng1 av
  have eg2 := coef_err ng2 au
  have hc0 : (0 : Rat) ≤ ((2 ^ (d - 1) : Int) : Rat) := by push_cast; positivity
  have hsum : ((2 ^ d : Int) : Rat) / (2 * 2 ^ p) + ((2 ^ (d - 1) : Int) : Rat) / (2 * 2 ^ p)
      + ((2 ^ (d - 1) : Int) : Rat) / (2 * 2 ^ p) = 2 ^ d / 2 ^ p := by
    have : (2 : Rat) ^ d = 2 * ((2 ^ (d - 1) : Int) : Rat) := by rw [← h2d]; push_cast; rfl
    rw [this, h2d]; field_simp; ring
  have hterm : (0 : Rat) ≤ ((2 ^ (d - 1) : Int) : Rat) / (2 * 2 ^ p) := by positivity
  refine ⟨?_, ?_, ?_⟩
  · rw [exactR_eq, offY_eq, offC_eq rg]
    have : ((sumR t (getYuvRange d rg).biasY (getYuvRange d rg).biasUv y v
        : Int) : Rat) / 2 ^ p - (invY d rg * ((y : Rat) - (getYuvRange d rg).biasY)
        + invCr d rg m * ((v : Rat) - (getYuvRange d rg).biasUv))
      = ((t.y : Rat) * ((y : Rat) - (getYuvRange d rg).biasY) / 2 ^ p
          - invY d rg * ((y : Rat) - (getYuvRange d rg).biasY))
        + ((t.cr : Rat) * ((v : Rat) - (getYuvRange d rg).biasUv) / 2 ^ p
          - invCr d rg m * ((v : Rat) - (getYuvRange d rg).biasUv)) := by
      unfold sumR; push_cast; ring
    rw [this]
    refine le_trans (abs_add_le _ _) ?_
    rw [← hsum]; linarith
  · rw [exactG_eq, offY_eq, offC_eq rg]
    have : ((sumG t (getYuvRange d rg).biasY (getYuvRange d rg).biasUv y u v
        : Int) : Rat) / 2 ^ p - (invY d rg * ((y : Rat) - (getYuvRange d rg).biasY)
        - invG1 d rg m * ((v : Rat) - (getYuvRange d rg).biasUv)
        - invG2 d rg m * ((u : Rat) - (getYuvRange d rg).biasUv))
      = ((t.y : Rat) * ((y : Rat) - (getYuvRange d rg).biasY) / 2 ^ p
          - invY d rg * ((y : Rat) - (getYuvRange d rg).biasY))
        - ((t.g1 : Rat) * ((v : Rat) - (getYuvRange d rg).biasUv) / 2 ^ p
          - invG1 d rg m * ((v : Rat) - (getYuvRange d rg).biasUv))
        - ((t.g2 : Rat) * ((u : Rat) - (getYuvRange d rg).biasUv) / 2 ^ p
          - invG2 d rg m * ((u : Rat) - (getYuvRange d rg).biasUv)) := by
      unfold sumG; push_cast; ring
    rw [this]
    refine le_trans (abs_sub _ _) ?_
    have := abs_sub (((t.y : Rat) * ((y : Rat) - (getYuvRange d rg).biasY) / 2 ^ p
          - invY d rg * ((y : Rat) - (getYuvRange d rg).biasY)))
        (((t.g1 : Rat) * ((v : Rat) - (getYuvRange d rg).biasUv) / 2 ^ p
          - invG1 d rg m * ((v : Rat) - (getYuvRange d rg).biasUv)))
    rw [← hsum]; linarith
  · rw [exactB_eq, offY_eq, offC_eq rg]
    have : ((sumB t (getYuvRange d rg).biasY (getYuvRange d rg).biasUv y u
        : Int) : Rat) / 2 ^ p - (invY d rg * ((y : Rat) - (getYuvRange d rg).biasY)
        + invCb d rg m * ((u : Rat) - (getYuvRange d rg).biasUv))
      = ((t.y : Rat) * ((y : Rat) - (getYuvRange d rg).biasY) / 2 ^ p
          - invY d rg * ((y : Rat) - (getYuvRange d rg).biasY))
        + ((t.cb : Rat) * ((u : Rat) - (getYuvRange d rg).biasUv) / 2 ^ p
          - invCb d rg m * ((u : Rat) - (getYuvRange d rg).biasUv)) := by
      unfold sumB; push_cast; ring
    rw [this]
    refine le_trans (abs_add_le _ _) ?_
    rw [← hsum]; linarith

/-- The fixed-point sums are within `2^d / 2^p` of the exact result. -/
theorem sums_close {p d : Nat} (h : DecodeCfg p d) (h6 : p ≠ 6) (rg : YuvRange) (m : Matrix)
    {y u v : Nat} (hy : y < 2 ^ d) (hu : u < 2 ^ d) (hv : v < 2 ^ d) :
    |((sumR (searchInverse p d rg m) (getYuvRange d rg).biasY (getYuvRange d rg).biasUv y v
      : Int) : Rat) / 2 ^ p - exactR d rg m y u v| ≤ 2 ^ d / 2 ^ p ∧
    |((sumG (searchInverse p d rg m) (getYuvRange d rg).biasY (getYuvRange d rg).biasUv y u v
      : Int) : Rat) / 2 ^ p - exactG d rg m y u v| ≤ 2 ^ d / 2 ^ p ∧
    |((sumB (searchInverse p d rg m) (getYuvRange d rg).biasY (getYuvRange d rg).biasUv y u
      : Int) : Rat) / 2 ^ p - exactB d rg m y u v| ≤ 2 ^ d / 2 ^ p :=
  sums_close_of h.depth rg m (nearest_inv h h6 rg m) hy hu hv

/-- C10: every decoded component is within `1/2 + 2^d / 2^p` code values of the exact
rational ITU-R result saturated to the output range. -/
theorem c10_decode_close (p d : Nat) (h : DecodeCfg p d) (h6 : p ≠ 6) (rg : YuvRange) (m : Matrix)
    (k) (hk : IsKernel k) (q) (hq : IsShift p d q)
    (y u v : Nat) (hy : y < 2 ^ d) (hu : u < 2 ^ d) (hv : v < 2 ^ d) :
    ∃ r g b : Int, k q (searchInverse p d rg m) (getYuvRange d rg).biasY
        (getYuvRange d rg).biasUv y u v = .ok (r, g, b) ∧
      |(r : Rat) - satQ d (exactR d rg m y u v)| ≤ 1 / 2 + 2 ^ d / 2 ^ p ∧
      |(g : Rat) - satQ d (exactG d rg m y u v)| ≤ 1 / 2 + 2 ^ d / 2 ^ p ∧
      |(b : Rat) - satQ d (exactB d rg m y u v)| ≤ 1 / 2 + 2 ^ d / 2 ^ p := by
  obtain ⟨qp, h1, h2⟩ := shift_spec h.pos hq
  have hn := near_of_lt (Depth.ge8 h.depth) rg hy hu hv
  have e := kernel_ok hk h1 (fits_search h rg m) hn
  obtain ⟨c1, c2, c3⟩ := sums_close h h6 rg m hy hu hv
  have key : ∀ (s : Int) (E : Rat), |(s : Rat) / 2 ^ p - E| ≤ 2 ^ d / 2 ^ p →
      |((qp s : Int) : Rat) - satQ d E| ≤ 1 / 2 + 2 ^ d / 2 ^ p := by
    intro s E hE
    obtain ⟨n, a1, a2⟩ := h2 s
    rw [a2]; exact sat_close a1 hE
  exact ⟨_, _, _, e, key _ _ c1, key _ _ c2, key _ _ c3⟩

/-- C10 for 8-bit images at the default precision: within 0.54 code values of the exact result,
so the output is always one of the two integers next to it. -/
theorem c10_decode_close_8bit (rg : YuvRange) (m : Matrix) (k) (hk : IsKernel k)
    (y u v : Nat) (hy : y < 256) (hu : u < 256) (hv : v < 256) :
    ∃ r g b : Int, k (qrshr 13 8) (searchInverse 13 8 rg m) (getYuvRange 8 rg).biasY
        (getYuvRange 8 rg).biasUv y u v = .ok (r, g, b) ∧
      |(r : Rat) - satQ 8 (exactR 8 rg m y u v)| ≤ 54 / 100 ∧
      |(g : Rat) - satQ 8 (exactG 8 rg m y u v)| ≤ 54 / 100 ∧
      |(b : Rat) - satQ 8 (exactB 8 rg m y u v)| ≤ 54 / 100 := by
  obtain ⟨r, g, b, e, h1, h2, h3⟩ := c10_decode_close 13 8 (Or.inr (Or.inl ⟨rfl, Or.inl rfl⟩))
    (by decide) rg m k hk _ (Or.inl rfl) y u v hy hu hv
  have : (1 : Rat) / 2 + 2 ^ 8 / 2 ^ 13 ≤ 54 / 100 := by norm_num
  exact ⟨r, g, b, e, by linarith, by linarith, by linarith⟩

/-- The 6-bit mode is not covered by C10: with BT.709 limited range it is 18 code values off
for a saturated blue, because its coefficients are capped at 127/64. -/
theorem c10_fast_mode_off :
    decodeRow (qrshr 6 8) (searchInverse 6 8 .limited .bt709) 16 128 16 240 128
      = .ok (0, 0, 222) ∧ exactB 8 .limited .bt709 16 240 128 > 236 := by decide +kernel

/-! ## C12 (decoding): neutral chroma decodes to gray -/

/-- C12: with neutral chroma the three components are equal, for every coefficient set. -/
theorem c12_decode_gray (t : InvCoef) (q : Int → Outcome Int) (biasY biasUv y : Nat)
    (r g b : Int) (k) (hk : IsKernel k)
    (h : k q t biasY biasUv y biasUv biasUv = .ok (r, g, b)) : r = g ∧ g = b := by
  have hz : ∀ x : Int, mul32 x 0 = .ok 0 := by
    intro x; exact (mul32_ok (a := x) (b := 0) (by omega) (by omega)).trans (by rw [Int.mul_zero])
  have hs : sub32 (biasUv : Int) biasUv = .ok 0 := by
    exact (sub32_ok (by omega) (by omega)).trans (by rw [Int.sub_self])
  have key : ∀ yv : Int, mul32 ((y : Int) - biasY) t.y = .ok yv →
      -2147483648 ≤ yv ∧ yv ≤ 2147483647 := by
    intro yv hyv
    unfold mul32 chk32 at hyv
    split at hyv
    · injection hyv with hyv; omega
    · cases hyv
  have ha : ∀ yv : Int, (-2147483648 ≤ yv ∧ yv ≤ 2147483647) → add32 yv 0 = .ok yv := by
    intro yv hyv; exact (add32_ok (by omega) (by omega)).trans (by rw [Int.add_zero])
  have hsb : ∀ yv : Int, (-2147483648 ≤ yv ∧ yv ≤ 2147483647) → sub32 yv 0 = .ok yv := by
    intro yv hyv; exact (sub32_ok (by omega) (by omega)).trans (by rw [Int.sub_zero])
  rcases hk with rfl | rfl
  · unfold decodeRow at h
    rw [hs] at h
    simp only [Outcome.bind_ok, hz] at h
    cases hyd : sub32 (y : Int) biasY with
    | ok yd =>
      rw [hyd] at h; simp only [Outcome.bind_ok] at h
      have : yd = (y : Int) - biasY := by
        unfold sub32 chk32 at hyd; split at hyd
        · injection hyd with hyd; exact hyd.symm
        · cases hyd
      subst this
      cases hyv : mul32 ((y : Int) - biasY) t.y with
      | ok yv =>
        have hb := key yv hyv
        rw [hyv] at h
        simp only [Outcome.bind_ok, ha yv hb, hsb yv hb] at h
        cases hq : q yv with
        | ok w =>
          rw [hq] at h; simp only [Outcome.bind_ok, Outcome.pure_eq, Outcome.ok.injEq, Prod.mk.injEq] at h
          omega
        | err e => rw [hq] at h; simp at h
        | panic => rw [hq] at h; simp at h
      | err e => rw [hyv] at h; simp at h
      | panic => rw [hyv] at h; simp at h
    | err e => rw [hyd] at h; simp at h
    | panic => rw [hyd] at h; simp at h
  · unfold decodeTwoRow at h
    rw [hs] at h
    simp only [Outcome.bind_ok, hz] at h
    cases hyd : sub32 (y : Int) biasY with
    | ok yd =>
      rw [hyd] at h; simp only [Outcome.bind_ok] at h
      have : yd = (y : Int) - biasY := by
        unfold sub32 chk32 at hyd; split at hyd
        · injection hyd with hyd; exact hyd.symm
        · cases hyd
      subst this
      cases hyv : mul32 ((y : Int) - biasY) t.y with
      | ok yv =>
        have hb := key yv hyv
        rw [hyv] at h
        simp only [Outcome.bind_ok] at h
        cases hg : sub32 0 t.g1 with
        | ok n1 =>
          have hzz : sub32 0 0 = .ok 0 := by decide
          rw [hg] at h
          simp only [Outcome.bind_ok, hzz, ha yv hb] at h
          cases hq : q yv with
          | ok w =>
            rw [hq] at h; simp only [Outcome.bind_ok, Outcome.pure_eq, Outcome.ok.injEq, Prod.mk.injEq] at h
            omega
          | err e => rw [hq] at h; simp at h
          | panic => rw [hq] at h; simp at h
        | err e => rw [hg] at h; simp at h
        | panic => rw [hg] at h; simp at h
      | err e => rw [hyv] at h; simp at h
      | panic => rw [hyv] at h; simp at h
    | err e => rw [hyd] at h; simp at h
    | panic => rw [hyd] at h; simp at h

example : decodeTwoRow (qrshr 13 8) (searchInverse 13 8 .limited .bt709) 16 128 126 128 128
    = .ok (128, 128, 128) := by decide +kernel

/-! ## C14: monotonicity -/

theorem satShift_mono {p : Nat} (hp : 0 < p) {d : Nat} {a b c : Int} (h : a ≤ b) :
    max (min ((a + c) / 2 ^ p) (2 ^ d - 1)) 0 ≤ max (min ((b + c) / 2 ^ p) (2 ^ d - 1)) 0 := by
  have h1 := one_le_two_pow p
  have : (a + c) / 2 ^ p ≤ (b + c) / 2 ^ p := Int.ediv_le_ediv (by omega) (by omega)
  omega

theorem shift_mono {p d : Nat} (hp : 0 < p) {q} (hq : IsShift p d q) :
    ∃ qp, QOk q qp (2 ^ p) ∧ ∀ a b, a ≤ b → qp a ≤ qp b := by
  rcases hq with rfl | rfl
  · exact ⟨qr p d, qrshr_QOk p d, fun a b h => satShift_mono hp h⟩
  · exact ⟨qrN p (2 ^ d - 1), qrshrN_QOk p _, fun a b h => satShift_mono hp h⟩

/-- C14: raising luma never lowers a component. -/
theorem c14_monotone_luma (p d : Nat) (h : DecodeCfg p d) (rg : YuvRange) (m : Matrix)
    (k) (hk : IsKernel k) (q) (hq : IsShift p d q)
    (y y' u v : Nat) (hyy : y ≤ y') (hy : y' < 2 ^ d) (hu : u < 2 ^ d) (hv : v < 2 ^ d) :
    ∃ r g b r' g' b' : Int,
      k q (searchInverse p d rg m) (getYuvRange d rg).biasY (getYuvRange d rg).biasUv y u v
        = .ok (r, g, b) ∧
      k q (searchInverse p d rg m) (getYuvRange d rg).biasY (getYuvRange d rg).biasUv y' u v
        = .ok (r', g', b') ∧ r ≤ r' ∧ g ≤ g' ∧ b ≤ b' := by
  obtain ⟨qp, h1, h2⟩ := shift_mono h.pos hq
  have hf := fits_search h rg m
  have hn := near_of_lt (Depth.ge8 h.depth) rg (Nat.lt_of_le_of_lt hyy hy) hu hv
  have hn' := near_of_lt (Depth.ge8 h.depth) rg hy hu hv
  refine ⟨_, _, _, _, _, _, kernel_ok hk h1 hf hn, kernel_ok hk h1 hf hn', h2 _ _ ?_, h2 _ _ ?_,
    h2 _ _ ?_⟩
  all_goals
    have e : ((y : Int) - (getYuvRange d rg).biasY) * (searchInverse p d rg m).y ≤
      ((y' : Int) - (getYuvRange d rg).biasY) * (searchInverse p d rg m).y :=
      Int.mul_le_mul_of_nonneg_right (by omega) hf.y0
    first
    | (unfold sumR; omega)
    | (unfold sumG; omega)
    | (unfold sumB; omega)

/-- C14: raising Cr never lowers R, never raises G and leaves B alone. -/
theorem c14_monotone_cr (p d : Nat) (h : DecodeCfg p d) (rg : YuvRange) (m : Matrix)
    (k) (hk : IsKernel k) (q) (hq : IsShift p d q)
    (y u v v' : Nat) (hvv : v ≤ v') (hy : y < 2 ^ d) (hu : u < 2 ^ d) (hv : v' < 2 ^ d) :
    ∃ r g b r' g' b' : Int,
      k q (searchInverse p d rg m) (getYuvRange d rg).biasY (getYuvRange d rg).biasUv y u v
        = .ok (r, g, b) ∧
      k q (searchInverse p d rg m) (getYuvRange d rg).biasY (getYuvRange d rg).biasUv y u v'
        = .ok (r', g', b') ∧ r ≤ r' ∧ g' ≤ g ∧ b = b' := by
  obtain ⟨qp, h1, h2⟩ := shift_mono h.pos hq
  have hf := fits_search h rg m
  have hn := near_of_lt (Depth.ge8 h.depth) rg hy hu (Nat.lt_of_le_of_lt hvv hv)
  have hn' := near_of_lt (Depth.ge8 h.depth) rg hy hu hv
  refine ⟨_, _, _, _, _, _, kernel_ok hk h1 hf hn, kernel_ok hk h1 hf hn', h2 _ _ ?_, h2 _ _ ?_,
    rfl⟩
  · have e : (searchInverse p d rg m).cr * ((v : Int) - (getYuvRange d rg).biasUv) ≤
      (searchInverse p d rg m).cr * ((v' : Int) - (getYuvRange d rg).biasUv) :=
      Int.mul_le_mul_of_nonneg_left (by omega) hf.cr0
    unfold sumR; omega
  · have e : (searchInverse p d rg m).g1 * ((v : Int) - (getYuvRange d rg).biasUv) ≤
      (searchInverse p d rg m).g1 * ((v' : Int) - (getYuvRange d rg).biasUv) :=
      Int.mul_le_mul_of_nonneg_left (by omega) hf.g10
    unfold sumG; omega

/-- C14: raising Cb never lowers B, never raises G and leaves R alone. -/
theorem c14_monotone_cb (p d : Nat) (h : DecodeCfg p d) (rg : YuvRange) (m : Matrix)
    (k) (hk : IsKernel k) (q) (hq : IsShift p d q)
    (y u u' v : Nat) (huu : u ≤ u') (hy : y < 2 ^ d) (hu : u' < 2 ^ d) (hv : v < 2 ^ d) :
    ∃ r g b r' g' b' : Int,
      k q (searchInverse p d rg m) (getYuvRange d rg).biasY (getYuvRange d rg).biasUv y u v
        = .ok (r, g, b) ∧
      k q (searchInverse p d rg m) (getYuvRange d rg).biasY (getYuvRange d rg).biasUv y u' v
        = .ok (r', g', b') ∧ r = r' ∧ g' ≤ g ∧ b ≤ b' := by
  obtain ⟨qp, h1, h2⟩ := shift_mono h.pos hq
  have hf := fits_search h rg m
  have hn := near_of_lt (Depth.ge8 h.depth) rg hy (Nat.lt_of_le_of_lt huu hu) hv
  have hn' := near_of_lt (Depth.ge8 h.depth) rg hy hu hv
  refine ⟨_, _, _, _, _, _, kernel_ok hk h1 hf hn, kernel_ok hk h1 hf hn', rfl, h2 _ _ ?_,
    h2 _ _ ?_⟩
  · have e : (searchInverse p d rg m).g2 * ((u : Int) - (getYuvRange d rg).biasUv) ≤
      (searchInverse p d rg m).g2 * ((u' : Int) - (getYuvRange d rg).biasUv) :=
      Int.mul_le_mul_of_nonneg_left (by omega) hf.g20
    unfold sumG; omega
  · have e : (searchInverse p d rg m).cb * ((u : Int) - (getYuvRange d rg).biasUv) ≤
      (searchInverse p d rg m).cb * ((u' : Int) - (getYuvRange d rg).biasUv) :=
      Int.mul_le_mul_of_nonneg_left (by omega) hf.cb0
    unfold sumB; omega

end Verif
