import Verif.Spec.VecEncode
import Verif.Props.PlanarEncode
import Verif.Lemmas.VecArith
/-! # Accuracy of the x86 encoding arithmetic -/
namespace Verif
open Spec

/-- The sum of `vecSum` before saturation. -/
def vecRaw (bias : Int) (k : Int × Int × Int) (r g b : Nat) : Int :=
  (bias + (mulRound r k.1 + mulRound g k.2.1 + mulRound b k.2.2)) / 4

theorem vecSum_raw (bias : Int) (k : Int × Int × Int) (r g b : Nat) :
    vecSum bias k r g b = byteSat (vecRaw bias k r g b) := rfl

/-- In units of `2^-17`: the sum is off the exact one by at most three rounded products and the
dropped fraction. -/
theorem vecRaw_bounds (bias : Int) (k : Int × Int × Int) (r g b : Nat) :
    (r * k.1 + g * k.2.1 + b * k.2.2 + bias * 32768) - 147456 ≤ 131072 * vecRaw bias k r g b ∧
    131072 * vecRaw bias k r g b ≤ (r * k.1 + g * k.2.1 + b * k.2.2 + bias * 32768) + 49152 := by
  unfold vecRaw mulRound
  generalize (r : Int) * k.1 = x
  generalize (g : Int) * k.2.1 = y
  generalize (b : Int) * k.2.2 = z
  omega

/-- A product with a factor from an interval `[0, n]`. -/
theorem mul_between {f n : Nat} (h : f ≤ n) (k : Int) :
    (n : Int) * min 0 k ≤ f * k ∧ (f : Int) * k ≤ n * max 0 k := by
  have hf : (f : Int) ≤ n := by exact_mod_cast h
  rcases le_total 0 k with hk | hk
  · rw [min_eq_left hk, max_eq_right hk]
    exact ⟨by have := mul_nonneg (Int.natCast_nonneg f) hk; simpa using this,
      mul_le_mul_of_nonneg_right hf hk⟩
  · rw [min_eq_right hk, max_eq_left hk]
    exact ⟨mul_le_mul_of_nonpos_right hf hk, by
      have := mul_nonpos_of_nonneg_of_nonpos (Int.natCast_nonneg f) hk; simpa using this⟩

/-- Signs and sums of the forward coefficients: luma coefficients are not negative, chroma
coefficients add up to zero. -/
theorem fwd_table (rg : YuvRange) (m : Matrix) :
    let t := searchForward 13 8 rg m
    (0 ≤ t.yr ∧ 0 ≤ t.yg ∧ 0 ≤ t.yb ∧ t.yr + t.yg + t.yb ≤ 8193) ∧
    (t.cbR + t.cbG + t.cbB = 0 ∧ max 0 t.cbR + max 0 t.cbG + max 0 t.cbB ≤ 4096) ∧
    (t.crR + t.crG + t.crB = 0 ∧ max 0 t.crR + max 0 t.crG + max 0 t.crB ≤ 4096) := by
  cases rg <;> cases m <;> decide +kernel

theorem byteSat_near {z v : Int} (h0 : 0 ≤ v) (h1 : v ≤ 255) (h : z ≤ v + 1 ∧ v ≤ z + 1) :
    (byteSat z : Int) ≤ v + 1 ∧ v ≤ (byteSat z : Int) + 1 := by
  unfold byteSat; omega

theorem encVal_bounds (k1 k2 k3 : Int) (bias r g b : Nat) :
    let X := (r : Int) * k1 + g * k2 + b * k3 + bias * 8192
    X - 4096 ≤ 8192 * encVal 13 k1 k2 k3 bias r g b ∧
      8192 * encVal 13 k1 k2 k3 bias r g b ≤ X + 4095 := by
  unfold encVal
  generalize (r : Int) * k1 = x
  generalize (g : Int) * k2 = y
  generalize (b : Int) * k3 = z
  have e : (2 : Int) ^ 13 = 8192 := by norm_num
  have e' : (2 : Int) ^ (13 - 1) = 4096 := by norm_num
  rw [e, e']
  dsimp only
  omega

/-! ## Luma -/

/-- Vector luma before saturation, in units of `2^-17`, against the exact sum of the table
coefficients. -/
theorem lumaRaw_bounds (rg : YuvRange) (m : Matrix) {r g b : Nat} (hr : r < 256) (hg : g < 256)
    (hb : b < 256) :
    let t := searchForward 13 8 rg m
    let X := (r : Int) * t.yr + g * t.yg + b * t.yb + (getYuvRange 8 rg).biasY * 8192
    let z := vecRaw (4 * (getYuvRange 8 rg).biasY) (t.yr, t.yg, t.yb) (expand12 r) (expand12 g)
      (expand12 b)
    16 * X - 147456 ≤ 131072 * z ∧ 131072 * z ≤ 16 * X + 172047 := by
  intro t X z
  obtain ⟨a1, a2⟩ := vecRaw_bounds (4 * (getYuvRange 8 rg).biasY) (t.yr, t.yg, t.yb) (expand12 r)
    (expand12 g) (expand12 b)
  obtain ⟨⟨k1, k2, k3, k4⟩, -, -⟩ := fwd_table rg m
  have b1 := mul_between (show r / 16 ≤ 15 by omega) t.yr
  have b2 := mul_between (show g / 16 ≤ 15 by omega) t.yg
  have b3 := mul_between (show b / 16 ≤ 15 by omega) t.yb
  rw [min_eq_left k1, max_eq_right k1] at b1
  rw [min_eq_left k2, max_eq_right k2] at b2
  rw [min_eq_left k3, max_eq_right k3] at b3
  have e : ∀ x : Nat, ((expand12 x : Nat) : Int) = 16 * (x : Int) + ((x / 16 : Nat) : Int) := by
    intro x; unfold expand12; push_cast; rfl
  simp only [e, Int.add_mul, Int.mul_assoc] at a1 a2
  simp only [Int.mul_zero] at b1 b2 b3
  push_cast at *
  change t.yr + t.yg + t.yb ≤ 8193 at k4
  constructor <;> linarith

theorem lumaVal_range (rg : YuvRange) (m : Matrix) {r g b : Nat} (hr : r < 256) (hg : g < 256)
    (hb : b < 256) :
    (0 ≤ lumaVal 13 8 rg m r g b ∧ lumaVal 13 8 rg m r g b ≤ 255) ∧
    (0 ≤ cbVal 13 8 rg m r g b ∧ cbVal 13 8 rg m r g b ≤ 255) ∧
    (0 ≤ crVal 13 8 rg m r g b ∧ crVal 13 8 rg m r g b ≤ 255) := by
  obtain ⟨⟨e1, e2, e3⟩, -⟩ := low8_encode (p := 13) (Or.inl rfl) rg m hr hg hb
  have l1 := low8_lt (lumaVal 13 8 rg m r g b)
  have l2 := low8_lt (cbVal 13 8 rg m r g b)
  have l3 := low8_lt (crVal 13 8 rg m r g b)
  omega

/-- Vector and scalar luma of a pixel differ by at most one. -/
theorem vecLuma_scalar (ch : Channels) (rg : YuvRange) (m : Matrix) {px : Buf}
    (h : ∀ a ∈ px, a < 256) :
    vecLuma ch rg m px ≤ luma8 13 ch rg m px + 1 ∧ luma8 13 ch rg m px ≤ vecLuma ch rg m px + 1 := by
  obtain ⟨hr, hg, hb⟩ := comps_lt (by omega) ch h
  have h1 := lumaRaw_bounds rg m hr hg hb
  have h2 := encVal_bounds (searchForward 13 8 rg m).yr (searchForward 13 8 rg m).yg
    (searchForward 13 8 rg m).yb (getYuvRange 8 rg).biasY (red ch px) (green ch px) (blue ch px)
  obtain ⟨⟨e1, -, -⟩, -⟩ := low8_encode (p := 13) (Or.inl rfl) rg m hr hg hb
  have hrg := (lumaVal_range rg m hr hg hb).1
  unfold luma8 vecLuma
  simp only [vecSum_raw]
  dsimp only at h1 h2
  have hv : lumaVal 13 8 rg m (red ch px) (green ch px) (blue ch px)
    = encVal 13 (searchForward 13 8 rg m).yr (searchForward 13 8 rg m).yg
    (searchForward 13 8 rg m).yb (getYuvRange 8 rg).biasY (red ch px) (green ch px) (blue ch px) := rfl
  rw [← hv] at h2
  have := byteSat_near hrg.1 hrg.2 (z := vecRaw (4 * (getYuvRange 8 rg).biasY)
    ((searchForward 13 8 rg m).yr, (searchForward 13 8 rg m).yg, (searchForward 13 8 rg m).yb)
    (expand12 (red ch px)) (expand12 (green ch px)) (expand12 (blue ch px))) (by omega)
  omega

/-! ## Chroma -/

/-- What one chroma row needs to know about its coefficients. -/
structure ChromaRowOk (k : Int × Int × Int) : Prop where
  sum : k.1 + k.2.1 + k.2.2 = 0
  pos : max 0 k.1 + max 0 k.2.1 + max 0 k.2.2 ≤ 4096

theorem ChromaRowOk.neg {k : Int × Int × Int} (h : ChromaRowOk k) :
    -4096 ≤ min 0 k.1 + min 0 k.2.1 + min 0 k.2.2 := by
  have h1 := h.sum; have h2 := h.pos; omega

/-- Differences from an interval of length `2n` move the sum by at most `n` times the sum of the
positive coefficients, whatever the middle of the interval. -/
theorem ChromaRowOk.shift {k : Int × Int × Int} (h : ChromaRowOk k) {n : Nat} {lo d1 d2 d3 : Int}
    (h1 : lo ≤ d1 ∧ d1 ≤ lo + n) (h2 : lo ≤ d2 ∧ d2 ≤ lo + n) (h3 : lo ≤ d3 ∧ d3 ≤ lo + n) :
    -(n * 4096) ≤ d1 * k.1 + d2 * k.2.1 + d3 * k.2.2 ∧
      d1 * k.1 + d2 * k.2.1 + d3 * k.2.2 ≤ n * 4096 := by
  have key : ∀ d : Int, lo ≤ d ∧ d ≤ lo + n → ∀ k : Int,
      n * min 0 k ≤ (d - lo) * k ∧ (d - lo) * k ≤ n * max 0 k := by
    intro d hd k
    have hn := mul_between (f := (d - lo).toNat) (n := n) (by omega) k
    rw [Int.toNat_of_nonneg (by omega)] at hn
    exact hn
  have a1 := key d1 h1 k.1
  have a2 := key d2 h2 k.2.1
  have a3 := key d3 h3 k.2.2
  have hp : (n : Int) * (max 0 k.1 + max 0 k.2.1 + max 0 k.2.2) ≤ n * 4096 :=
    mul_le_mul_of_nonneg_left h.pos (Int.natCast_nonneg n)
  have hq : (n : Int) * (-4096) ≤ n * (min 0 k.1 + min 0 k.2.1 + min 0 k.2.2) :=
    mul_le_mul_of_nonneg_left h.neg (Int.natCast_nonneg n)
  have e : d1 * k.1 + d2 * k.2.1 + d3 * k.2.2
      = (d1 - lo) * k.1 + (d2 - lo) * k.2.1 + (d3 - lo) * k.2.2 + lo * (k.1 + k.2.1 + k.2.2) := by ring
  rw [e, h.sum]
  constructor <;> linarith

/-- 4:4:4 chroma before saturation against the exact sum. -/
theorem chromaRaw444 {k : Int × Int × Int} (h : ChromaRowOk k) {r g b : Nat} (hr : r < 256)
    (hg : g < 256) (hb : b < 256) :
    let X := (r : Int) * k.1 + g * k.2.1 + b * k.2.2 + 128 * 8192
    let z := vecRaw 513 k (expand12 r) (expand12 g) (expand12 b)
    16 * X - 176128 ≤ 131072 * z ∧ 131072 * z ≤ 16 * X + 143360 := by
  intro X z
  obtain ⟨a1, a2⟩ := vecRaw_bounds 513 k (expand12 r) (expand12 g) (expand12 b)
  have s := h.shift (n := 15) (lo := 0) (d1 := ((r / 16 : Nat) : Int)) (d2 := ((g / 16 : Nat) : Int))
    (d3 := ((b / 16 : Nat) : Int)) (by omega) (by omega) (by omega)
  have e : ∀ x : Nat, ((expand12 x : Nat) : Int) = 16 * (x : Int) + ((x / 16 : Nat) : Int) := by
    intro x; unfold expand12; push_cast; rfl
  simp only [e, Int.add_mul, Int.mul_assoc] at a1 a2
  push_cast at *
  constructor <;> linarith

/-- Subsampled chroma before saturation against the exact sum for other values `2S` of the doubled
components. -/
theorem chromaRawSub {k : Int × Int × Int} (h : ChromaRowOk k) {n : Nat} {lo : Int}
    {r g b r' g' b' : Nat} (hr : lo ≤ (r : Int) - r' ∧ (r : Int) - r' ≤ lo + n)
    (hg : lo ≤ (g : Int) - g' ∧ (g : Int) - g' ≤ lo + n)
    (hb : lo ≤ (b : Int) - b' ∧ (b : Int) - b' ≤ lo + n) :
    let X := (r' : Int) * k.1 + g' * k.2.1 + b' * k.2.2 + 2 * 128 * 8192
    let z := vecRaw 513 k (8 * r) (8 * g) (8 * b)
    8 * X - 114688 - n * 32768 ≤ 131072 * z ∧ 131072 * z ≤ 8 * X + 81920 + n * 32768 := by
  intro X z
  obtain ⟨a1, a2⟩ := vecRaw_bounds 513 k (8 * r) (8 * g) (8 * b)
  have s := h.shift hr hg hb
  push_cast at a1 a2
  simp only [Int.sub_mul] at s
  simp only [Int.mul_assoc] at a1 a2
  constructor <;> linarith

theorem chromaRowOk (rg : YuvRange) (m : Matrix) :
    let t := searchForward 13 8 rg m
    ChromaRowOk (t.cbR, t.cbG, t.cbB) ∧ ChromaRowOk (t.crR, t.crG, t.crB) :=
  ⟨⟨(fwd_table rg m).2.1.1, (fwd_table rg m).2.1.2⟩, ⟨(fwd_table rg m).2.2.1, (fwd_table rg m).2.2.2⟩⟩

/-! ### The averaged components -/

/-- The subsampled word is eight times a doubled average `h`, which is near twice the scalar
average and at most one above twice the exact mean. -/
theorem chromaWord_sub {s : Sampling} (hs : s ≠ .yuv444) (last : Bool) {l : List Nat}
    (hl : l.length = 1 ∨ l.length = 2 ∨ l.length = 4) (h2 : last = true → l.length = 2) :
    ∃ h : Nat, chromaWord s last l = 8 * h ∧
      ((if last then 0 else -1 : Int) ≤ (h : Int) - (2 * (if last then avgDown l else avgUp l) : Nat) ∧
        (h : Int) - (2 * (if last then avgDown l else avgUp l) : Nat)
          ≤ (if last then 0 else -1 : Int) + (2 : Nat)) ∧
      2 * l.sum ≤ h * l.length ∧ h * l.length ≤ 2 * l.sum + l.length ∧
      ((∀ a ∈ l, a < 256) → h ≤ 510) := by
  match l, hl with
  | [a], _ =>
    have : last = false := by cases last <;> simp_all
    subst this
    refine ⟨2 * a, by simp only [chromaWord, if_neg hs]; omega, ?_, ?_, ?_, ?_⟩
    · simp only [avgUp, List.sum_cons, List.sum_nil, List.length_cons, List.length_nil]
      norm_num
    · simp
    · simp
    · intro h; have := h a (by simp); omega
  | [a, b], _ =>
    cases last
    · refine ⟨a + b, by simp [chromaWord], ?_, ?_, ?_, ?_⟩
      · simp only [avgUp, List.sum_cons, List.sum_nil, List.length_cons, List.length_nil]
        norm_num
        omega
      · simp only [List.sum_cons, List.sum_nil, List.length_cons, List.length_nil]; omega
      · simp only [List.sum_cons, List.sum_nil, List.length_cons, List.length_nil]; omega
      · intro h; have := h a (by simp); have := h b (by simp); omega
    · refine ⟨2 * ((a + b + 1) / 2), by simp only [chromaWord, if_true]; omega, ?_, ?_, ?_, ?_⟩
      · simp only [avgDown, List.sum_cons, List.sum_nil, List.length_cons, List.length_nil]
        norm_num
        omega
      · simp only [List.sum_cons, List.sum_nil, List.length_cons, List.length_nil]; omega
      · simp only [List.sum_cons, List.sum_nil, List.length_cons, List.length_nil]; omega
      · intro h; have := h a (by simp); have := h b (by simp); omega
  | [a, b, c, d], _ =>
    have : last = false := by cases last <;> simp_all
    subst this
    refine ⟨(a + c + 1) / 2 + (b + d + 1) / 2, by simp [chromaWord], ?_, ?_, ?_, ?_⟩
    · simp only [avgUp, List.sum_cons, List.sum_nil, List.length_cons, List.length_nil]
      norm_num
      omega
    · simp only [List.sum_cons, List.sum_nil, List.length_cons, List.length_nil]; omega
    · simp only [List.sum_cons, List.sum_nil, List.length_cons, List.length_nil]; omega
    · intro h; have := h a (by simp); have := h b (by simp); have := h c (by simp)
      have := h d (by simp); omega
  | [], hl => simp at hl
  | [_, _, _], hl => simp at hl
  | _ :: _ :: _ :: _ :: _ :: _, hl => simp at hl

/-- Shape of a block of pixels: one pixel without subsampling; one, two or four with. -/
structure BlockShape (s : Sampling) (last : Bool) (n : Nat) : Prop where
  full : s = .yuv444 → n = 1 ∧ last = false
  len : n = 1 ∨ n = 2 ∨ n = 4
  last2 : last = true → n = 2

/-- The scalar average of a component. -/
abbrev avgOf (last : Bool) : List Nat → Nat := if last then avgDown else avgUp

theorem avgOf_lt {last : Bool} {l : List Nat} (h : ∀ a ∈ l, a < 256) : avgOf last l < 256 := by
  unfold avgOf; split
  · exact (avg_lt (by omega) h).2
  · exact (avg_lt (by omega) h).1

/-- Vector and scalar chroma before saturation differ by at most one. -/
theorem chromaRaw_scalar {k : Int × Int × Int} (hk : ChromaRowOk k) {s : Sampling} {last : Bool}
    {lr lg lb : List Nat} (hr : BlockShape s last lr.length) (hg : lg.length = lr.length)
    (hb : lb.length = lr.length) (br : ∀ a ∈ lr, a < 256) (bg : ∀ a ∈ lg, a < 256)
    (bb : ∀ a ∈ lb, a < 256) :
    let z := vecRaw 513 k (chromaWord s last lr) (chromaWord s last lg) (chromaWord s last lb)
    let v := encVal 13 k.1 k.2.1 k.2.2 128 (avgOf last lr) (avgOf last lg) (avgOf last lb)
    z ≤ v + 1 ∧ v ≤ z + 1 := by
  intro z v
  have hv := encVal_bounds k.1 k.2.1 k.2.2 128 (avgOf last lr) (avgOf last lg) (avgOf last lb)
  by_cases hs : s = .yuv444
  · obtain ⟨h1, h2⟩ := hr.full hs
    obtain ⟨a, rfl⟩ := List.length_eq_one_iff.1 h1
    obtain ⟨b, rfl⟩ := List.length_eq_one_iff.1 (hg.trans h1)
    obtain ⟨c, rfl⟩ := List.length_eq_one_iff.1 (hb.trans h1)
    subst hs h2
    have h3 := chromaRaw444 hk (br a (by simp)) (bg b (by simp)) (bb c (by simp))
    have e : ∀ a : Nat, chromaWord .yuv444 false [a] = expand12 a := fun a => rfl
    have e' : ∀ a : Nat, avgOf false [a] = a := fun a => by simp [avgOf, avgUp]
    simp only [z, v, e, e'] at h3 hv ⊢
    omega
  · obtain ⟨r, er, r1, -, -, -⟩ := chromaWord_sub hs last hr.len hr.last2
    obtain ⟨g, eg, g1, -, -, -⟩ := chromaWord_sub hs last (hg ▸ hr.len) (fun h => hg ▸ hr.last2 h)
    obtain ⟨b, eb, b1, -, -, -⟩ := chromaWord_sub hs last (hb ▸ hr.len) (fun h => hb ▸ hr.last2 h)
    have e : ∀ l : List Nat, (if last then avgDown l else avgUp l) = avgOf last l := by
      intro l; unfold avgOf; split <;> rfl
    rw [e] at r1 g1 b1
    have h3 := chromaRawSub hk r1 g1 b1
    simp only [z, v, er, eg, eb]
    dsimp only at hv h3
    push_cast at h3
    simp only [Int.mul_assoc] at h3
    omega

/-- Vector and scalar chroma of a block differ by at most one. -/
theorem vecChroma_scalar {s : Sampling} {last : Bool} (ch : Channels) (rg : YuvRange) (m : Matrix)
    {l : List Buf} (hl : BlockShape s last l.length) (hb : ∀ px ∈ l, ∀ a ∈ px, a < 256) :
    (vecCb s ch rg m last l ≤ cb8 13 ch rg m (avgOf last) l + 1 ∧
      cb8 13 ch rg m (avgOf last) l ≤ vecCb s ch rg m last l + 1) ∧
    (vecCr s ch rg m last l ≤ cr8 13 ch rg m (avgOf last) l + 1 ∧
      cr8 13 ch rg m (avgOf last) l ≤ vecCr s ch rg m last l + 1) := by
  have lt : ∀ f : Buf → Nat, (∀ px, (∀ a ∈ px, a < 256) → f px < 256) → ∀ a ∈ l.map f, a < 256 := by
    intro f hf a ha
    obtain ⟨px, hpx, rfl⟩ := List.mem_map.1 ha
    exact hf px (hb px hpx)
  have lr := lt (red ch) fun px hp => (comps_lt (by omega) ch hp).1
  have lg := lt (green ch) fun px hp => (comps_lt (by omega) ch hp).2.1
  have lb := lt (blue ch) fun px hp => (comps_lt (by omega) ch hp).2.2
  obtain ⟨⟨-, e2, e3⟩, -⟩ := low8_encode (p := 13) (Or.inl rfl) rg m (avgOf_lt (last := last) lr)
    (avgOf_lt (last := last) lg) (avgOf_lt (last := last) lb)
  obtain ⟨-, r2, r3⟩ := lumaVal_range rg m (avgOf_lt (last := last) lr)
    (avgOf_lt (last := last) lg) (avgOf_lt (last := last) lb)
  have hbu : (getYuvRange 8 rg).biasUv = 128 := by cases rg <;> rfl
  obtain ⟨k1, k2⟩ := chromaRowOk rg m
  have c1 := chromaRaw_scalar k1 (s := s) (last := last) (lr := l.map (red ch))
    (lg := l.map (green ch)) (lb := l.map (blue ch)) (by simpa using hl) (by simp) (by simp) lr lg lb
  have c2 := chromaRaw_scalar k2 (s := s) (last := last) (lr := l.map (red ch))
    (lg := l.map (green ch)) (lb := l.map (blue ch)) (by simpa using hl) (by simp) (by simp) lr lg lb
  have v1 : cbVal 13 8 rg m (avgOf last (l.map (red ch))) (avgOf last (l.map (green ch)))
      (avgOf last (l.map (blue ch))) = encVal 13 (searchForward 13 8 rg m).cbR
        (searchForward 13 8 rg m).cbG (searchForward 13 8 rg m).cbB 128
        (avgOf last (l.map (red ch))) (avgOf last (l.map (green ch)))
        (avgOf last (l.map (blue ch))) := by unfold cbVal; rw [hbu]
  have v2 : crVal 13 8 rg m (avgOf last (l.map (red ch))) (avgOf last (l.map (green ch)))
      (avgOf last (l.map (blue ch))) = encVal 13 (searchForward 13 8 rg m).crR
        (searchForward 13 8 rg m).crG (searchForward 13 8 rg m).crB 128
        (avgOf last (l.map (red ch))) (avgOf last (l.map (green ch)))
        (avgOf last (l.map (blue ch))) := by unfold crVal; rw [hbu]
  dsimp only at c1 c2
  rw [← v1] at c1
  rw [← v2] at c2
  have d1 := byteSat_near r2.1 r2.2 c1
  have d2 := byteSat_near r3.1 r3.2 c2
  rw [← e2, ← vecSum_raw] at d1
  rw [← e3, ← vecSum_raw] at d2
  unfold cb8 cr8 vecCb vecCr
  dsimp only
  omega

end Verif
