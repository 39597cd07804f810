import Verif.Lemmas.VecEncode
/-! # The x86 encoding arithmetic: distance to the exact result, ranges, gray -/
namespace Verif
open Spec

/-! ## Distance to the exact ITU-R result -/

theorem byteSat_exact {z : Int} {e E : Rat} (h0 : -(1 / 2) ≤ e) (h1 : e ≤ 511 / 2) (hE : 1 / 2 ≤ E)
    (h : |(z : Rat) - e| ≤ E) : |(byteSat z : Rat) - e| ≤ E := by
  rw [abs_le] at h ⊢
  by_cases hz0 : z < 0
  · have e1 : byteSat z = 0 := by unfold byteSat; omega
    have : (z : Rat) ≤ 0 := by exact_mod_cast hz0.le
    rw [e1]; constructor <;> push_cast <;> linarith
  · by_cases hz1 : 255 < z
    · have e1 : byteSat z = 255 := by unfold byteSat; omega
      have : (255 : Rat) ≤ z := by exact_mod_cast hz1.le
      rw [e1]; constructor <;> push_cast <;> linarith
    · have e1 : (byteSat z : Int) = z := by unfold byteSat; omega
      have e2 : (byteSat z : Rat) = (z : Rat) := by exact_mod_cast e1
      rw [e2]; exact h

/-- Table coefficients instead of the exact ones. -/
theorem coefs_close {k1 k2 k3 : Int} {q1 q2 q3 x y z : Rat}
    (n1 : NearestCoef 13 k1 q1) (n2 : NearestCoef 13 k2 q2) (n3 : NearestCoef 13 k3 q3)
    (hx : |x| ≤ 255) (hy : |y| ≤ 255) (hz : |z| ≤ 255) :
    |(k1 * x + k2 * y + k3 * z) / 8192 - (q1 * x + q2 * y + q3 * z)| ≤ 383 / 8192 := by
  have e1 := coef_err n1 hx
  have e2 := coef_err n2 hy
  have e3 := coef_err n3 hz
  rw [abs_le] at *
  norm_num at e1 e2 e3 ⊢
  constructor <;> linarith

theorem cast_comp {r : Nat} (h : r < 256) : |(r : Rat)| ≤ 255 := by
  rw [abs_of_nonneg (by positivity)]; exact_mod_cast (by omega : r ≤ 255)

theorem exactY_range (rg : YuvRange) (m : Matrix) {r g b : Nat} (hr : r < 256) (hg : g < 256)
    (hb : b < 256) : 0 ≤ exactY 8 rg m r g b ∧ exactY 8 rg m r g b ≤ 255 := by
  obtain ⟨w1, w2, w3, w4⟩ := weights m
  have c : ∀ x : Nat, x < 256 → (0 : Rat) ≤ x ∧ (x : Rat) ≤ 255 := fun x h =>
    ⟨by positivity, by exact_mod_cast (by omega : x ≤ 255)⟩
  obtain ⟨r0, r1⟩ := c r hr
  obtain ⟨g0, g1⟩ := c g hg
  obtain ⟨b0, b1⟩ := c b hb
  have a1 := mul_nonneg w1 r0
  have a2 := mul_nonneg w2 g0
  have a3 := mul_nonneg w3 b0
  have d1 := mul_le_mul_of_nonneg_left r1 w1
  have d2 := mul_le_mul_of_nonneg_left g1 w2
  have d3 := mul_le_mul_of_nonneg_left b1 w3
  unfold exactY exactLuma
  cases rg
  · have : maxV 8 = 255 ∧ gainY 8 .limited = 219 ∧ offY 8 .limited = 16 := by
      unfold maxV gainY offY; norm_num
    rw [this.1, this.2.1, this.2.2]
    constructor <;> linarith
  · have : maxV 8 = 255 ∧ gainY 8 .full = 255 ∧ offY 8 .full = 0 := by
      unfold maxV gainY offY; norm_num
    rw [this.1, this.2.1, this.2.2]
    constructor <;> linarith

/-- Vector luma is within 1.36 code values of the exact luma. -/
theorem vecLuma_exact (ch : Channels) (rg : YuvRange) (m : Matrix) {px : Buf}
    (h : ∀ a ∈ px, a < 256) :
    |(vecLuma ch rg m px : Rat) - exactY 8 rg m (red ch px) (green ch px) (blue ch px)|
      ≤ 136 / 100 := by
  obtain ⟨hr, hg, hb⟩ := comps_lt (by omega) ch h
  have ht : searchForward 13 8 rg m = computedForward 13 8 rg m :=
    c06_searchForward 13 8 (by unfold Prec; omega) (Or.inl rfl) rg m
  obtain ⟨-, n1, n2, n3, -⟩ := c06_forward_tables 13 8 (by unfold Prec; omega) (Or.inl rfl) rg m
  rw [← ht] at n1 n2 n3
  have h1 := lumaRaw_bounds rg m hr hg hb
  obtain ⟨x0, x1⟩ := exactY_range rg m hr hg hb
  have hc := coefs_close n1 n2 n3 (cast_comp hr) (cast_comp hg) (cast_comp hb)
  unfold vecLuma
  rw [vecSum_raw]
  refine byteSat_exact (by linarith) (by linarith) (by norm_num) ?_
  dsimp only at h1
  generalize vecRaw _ _ _ _ _ = z at *
  rw [exactY_eq, offY_eq] at *
  obtain ⟨h1, h2⟩ := h1
  have h1' : (16 : Rat) * ((red ch px : Rat) * ((searchForward 13 8 rg m).yr : Rat)
      + (green ch px : Rat) * ((searchForward 13 8 rg m).yg : Rat)
      + (blue ch px : Rat) * ((searchForward 13 8 rg m).yb : Rat)
      + ((getYuvRange 8 rg).biasY : Rat) * 8192) - 147456 ≤ 131072 * (z : Rat) := by exact_mod_cast h1
  have h2' : 131072 * (z : Rat) ≤ (16 : Rat) * ((red ch px : Rat) * ((searchForward 13 8 rg m).yr : Rat)
      + (green ch px : Rat) * ((searchForward 13 8 rg m).yg : Rat)
      + (blue ch px : Rat) * ((searchForward 13 8 rg m).yb : Rat)
      + ((getYuvRange 8 rg).biasY : Rat) * 8192) + 172047 := by exact_mod_cast h2
  rw [abs_le] at *
  constructor <;> linarith

theorem mean_range {l : List Nat} (hl : 0 < l.length) (h : ∀ a ∈ l, a < 256) :
    0 ≤ mean l ∧ mean l ≤ 255 := by
  have hs : l.sum ≤ 255 * l.length := by
    clear hl
    induction l with
    | nil => simp
    | cons a l ih =>
      have h1 := h a (by simp)
      have h2 := ih fun b hb => h b (by simp [hb])
      simp only [List.sum_cons, List.length_cons]; omega
  have hp : (0 : Rat) < l.length := by exact_mod_cast hl
  unfold mean
  constructor
  · positivity
  · rw [div_le_iff₀ hp]; exact_mod_cast hs

theorem exactC_range (rg : YuvRange) (m : Matrix) {r g b : Rat} (hr : 0 ≤ r ∧ r ≤ 255)
    (hg : 0 ≤ g ∧ g ≤ 255) (hb : 0 ≤ b ∧ b ≤ 255) :
    (1 / 2 ≤ exactCb 8 rg m r g b ∧ exactCb 8 rg m r g b ≤ 511 / 2) ∧
    (1 / 2 ≤ exactCr 8 rg m r g b ∧ exactCr 8 rg m r g b ≤ 511 / 2) := by
  have c : ∀ x : Rat, 0 ≤ x ∧ x ≤ 255 → |x - 255 / 2| ≤ 255 / 2 := by
    intro x hx; rw [abs_le]; constructor <;> linarith [hx.1, hx.2]
  have g1 : exactCb 8 rg m (255 / 2) (255 / 2) (255 / 2) = 128 := by
    cases rg <;> cases m <;>
      (unfold exactCb exactLuma offC gainC maxV kg kr kb; norm_num)
  have g2 : exactCr 8 rg m (255 / 2) (255 / 2) (255 / 2) = 128 := by
    cases rg <;> cases m <;>
      (unfold exactCr exactLuma offC gainC maxV kg kr kb; norm_num)
  have l1 := exactCb_lip rg m (c r hr) (c g hg) (c b hb)
  have l2 := exactCr_lip rg m (c r hr) (c g hg) (c b hb)
  rw [g1, abs_le] at l1
  rw [g2, abs_le] at l2
  refine ⟨⟨?_, ?_⟩, ?_, ?_⟩ <;> linarith [l1.1, l1.2, l2.1, l2.2]

/-- Chroma before saturation against the sum over the exact means. -/
theorem chromaRaw_mean {k : Int × Int × Int} (hk : ChromaRowOk k) {s : Sampling} {last : Bool}
    {lr lg lb : List Nat} (hr : BlockShape s last lr.length) (hg : lg.length = lr.length)
    (hb : lb.length = lr.length) (br : ∀ a ∈ lr, a < 256) (bg : ∀ a ∈ lg, a < 256)
    (bb : ∀ a ∈ lb, a < 256) :
    |(vecRaw 513 k (chromaWord s last lr) (chromaWord s last lg) (chromaWord s last lb) : Rat)
      - (128 + (k.1 * mean lr + k.2.1 * mean lg + k.2.2 * mean lb) / 8192)|
        ≤ if s = .yuv444 then 43 / 32 else 9 / 8 := by
  by_cases hs : s = .yuv444
  · rw [if_pos hs]
    obtain ⟨h1, h2⟩ := hr.full hs
    obtain ⟨a, rfl⟩ := List.length_eq_one_iff.1 h1
    obtain ⟨b, rfl⟩ := List.length_eq_one_iff.1 (hg.trans h1)
    obtain ⟨c, rfl⟩ := List.length_eq_one_iff.1 (hb.trans h1)
    subst hs h2
    have h3 := chromaRaw444 hk (br a (by simp)) (bg b (by simp)) (bb c (by simp))
    have e : ∀ a : Nat, chromaWord .yuv444 false [a] = expand12 a := fun a => rfl
    have e' : ∀ a : Nat, mean [a] = a := fun a => by simp [mean]
    simp only [e, e'] at h3 ⊢
    generalize vecRaw _ _ _ _ _ = z at *
    obtain ⟨h3, h4⟩ := h3
    have h3' : (16 : Rat) * ((a : Rat) * (k.1 : Rat) + b * (k.2.1 : Rat) + c * (k.2.2 : Rat)
      + 128 * 8192) - 176128 ≤ 131072 * (z : Rat) := by exact_mod_cast h3
    have h4' : 131072 * (z : Rat) ≤ (16 : Rat) * ((a : Rat) * (k.1 : Rat) + b * (k.2.1 : Rat)
      + c * (k.2.2 : Rat) + 128 * 8192) + 143360 := by exact_mod_cast h4
    rw [abs_le]
    constructor <;> linarith
  · rw [if_neg hs]
    obtain ⟨r, er, -, r1, r2, -⟩ := chromaWord_sub hs last hr.len hr.last2
    obtain ⟨g, eg, -, g1, g2, -⟩ := chromaWord_sub hs last (hg ▸ hr.len) (fun h => hg ▸ hr.last2 h)
    obtain ⟨b, eb, -, b1, b2, -⟩ := chromaWord_sub hs last (hb ▸ hr.len) (fun h => hb ▸ hr.last2 h)
    rw [hg] at g1 g2
    rw [hb] at b1 b2
    have z0 : ∀ x : Nat, (0 : Int) ≤ (x : Int) - x ∧ (x : Int) - x ≤ 0 + (0 : Nat) := by
      intro x; omega
    obtain ⟨h3, h4⟩ := chromaRawSub hk (z0 r) (z0 g) (z0 b)
    obtain ⟨s1, s2⟩ := hk.shift (n := lr.length) (lo := 0)
      (d1 := ((r * lr.length : Nat) : Int) - (2 * lr.sum : Nat))
      (d2 := ((g * lr.length : Nat) : Int) - (2 * lg.sum : Nat))
      (d3 := ((b * lr.length : Nat) : Int) - (2 * lb.sum : Nat)) (by omega) (by omega) (by omega)
    have hn : 0 < lr.length := by have := hr.len; omega
    simp only [er, eg, eb, mean, hg, hb]
    generalize vecRaw _ _ _ _ _ = z at *
    generalize lr.length = n at *
    generalize lr.sum = sr at *
    generalize lg.sum = sg at *
    generalize lb.sum = sb at *
    have hnq : (0 : Rat) < n := by exact_mod_cast hn
    have s1' : -((n : Rat) * 4096) ≤ ((r : Rat) * n - 2 * sr) * (k.1 : Rat)
        + ((g : Rat) * n - 2 * sg) * (k.2.1 : Rat) + ((b : Rat) * n - 2 * sb) * (k.2.2 : Rat) := by
      exact_mod_cast s1
    have s2' : ((r : Rat) * n - 2 * sr) * (k.1 : Rat) + ((g : Rat) * n - 2 * sg) * (k.2.1 : Rat)
        + ((b : Rat) * n - 2 * sb) * (k.2.2 : Rat) ≤ (n : Rat) * 4096 := by
      exact_mod_cast s2
    have h3' : (8 : Rat) * ((r : Rat) * (k.1 : Rat) + g * (k.2.1 : Rat) + b * (k.2.2 : Rat)
        + 2 * 128 * 8192) - 114688 - 0 * 32768 ≤ 131072 * (z : Rat) := by exact_mod_cast h3
    have h4' : 131072 * (z : Rat) ≤ (8 : Rat) * ((r : Rat) * (k.1 : Rat) + g * (k.2.1 : Rat)
        + b * (k.2.2 : Rat) + 2 * 128 * 8192) + 81920 + 0 * 32768 := by exact_mod_cast h4
    have e : (k.1 : Rat) * ((sr : Rat) / n) + k.2.1 * ((sg : Rat) / n) + k.2.2 * ((sb : Rat) / n)
        = ((r : Rat) * (k.1 : Rat) + g * (k.2.1 : Rat) + b * (k.2.2 : Rat)) / 2
          - (((r : Rat) * n - 2 * sr) * (k.1 : Rat) + ((g : Rat) * n - 2 * sg) * (k.2.1 : Rat)
            + ((b : Rat) * n - 2 * sb) * (k.2.2 : Rat)) / n / 2 := by
      field_simp; ring
    rw [e]
    have u1 : -4096 ≤ (((r : Rat) * n - 2 * sr) * (k.1 : Rat) + ((g : Rat) * n - 2 * sg) * (k.2.1 : Rat)
            + ((b : Rat) * n - 2 * sb) * (k.2.2 : Rat)) / n := by
      rw [le_div_iff₀ hnq]; linarith
    have u2 : (((r : Rat) * n - 2 * sr) * (k.1 : Rat) + ((g : Rat) * n - 2 * sg) * (k.2.1 : Rat)
            + ((b : Rat) * n - 2 * sb) * (k.2.2 : Rat)) / n ≤ 4096 := by
      rw [div_le_iff₀ hnq]; linarith
    generalize (((r : Rat) * n - 2 * sr) * (k.1 : Rat) + ((g : Rat) * n - 2 * sg) * (k.2.1 : Rat)
            + ((b : Rat) * n - 2 * sb) * (k.2.2 : Rat)) / n = w at *
    rw [abs_le]
    constructor <;> linarith

/-- Vector chroma of a block is within 1.4 code values (1.18 if subsampled) of the exact chroma of
the exact mean of its pixels. -/
theorem vecChroma_exact {s : Sampling} {last : Bool} (ch : Channels) (rg : YuvRange) (m : Matrix)
    {l : List Buf} (hl : BlockShape s last l.length) (hb : ∀ px ∈ l, ∀ a ∈ px, a < 256) :
    let E : Rat := if s = .yuv444 then 140 / 100 else 118 / 100
    let r := mean (l.map (red ch))
    let g := mean (l.map (green ch))
    let b := mean (l.map (blue ch))
    |(vecCb s ch rg m last l : Rat) - exactCb 8 rg m r g b| ≤ E ∧
    |(vecCr s ch rg m last l : Rat) - exactCr 8 rg m r g b| ≤ E := by
  intro E r g b
  have lt : ∀ f : Buf → Nat, (∀ px, (∀ a ∈ px, a < 256) → f px < 256) → ∀ a ∈ l.map f, a < 256 := by
    intro f hf a ha
    obtain ⟨px, hpx, rfl⟩ := List.mem_map.1 ha
    exact hf px (hb px hpx)
  have lr := lt (red ch) fun px hp => (comps_lt (by omega) ch hp).1
  have lg := lt (green ch) fun px hp => (comps_lt (by omega) ch hp).2.1
  have lb := lt (blue ch) fun px hp => (comps_lt (by omega) ch hp).2.2
  have hpos : 0 < l.length := by have := hl.len; omega
  have mr := mean_range (by simpa using hpos) lr
  have mg := mean_range (by simpa using hpos) lg
  have mb := mean_range (by simpa using hpos) lb
  have ab : ∀ x : Rat, 0 ≤ x ∧ x ≤ 255 → |x| ≤ 255 := fun x h => by
    rw [abs_of_nonneg h.1]; exact h.2
  have ht : searchForward 13 8 rg m = computedForward 13 8 rg m :=
    c06_searchForward 13 8 (by unfold Prec; omega) (Or.inl rfl) rg m
  obtain ⟨-, -, -, -, n4, n5, n6, n7, n8, n9⟩ :=
    c06_forward_tables 13 8 (by unfold Prec; omega) (Or.inl rfl) rg m
  rw [← ht] at n4 n5 n6 n7 n8 n9
  obtain ⟨k1, k2⟩ := chromaRowOk rg m
  have c1 := chromaRaw_mean k1 (s := s) (last := last) (lr := l.map (red ch))
    (lg := l.map (green ch)) (lb := l.map (blue ch)) (by simpa using hl) (by simp) (by simp) lr lg lb
  have c2 := chromaRaw_mean k2 (s := s) (last := last) (lr := l.map (red ch))
    (lg := l.map (green ch)) (lb := l.map (blue ch)) (by simpa using hl) (by simp) (by simp) lr lg lb
  have d1 := coefs_close n4 n5 n6 (ab r mr) (ab g mg) (ab b mb)
  have d2 := coefs_close n7 n8 n9 (ab r mr) (ab g mg) (ab b mb)
  obtain ⟨⟨x1, x2⟩, x3, x4⟩ := exactC_range rg m mr mg mb
  have hE : (1 : Rat) / 2 ≤ E ∧ (if s = .yuv444 then 43 / 32 else 9 / 8 : Rat) + 383 / 8192 ≤ E := by
    simp only [E]; split <;> norm_num
  have off : offC 8 = 128 := by unfold offC; norm_num
  constructor
  · unfold vecCb
    rw [vecSum_raw]
    refine byteSat_exact (by linarith) x2 hE.1 ?_
    rw [exactCb_eq, off]
    dsimp only at c1
    refine le_trans ?_ hE.2
    refine le_trans ?_ (add_le_add c1 d1)
    refine le_trans (le_of_eq ?_) (abs_add_le _ _)
    congr 1
    simp only [r, g, b]
    ring
  · unfold vecCr
    rw [vecSum_raw]
    refine byteSat_exact (by linarith) x4 hE.1 ?_
    rw [exactCr_eq, off]
    dsimp only at c2
    refine le_trans ?_ hE.2
    refine le_trans ?_ (add_le_add c2 d2)
    refine le_trans (le_of_eq ?_) (abs_add_le _ _)
    congr 1
    simp only [r, g, b]
    ring

/-! ## Ranges, monotony, gray -/

theorem mulRound_corner {w n : Nat} (h : w ≤ n) (k : Int) :
    min 0 (mulRound n k) ≤ mulRound w k ∧ mulRound w k ≤ max 0 (mulRound n k) := by
  obtain ⟨h1, h2⟩ := mul_between h k
  rcases le_total 0 k with hk | hk
  · rw [min_eq_left hk] at h1
    rw [max_eq_right hk] at h2
    unfold mulRound; omega
  · rw [min_eq_right hk] at h1
    rw [max_eq_left hk] at h2
    unfold mulRound; omega

/-- Smallest and largest value for words up to `n`. -/
def vecLo (bias : Int) (k : Int × Int × Int) (n : Nat) : Int :=
  (bias + (min 0 (mulRound n k.1) + min 0 (mulRound n k.2.1) + min 0 (mulRound n k.2.2))) / 4
def vecHi (bias : Int) (k : Int × Int × Int) (n : Nat) : Int :=
  (bias + (max 0 (mulRound n k.1) + max 0 (mulRound n k.2.1) + max 0 (mulRound n k.2.2))) / 4

theorem vecRaw_corners (bias : Int) (k : Int × Int × Int) {r g b n : Nat} (hr : r ≤ n) (hg : g ≤ n)
    (hb : b ≤ n) : vecLo bias k n ≤ vecRaw bias k r g b ∧ vecRaw bias k r g b ≤ vecHi bias k n := by
  have h1 := mulRound_corner hr k.1
  have h2 := mulRound_corner hg k.2.1
  have h3 := mulRound_corner hb k.2.2
  unfold vecLo vecRaw vecHi
  generalize mulRound r k.1 = x at *
  generalize mulRound g k.2.1 = y at *
  generalize mulRound b k.2.2 = z at *
  omega

theorem vecSum_range {bias : Int} {k : Int × Int × Int} {n : Nat} {lo hi : Nat}
    (hk : (lo : Int) ≤ vecLo bias k n ∧ vecHi bias k n ≤ hi) (hlo : lo ≤ 255) {r g b : Nat} (hr : r ≤ n)
    (hg : g ≤ n) (hb : b ≤ n) : lo ≤ vecSum bias k r g b ∧ vecSum bias k r g b ≤ hi := by
  have := vecRaw_corners bias k hr hg hb
  rw [vecSum_raw]
  unfold byteSat
  omega

/-- The corners of every table, limited range. -/
theorem vec_corners (m : Matrix) :
    let t := searchForward 13 8 .limited m
    (16 ≤ vecLo 64 (t.yr, t.yg, t.yb) 4095 ∧
      vecHi 64 (t.yr, t.yg, t.yb) 4095 ≤ if m = .fcc then 236 else 235) ∧
    (15 ≤ vecLo 513 (t.cbR, t.cbG, t.cbB) 4095 ∧ vecHi 513 (t.cbR, t.cbG, t.cbB) 4095 ≤ 240) ∧
    (15 ≤ vecLo 513 (t.crR, t.crG, t.crB) 4095 ∧ vecHi 513 (t.crR, t.crG, t.crB) 4095 ≤ 240) ∧
    (16 ≤ vecLo 513 (t.cbR, t.cbG, t.cbB) 4080 ∧ vecHi 513 (t.cbR, t.cbG, t.cbB) 4080 ≤ 240) ∧
    (16 ≤ vecLo 513 (t.crR, t.crG, t.crB) 4080 ∧ vecHi 513 (t.crR, t.crG, t.crB) 4080 ≤ 240) := by
  cases m <;> decide +kernel

theorem expand12_4095 {x : Nat} (h : x < 256) : expand12 x ≤ 4095 := by unfold expand12; omega

theorem chromaWord_le {s : Sampling} {last : Bool} {l : List Nat} (hl : BlockShape s last l.length)
    (h : ∀ a ∈ l, a < 256) : chromaWord s last l ≤ if s = .yuv444 then 4095 else 4080 := by
  by_cases hs : s = .yuv444
  · obtain ⟨h1, h2⟩ := hl.full hs
    obtain ⟨a, rfl⟩ := List.length_eq_one_iff.1 h1
    subst hs h2
    exact expand12_4095 (h a (by simp))
  · rw [if_neg hs]
    obtain ⟨w, e, -, -, -, hw⟩ := chromaWord_sub hs last hl.len hl.last2
    have := hw h
    omega

/-- Limited range luma. -/
theorem vecLuma_range (ch : Channels) (m : Matrix) {px : Buf} (h : ∀ a ∈ px, a < 256) :
    16 ≤ vecLuma ch .limited m px ∧ vecLuma ch .limited m px ≤ if m = .fcc then 236 else 235 := by
  obtain ⟨hr, hg, hb⟩ := comps_lt (by omega) ch h
  have := (vec_corners m).1
  refine vecSum_range (n := 4095) ⟨this.1, ?_⟩ (by decide) (expand12_4095 hr) (expand12_4095 hg)
    (expand12_4095 hb)
  refine le_trans this.2 ?_
  split <;> norm_num

/-- Limited range chroma. -/
theorem vecChroma_range {s : Sampling} {last : Bool} (ch : Channels) (m : Matrix)
    {l : List Buf} (hl : BlockShape s last l.length) (hb : ∀ px ∈ l, ∀ a ∈ px, a < 256) :
    let lo := if s = .yuv444 then 15 else 16
    (lo ≤ vecCb s ch .limited m last l ∧ vecCb s ch .limited m last l ≤ 240) ∧
    (lo ≤ vecCr s ch .limited m last l ∧ vecCr s ch .limited m last l ≤ 240) := by
  intro lo
  have lt : ∀ f : Buf → Nat, (∀ px, (∀ a ∈ px, a < 256) → f px < 256) → ∀ a ∈ l.map f, a < 256 := by
    intro f hf a ha
    obtain ⟨px, hpx, rfl⟩ := List.mem_map.1 ha
    exact hf px (hb px hpx)
  have wr := chromaWord_le (s := s) (last := last) (by simpa using hl)
    (lt (red ch) fun px hp => (comps_lt (by omega) ch hp).1)
  have wg := chromaWord_le (s := s) (last := last) (by simpa using hl)
    (lt (green ch) fun px hp => (comps_lt (by omega) ch hp).2.1)
  have wb := chromaWord_le (s := s) (last := last) (by simpa using hl)
    (lt (blue ch) fun px hp => (comps_lt (by omega) ch hp).2.2)
  obtain ⟨-, c1, c2, c3, c4⟩ := vec_corners m
  by_cases hs : s = .yuv444
  · simp only [lo, if_pos hs] at wr wg wb ⊢
    exact ⟨vecSum_range c1 (by decide) wr wg wb, vecSum_range c2 (by decide) wr wg wb⟩
  · simp only [lo, if_neg hs] at wr wg wb ⊢
    exact ⟨vecSum_range c3 (by decide) wr wg wb, vecSum_range c4 (by decide) wr wg wb⟩

theorem expand12_mono {a b : Nat} (h : a ≤ b) : expand12 a ≤ expand12 b := by unfold expand12; omega

/-- Luma does not decrease when no component decreases. -/
theorem vecLuma_mono (ch ch' : Channels) (rg : YuvRange) (m : Matrix) {px px' : Buf}
    (hr : red ch px ≤ red ch' px') (hg : green ch px ≤ green ch' px')
    (hb : blue ch px ≤ blue ch' px') : vecLuma ch rg m px ≤ vecLuma ch' rg m px' := by
  obtain ⟨⟨k1, k2, k3, -⟩, -, -⟩ := fwd_table rg m
  have c : ∀ {a b : Nat}, a ≤ b → (expand12 a : Int) ≤ expand12 b := fun h => by
    exact_mod_cast expand12_mono h
  have h1 := mulRound_mono k1 (c hr)
  have h2 := mulRound_mono k2 (c hg)
  have h3 := mulRound_mono k3 (c hb)
  unfold vecLuma vecSum byteSat
  dsimp only
  omega

/-- Equal words give neutral chroma. -/
theorem vecSum_gray {k : Int × Int × Int} (hk : ChromaRowOk k) (w : Nat) :
    vecSum 513 k w w w = 128 := by
  have h := vecRaw_bounds 513 k w w w
  have e : (w : Int) * k.1 + w * k.2.1 + w * k.2.2 = 0 := by
    rw [← Int.mul_add, ← Int.mul_add, hk.sum, Int.mul_zero]
  have e1 : -1 ≤ mulRound w k.1 + mulRound w k.2.1 + mulRound w k.2.2 ∧
      mulRound w k.1 + mulRound w k.2.1 + mulRound w k.2.2 ≤ 1 := by
    unfold mulRound; omega
  unfold vecSum byteSat
  omega

/-- Black and white. -/
theorem vecLuma_black_white (rg : YuvRange) (m : Matrix) :
    let t := searchForward 13 8 rg m
    vecSum (4 * (getYuvRange 8 rg).biasY) (t.yr, t.yg, t.yb) (expand12 0) (expand12 0) (expand12 0)
      = (getYuvRange 8 rg).biasY ∧
    vecSum (4 * (getYuvRange 8 rg).biasY) (t.yr, t.yg, t.yb) (expand12 255) (expand12 255)
      (expand12 255) = (getYuvRange 8 rg).biasY + (getYuvRange 8 rg).rangeY
        + if rg = .limited ∧ m = .fcc then 1 else 0 := by
  cases rg <;> cases m <;> decide +kernel

end Verif
