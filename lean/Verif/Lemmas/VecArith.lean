import Verif.Spec.VecDecode
import Verif.Props.PlanarDecode
/-! # Accuracy of the x86 decoding arithmetic -/
namespace Verif
open Spec

theorem mulRound_bounds (a t : Int) :
    (a : Rat) * t / 32768 - 1 / 2 ≤ (mulRound a t : Rat) ∧
      (mulRound a t : Rat) ≤ (a : Rat) * t / 32768 + 1 / 2 := by
  have h1 : 32768 * mulRound a t ≤ a * t + 16384 := by unfold mulRound; omega
  have h2 : a * t + 16384 < 32768 * mulRound a t + 32768 := by unfold mulRound; omega
  have h1' : (32768 : Rat) * (mulRound a t : Rat) ≤ (a : Rat) * t + 16384 := by exact_mod_cast h1
  have h2' : (a : Rat) * t + 16384 < 32768 * (mulRound a t : Rat) + 32768 := by exact_mod_cast h2
  constructor <;> linarith

/-- A ten-bit term `4x + k` times a nearest coefficient of `q`: off `q·x` by `q·k/4` and rounding. -/
theorem term_close {t : Int} {q : Rat} (hN : NearestCoef 13 t q) {x k : Int}
    (hA : -1024 ≤ 4 * x + k ∧ 4 * x + k ≤ 1024) :
    q * k / 4 - 33 / 64 ≤ (mulRound (4 * x + k) t : Rat) - q * x ∧
      (mulRound (4 * x + k) t : Rat) - q * x ≤ q * k / 4 + 33 / 64 := by
  obtain ⟨n1, n2⟩ := hN
  obtain ⟨m1, m2⟩ := mulRound_bounds (4 * x + k) t
  obtain ⟨a1, a2⟩ := hA
  have a1' : (-1024 : Rat) ≤ 4 * x + k := by exact_mod_cast a1
  have a2' : (4 * x + k : Rat) ≤ 1024 := by exact_mod_cast a2
  push_cast at m1 m2
  have e : (t : Rat) = 8192 * q + (t - q * 2 ^ 13) := by ring
  generalize (t : Rat) - q * 2 ^ 13 = δ at *
  have n2' : -(1 / 2) ≤ δ := by
    have : q * 2 ^ 13 - (t : Rat) = -δ := by linarith
    linarith
  have hp : |(4 * x + k : Rat) * δ| ≤ 512 := by
    rw [abs_mul]
    have h1 : |(4 * x + k : Rat)| ≤ 1024 := abs_le.2 ⟨a1', a2'⟩
    have h2 : |δ| ≤ 1 / 2 := abs_le.2 ⟨n2', n1⟩
    calc _ ≤ 1024 * (1 / 2 : Rat) := mul_le_mul h1 h2 (abs_nonneg _) (by norm_num)
      _ = 512 := by norm_num
  obtain ⟨p1, p2⟩ := abs_le.1 hp
  have ex : (4 * x + k : Rat) * t / 32768 = q * x + q * k / 4 + (4 * x + k : Rat) * δ / 32768 := by
    rw [e]; ring
  rw [ex] at m1 m2
  constructor <;> linarith

theorem byteSat_cast (s : Int) : (byteSat s : Rat) = satQ 8 (s : Rat) := by
  unfold byteSat satQ maxV
  have h : (0 : Int) ≤ max 0 (min s 255) := le_max_left _ _
  have e : (((max 0 (min s 255)).toNat : Int) : Rat) = ((max 0 (min s 255) : Int) : Rat) := by
    rw [Int.toNat_of_nonneg h]
  have e2 : (((max 0 (min s 255)).toNat : Nat) : Rat) = (((max 0 (min s 255)).toNat : Int) : Rat) := by
    push_cast; rfl
  rw [e2, e]
  push_cast
  norm_num

theorem invs_bounds (rg : YuvRange) (m : Matrix) :
    (0 ≤ invY 8 rg ∧ invY 8 rg ≤ 117 / 100) ∧ (0 ≤ invCr 8 rg m ∧ invCr 8 rg m ≤ 43 / 20) ∧
    (0 ≤ invCb 8 rg m ∧ invCb 8 rg m ≤ 43 / 20) ∧ 0 ≤ invG1 8 rg m ∧ 0 ≤ invG2 8 rg m ∧
      invG1 8 rg m + invG2 8 rg m ≤ 121 / 100 := by
  cases rg <;> cases m <;>
  · unfold invY invCr invCb invG1 invG2 maxV gainY gainC kg kr kb
    norm_num

/-- The components the vector code computes are within 2.45 (red, blue) and 3.05 (green) code
values of the saturated exact result, with luma below the offset taken as black. -/
theorem vecRGB_close (rg : YuvRange) (m : Matrix) {y u v : Nat} (hy : y < 256) (hu : u < 256)
    (hv : v < 256) :
    let p := vecRGB (searchInverse 13 8 rg m) (y - (getYuvRange 8 rg).biasY) u v
    let Y : Rat := max y (getYuvRange 8 rg).biasY
    |(p.1 : Rat) - satQ 8 (exactR 8 rg m Y u v)| ≤ 49 / 20 ∧
    |(p.2.1 : Rat) - satQ 8 (exactG 8 rg m Y u v)| ≤ 61 / 20 ∧
    |(p.2.2 : Rat) - satQ 8 (exactB 8 rg m Y u v)| ≤ 49 / 20 := by
  intro p Y
  have hcfg : DecodeCfg 13 8 := Or.inr (Or.inl ⟨rfl, Or.inl rfl⟩)
  obtain ⟨nY, nCr, nCb, nG1, nG2⟩ := nearest_inv hcfg (by decide) rg m
  obtain ⟨⟨by0, by1⟩, ⟨bcr0, bcr1⟩, ⟨bcb0, bcb1⟩, bg1, bg2, bg⟩ := invs_bounds rg m
  have hYo : Y - offY 8 rg = ((y - (getYuvRange 8 rg).biasY : Nat) : Rat) := by
    rw [offY_eq]
    show max (y : Rat) _ - _ = _
    rcases Nat.le_total y (getYuvRange 8 rg).biasY with h | h
    · rw [Nat.sub_eq_zero_of_le h, max_eq_right (by exact_mod_cast h)]; simp
    · rw [Nat.cast_sub h, max_eq_left (by exact_mod_cast h)]
  have hC : offC 8 = 128 := by unfold offC; norm_num
  have hyo : y - (getYuvRange 8 rg).biasY < 256 := by omega
  have p1 : p.1 = byteSat (mulRound (expand10 (y - (getYuvRange 8 rg).biasY))
      (searchInverse 13 8 rg m).y + mulRound (expand10 v - expand10 128)
      (searchInverse 13 8 rg m).cr) := rfl
  have p2 : p.2.1 = byteSat (mulRound (expand10 (y - (getYuvRange 8 rg).biasY))
      (searchInverse 13 8 rg m).y - (mulRound (expand10 v - expand10 128)
      (searchInverse 13 8 rg m).g1 + mulRound (expand10 u - expand10 128)
      (searchInverse 13 8 rg m).g2)) := rfl
  have p3 : p.2.2 = byteSat (mulRound (expand10 (y - (getYuvRange 8 rg).biasY))
      (searchInverse 13 8 rg m).y + mulRound (expand10 u - expand10 128)
      (searchInverse 13 8 rg m).cb) := rfl
  rw [p1, p2, p3, byteSat_cast, byteSat_cast, byteSat_cast]
  rw [exactR_eq, exactG_eq, exactB_eq, hYo, hC]
  clear p1 p2 p3 hYo
  generalize y - (getYuvRange 8 rg).biasY = yo at *
  have eY : expand10 yo = 4 * (yo : Int) + ((yo / 64 : Nat) : Int) := by unfold expand10; push_cast; rfl
  have eC : ∀ c : Nat, expand10 c - expand10 128 = 4 * ((c : Int) - 128) + (((c / 64 : Nat) : Int) - 2) := by
    intro c; unfold expand10; omega
  rw [eY, eC u, eC v]
  have ky : yo / 64 ≤ 3 := by omega
  have ku : u / 64 ≤ 3 := by omega
  have kv : v / 64 ≤ 3 := by omega
  have ky' : ((yo / 64 : Nat) : Rat) ≤ 3 := by exact_mod_cast ky
  have ku' : ((u / 64 : Nat) : Rat) ≤ 3 := by exact_mod_cast ku
  have kv' : ((v / 64 : Nat) : Rat) ≤ 3 := by exact_mod_cast kv
  have zy' : (0 : Rat) ≤ ((yo / 64 : Nat) : Rat) := Nat.cast_nonneg _
  have zu' : (0 : Rat) ≤ ((u / 64 : Nat) : Rat) := Nat.cast_nonneg _
  have zv' : (0 : Rat) ≤ ((v / 64 : Nat) : Rat) := Nat.cast_nonneg _
  obtain ⟨y1, y2⟩ := term_close nY (x := yo) (k := ((yo / 64 : Nat) : Int)) (by omega)
  obtain ⟨cr1, cr2⟩ := term_close nCr (x := (v : Int) - 128) (k := ((v / 64 : Nat) : Int) - 2) (by omega)
  obtain ⟨cb1, cb2⟩ := term_close nCb (x := (u : Int) - 128) (k := ((u / 64 : Nat) : Int) - 2) (by omega)
  obtain ⟨g11, g12⟩ := term_close nG1 (x := (v : Int) - 128) (k := ((v / 64 : Nat) : Int) - 2) (by omega)
  obtain ⟨g21, g22⟩ := term_close nG2 (x := (u : Int) - 128) (k := ((u / 64 : Nat) : Int) - 2) (by omega)
  generalize mulRound (4 * (yo : Int) + ((yo / 64 : Nat) : Int)) (searchInverse 13 8 rg m).y = ty at *
  generalize mulRound (4 * ((v : Int) - 128) + (((v / 64 : Nat) : Int) - 2)) (searchInverse 13 8 rg m).cr = tcr at *
  generalize mulRound (4 * ((u : Int) - 128) + (((u / 64 : Nat) : Int) - 2)) (searchInverse 13 8 rg m).cb = tcb at *
  generalize mulRound (4 * ((v : Int) - 128) + (((v / 64 : Nat) : Int) - 2)) (searchInverse 13 8 rg m).g1 = tg1 at *
  generalize mulRound (4 * ((u : Int) - 128) + (((u / 64 : Nat) : Int) - 2)) (searchInverse 13 8 rg m).g2 = tg2 at *
  generalize yo / 64 = jy at *
  generalize u / 64 = ju at *
  generalize v / 64 = jv at *
  push_cast at y1 y2 cr1 cr2 cb1 cb2 g11 g12 g21 g22 ky' ku' kv' zy' zu' zv' ⊢
  have luma : ∀ k : Rat, 0 ≤ k → k ≤ 3 → 0 ≤ invY 8 rg * k ∧ invY 8 rg * k ≤ 351 / 100 := by
    intro k h0 h3
    refine ⟨mul_nonneg by0 h0, ?_⟩
    calc _ ≤ (117 / 100 : Rat) * 3 := mul_le_mul by1 h3 h0 (by norm_num)
      _ = _ := by norm_num
  have chroma : ∀ q k : Rat, 0 ≤ q → 0 ≤ k → k ≤ 3 → -2 * q ≤ q * (k - 2) ∧ q * (k - 2) ≤ q := by
    intro q k hq h0 h3
    have a := mul_nonneg hq h0
    have b := mul_nonneg hq (sub_nonneg.2 h3)
    constructor <;> linarith
  obtain ⟨ly1, ly2⟩ := luma _ zy' ky'
  obtain ⟨lr1, lr2⟩ := chroma _ _ bcr0 zv' kv'
  obtain ⟨lb1, lb2⟩ := chroma _ _ bcb0 zu' ku'
  obtain ⟨lg11, lg12⟩ := chroma _ _ bg1 zv' kv'
  obtain ⟨lg21, lg22⟩ := chroma _ _ bg2 zu' ku'
  refine ⟨le_trans (satQ_lipschitz 8 _ _) ?_, le_trans (satQ_lipschitz 8 _ _) ?_,
    le_trans (satQ_lipschitz 8 _ _) ?_⟩
  · rw [abs_le]; constructor <;> linarith
  · rw [abs_le]; constructor <;> linarith
  · rw [abs_le]; constructor <;> linarith

/-- For equal chroma samples at the neutral value the three components are equal. -/
theorem vecRGB_gray (t : InvCoef) (yo : Nat) :
    vecRGB t yo 128 128 = (byteSat (mulRound (expand10 yo) t.y),
      byteSat (mulRound (expand10 yo) t.y), byteSat (mulRound (expand10 yo) t.y)) := by
  have h : ∀ c, mulRound (expand10 128 - expand10 128) c = 0 := by
    intro c; rw [Int.sub_self]; unfold mulRound; rw [Int.zero_mul]; rfl
  unfold vecRGB
  simp only [h, Int.add_zero, Int.sub_zero]

theorem byteSat_mono {a b : Int} (h : a ≤ b) : byteSat a ≤ byteSat b := by
  unfold byteSat; omega

theorem mulRound_mono {a b t : Int} (ht : 0 ≤ t) (h : a ≤ b) : mulRound a t ≤ mulRound b t := by
  unfold mulRound
  have := Int.mul_le_mul_of_nonneg_right h ht
  omega

theorem expand10_mono {a b : Nat} (h : a ≤ b) : expand10 a ≤ expand10 b := by
  unfold expand10; omega

/-- More luma never gives a smaller component. -/
theorem vecRGB_mono {t : InvCoef} (ht : 0 ≤ t.y) {a b : Nat} (h : a ≤ b) (u v : Nat) :
    (vecRGB t a u v).1 ≤ (vecRGB t b u v).1 ∧ (vecRGB t a u v).2.1 ≤ (vecRGB t b u v).2.1 ∧
      (vecRGB t a u v).2.2 ≤ (vecRGB t b u v).2.2 := by
  have := mulRound_mono ht (expand10_mono h)
  refine ⟨byteSat_mono ?_, byteSat_mono ?_, byteSat_mono ?_⟩ <;> omega

end Verif
