import Verif.Model.X86Yuy2
import Verif.Spec.VecYuy2
import Verif.Lemmas.X86EncArith
import Verif.Lemmas.X86EncRows
import Verif.Lemmas.Yuy2Unpack
/-! # The x86 packers to packed 4:2:2 -/
namespace Verif.X86
open Spec

/-! ## Moves -/

theorem avx2De2_at (a b : Reg) {i : Nat} (h : i < 32) :
    (avx2De2 a b).1 i = cat 32 [a, b] (2 * i) ∧ (avx2De2 a b).2 i = cat 32 [a, b] (2 * i + 1) := by
  interval_cases i <;> exact ⟨rfl, rfl⟩

theorem sseDe2_at (a b : Reg) {i : Nat} (h : i < 16) :
    unpacklo 8 (shuffle8 a evenOdd) (shuffle8 b evenOdd) i = cat 16 [a, b] (2 * i) ∧
    unpackhi 8 (shuffle8 a evenOdd) (shuffle8 b evenOdd) i = cat 16 [a, b] (2 * i + 1) := by
  interval_cases i <;> exact ⟨rfl, rfl⟩

theorem sseDeHalf_at (a : Reg) {i : Nat} (h : i < 8) :
    getLow (shuffle8 a evenOdd) i = a (2 * i) ∧ getHigh (shuffle8 a evenOdd) i = a (2 * i + 1) := by
  interval_cases i <;> exact ⟨rfl, rfl⟩

theorem cat2_ld {n : Nat} {l : Buf} {p i : Nat} (h : i < 2 * n) :
    cat n [ld n l p, ld n l (p + n)] i = l.getD (p + i) 0 := by
  refine cat_cons (Nat.le_refl _) id fun h1 => ?_
  refine cat_cons (p := p + n) (Nat.le_refl _) id fun h2 => ?_
  omega

/-! ## Means -/

theorem w16_pairAvg {a : Reg} {k x y : Nat} (hx : a (2 * k) = x) (hx' : x < 256)
    (hy : a (2 * k + 1) = y) (hy' : y < 256) : w16 (pairAvg a) k = mean2 x y := by
  have e1 : asI8 ((asU8 1 : Nat) : Int) = 1 := by decide
  have h1 : s16 (maddubs a (set1_8 1)) k = ((x + y : Nat) : Int) := by
    rw [maddubs, s16_mk16, hx, hy]
    simp only [set1_8, e1]
    unfold satI16
    rw [asI16_id] <;> omega
  have h2 : w16 (add16 (maddubs a (set1_8 1)) (set1_16 1)) k = x + y + 1 := by
    rw [w16_of_s16 (r := add16 (maddubs a (set1_8 1)) (set1_16 1)) (x := ((x + y + 1 : Nat) : Int)) (by omega)
      (w16_mk16_lt _ _)]
    · omega
    · rw [s16_add, h1, s16_set1, asI16_id (x := 1) (by omega) (by omega), asI16_id] <;> omega
  unfold pairAvg srli16 mean2
  rw [w16_mk16, h2]
  unfold asU16
  omega

theorem s16_w16_small {a : Reg} {k x : Nat} (h : w16 a k = x) (hx : x < 32768) : s16 a k = x := by
  unfold s16
  rw [h, asI16_id] <;> omega

theorem mean2_lt {a b n : Nat} (ha : a < n) (hb : b < n) : mean2 a b < n := by
  unfold mean2; omega

theorem sseHavg_at {a b : Reg} {k x y : Nat} (hk : k < 16)
    (hx : (if k < 8 then a else b) (2 * (k % 8)) = x) (hx' : x < 256)
    (hy : (if k < 8 then a else b) (2 * (k % 8) + 1) = y) (hy' : y < 256) :
    sseHavg a b k = mean2 x y := by
  have hm := mean2_lt hx' hy'
  unfold sseHavg packus16
  rw [show k / 16 * 8 + k % 8 = k % 8 by omega, show k % 16 = k by omega]
  by_cases h : k < 8
  · rw [if_pos h] at hx hy ⊢
    rw [s16_w16_small (w16_pairAvg hx hx' hy hy') (by omega)]
    unfold satU8; omega
  · rw [if_neg h] at hx hy ⊢
    rw [s16_w16_small (w16_pairAvg hx hx' hy hy') (by omega)]
    unfold satU8; omega

theorem avx2Havg_at {a b : Reg} {f : Nat → Nat} (hf : ∀ x, f x < 256)
    (h : ∀ x, x < 64 → cat 32 [a, b] x = f x) {k : Nat} (hk : k < 32) :
    avx2Havg a b k = avx2BlockChroma f k := by
  have key : ∀ m, m < 16 → w16 (avx2Havg a b) m
      = (let o := m / 4 % 2 * 32 + m / 8 * 16 + m % 4 * 4
         mean2 (mean2 (f o) (f (o + 1))) (mean2 (f (o + 2)) (f (o + 3)))) := by
    intro m hm
    simp only
    generalize ho : m / 4 % 2 * 32 + m / 8 * 16 + m % 4 * 4 = o
    have c0 := h o (by omega)
    have c1 := h (o + 1) (by omega)
    have c2 := h (o + 2) (by omega)
    have c3 := h (o + 3) (by omega)
    have hw : ∀ r : Reg, (∀ d, d < 4 → r (m / 8 * 16 + m % 4 * 4 + d) = f (o + d)) →
        s16 (pairAvg r) (m / 8 * 8 + m % 4 * 2) = mean2 (f o) (f (o + 1)) ∧
        s16 (pairAvg r) (m / 8 * 8 + m % 4 * 2 + 1) = mean2 (f (o + 2)) (f (o + 3)) := by
      intro r hr
      have g0 := mean2_lt (hf o) (hf (o + 1))
      have g1 := mean2_lt (hf (o + 2)) (hf (o + 3))
      refine ⟨s16_w16_small (w16_pairAvg ?_ (hf _) ?_ (hf _)) (by omega),
        s16_w16_small (w16_pairAvg ?_ (hf _) ?_ (hf _)) (by omega)⟩
      · have := hr 0 (by omega); rw [Nat.add_zero] at this; rw [Nat.add_zero] at this; rw [← this]; congr 1; omega
      · rw [← hr 1 (by omega)]; congr 1; omega
      · rw [← hr 2 (by omega)]; congr 1; omega
      · rw [← hr 3 (by omega)]; congr 1; omega
    have hs : s16 (hadd16 (pairAvg a) (pairAvg b)) m
        = ((mean2 (f o) (f (o + 1)) + mean2 (f (o + 2)) (f (o + 3)) : Nat) : Int) := by
      have g0 := mean2_lt (hf o) (hf (o + 1))
      have g1 := mean2_lt (hf (o + 2)) (hf (o + 3))
      unfold hadd16
      rw [s16_mk16]
      simp only
      by_cases hq : m % 8 < 4
      · obtain ⟨p, q⟩ := hw a (fun d hd => by
          rw [← h (o + d) (by omega), cat, if_pos (by omega)]; congr 1; omega)
        rw [if_pos hq, p, q, asI16_id] <;> omega
      · obtain ⟨p, q⟩ := hw b (fun d hd => by
          rw [← h (o + d) (by omega), cat, if_neg (by omega), cat, if_pos (by omega)]; congr 1; omega)
        rw [if_neg hq, p, q, asI16_id] <;> omega
    have g0 := mean2_lt (hf o) (hf (o + 1))
    have g1 := mean2_lt (hf (o + 2)) (hf (o + 3))
    have h2 : w16 (add16 (hadd16 (pairAvg a) (pairAvg b)) (set1_16 1)) m
        = mean2 (f o) (f (o + 1)) + mean2 (f (o + 2)) (f (o + 3)) + 1 := by
      rw [w16_of_s16 (r := add16 (hadd16 (pairAvg a) (pairAvg b)) (set1_16 1)) (x := ((mean2 (f o) (f (o + 1)) + mean2 (f (o + 2)) (f (o + 3)) + 1 : Nat) : Int))
        (by omega) (w16_mk16_lt _ _)]
      · omega
      · rw [s16_add, hs, s16_set1, asI16_id (x := 1) (by omega) (by omega), asI16_id] <;> omega
    unfold avx2Havg srli16
    rw [w16_mk16, h2]
    generalize mean2 (f o) (f (o + 1)) = p at *
    generalize mean2 (f (o + 2)) (f (o + 3)) = q at *
    unfold mean2 asU16
    omega
  have hb : ∀ g : Nat → Int, mk16 g k
      = if k % 2 = 0 then w16 (mk16 g) (k / 2) % 256 else w16 (mk16 g) (k / 2) / 256 := by
    intro g
    rw [w16_mk16]; rfl
  have hk2 := key (k / 2) (by omega)
  simp only at hk2
  rw [show avx2Havg a b k = if k % 2 = 0 then w16 (avx2Havg a b) (k / 2) % 256
      else w16 (avx2Havg a b) (k / 2) / 256 by unfold avx2Havg srli16; exact hb _, hk2]
  unfold avx2BlockChroma
  rw [show k / 2 / 4 % 2 = k / 8 % 2 by omega, show k / 2 / 8 = k / 16 by omega]
  simp only
  generalize k / 8 % 2 * 32 + k / 16 * 16 + k / 2 % 4 * 4 = o
  have g0 := mean2_lt (mean2_lt (hf o) (hf (o + 1))) (mean2_lt (hf (o + 2)) (hf (o + 3)))
  by_cases hq : k % 2 = 1
  · rw [if_pos hq, if_neg (by omega)]; omega
  · rw [if_neg hq, if_pos (by omega)]; omega

/-! ## Steps -/

theorem avx2StoreRgba_eq (p : Nat) (r g b a : Reg) (row : Buf) :
    avx2StoreRgba p r g b a row = put row p ((List.range 32).flatMap fun j => [r j, g j, b j, a j]) :=
  avx2Store_eq .rgba p r g b a row

theorem sseStoreRgba_eq (p : Nat) (r g b a : Reg) (row : Buf) :
    sseStoreRgba p r g b a row = put row p ((List.range 16).flatMap fun j => [r j, g j, b j, a j]) :=
  sseStore_eq .rgba p r g b a row

theorem yuyOrder_at (t : Yuy2) (y0 y1 u v : Reg) (j : Nat) :
    [(yuyOrder t y0 y1 u v).1 j, (yuyOrder t y0 y1 u v).2.1 j, (yuyOrder t y0 y1 u v).2.2.1 j,
      (yuyOrder t y0 y1 u v).2.2.2 j] = quad t (y0 j) (y1 j) (u j) (v j) := by
  cases t <;> rfl

/-- Pair `j` of a packed row. -/
def packPix (t : Yuy2) (y : Buf) (ru rv : Nat → Nat) (j : Nat) : Buf :=
  quad t (y.getD (2 * j) 0) (y.getD (2 * j + 1) 0) (ru j) (rv j)

/-- The register holds the chroma of the `n` pairs from `c0` on. -/
def PairsAt (n : Nat) (r : Nat → Nat) (c0 : Nat) (o : Outcome Reg) : Prop :=
  ∃ q : Reg, o = .ok q ∧ ∀ k, k < n → q k = r (c0 + k)

theorem avx2Pack_eq {s : Sampling} {t : Yuy2} {y u v : Buf} {cx ux : Nat} {ru rv : Nat → Nat}
    (he : cx % 2 = 0) (ly : cx + 64 ≤ y.length) (hu : PairsAt 32 ru (cx / 2) (avx2PackChroma s u ux))
    (hv : PairsAt 32 rv (cx / 2) (avx2PackChroma s v ux)) (yuy : Buf) :
    avx2Pack s t y u v cx ux yuy
      = put yuy (cx / 2 * 4) ((List.range 32).flatMap fun k => packPix t y ru rv (cx / 2 + k)) := by
  obtain ⟨cu, eu, hu⟩ := hu
  obtain ⟨cv, ev, hv⟩ := hv
  unfold avx2Pack
  rw [load_ld (by omega), load_ld (by omega), eu, ev]
  simp only [Outcome.bind_ok]
  rw [avx2StoreRgba_eq, show cx * 2 = cx / 2 * 4 by omega]
  congr 1
  apply range_flatMap_congr
  intro k hk
  rw [yuyOrder_at, hu k hk, hv k hk, (avx2De2_at _ _ hk).1, (avx2De2_at _ _ hk).2,
    cat2_ld (by omega), cat2_ld (by omega)]
  unfold packPix
  rw [show cx + 2 * k = 2 * (cx / 2 + k) by omega, show cx + (2 * k + 1) = 2 * (cx / 2 + k) + 1 by omega]

theorem ssePack_eq {s : Sampling} {t : Yuy2} {y u v : Buf} {cx ux : Nat} {ru rv : Nat → Nat}
    (he : cx % 2 = 0) (ly : cx + 32 ≤ y.length) (hu : PairsAt 16 ru (cx / 2) (ssePackChroma s u ux))
    (hv : PairsAt 16 rv (cx / 2) (ssePackChroma s v ux)) (yuy : Buf) :
    ssePack s t y u v cx ux yuy
      = put yuy (cx / 2 * 4) ((List.range 16).flatMap fun k => packPix t y ru rv (cx / 2 + k)) := by
  obtain ⟨cu, eu, hu⟩ := hu
  obtain ⟨cv, ev, hv⟩ := hv
  unfold ssePack
  rw [load_ld (by omega), load_ld (by omega), eu, ev]
  simp only [Outcome.bind_ok]
  rw [sseStoreRgba_eq, show cx * 2 = cx / 2 * 4 by omega]
  congr 1
  apply range_flatMap_congr
  intro k hk
  rw [yuyOrder_at, hu k hk, hv k hk, (sseDe2_at _ _ hk).1, (sseDe2_at _ _ hk).2,
    cat2_ld (by omega), cat2_ld (by omega)]
  unfold packPix
  rw [show cx + 2 * k = 2 * (cx / 2 + k) by omega, show cx + (2 * k + 1) = 2 * (cx / 2 + k) + 1 by omega]

theorem ssePackHalf_eq {s : Sampling} {t : Yuy2} {y u v : Buf} {cx ux : Nat} {ru rv : Nat → Nat}
    (he : cx % 2 = 0) (ly : cx + 16 ≤ y.length)
    (hu : PairsAt 8 ru (cx / 2) (ssePackChromaHalf s u ux))
    (hv : PairsAt 8 rv (cx / 2) (ssePackChromaHalf s v ux)) (yuy : Buf) :
    ssePackHalf s t y u v cx ux yuy
      = put yuy (cx / 2 * 4) ((List.range 8).flatMap fun k => packPix t y ru rv (cx / 2 + k)) := by
  obtain ⟨cu, eu, hu⟩ := hu
  obtain ⟨cv, ev, hv⟩ := hv
  unfold ssePackHalf
  rw [load_ld (by omega), eu, ev]
  simp only [Outcome.bind_ok]
  have e := sseStoreHalf_eq .rgba (cx * 2)
    (yuyOrder t (getLow (shuffle8 (ld 16 y cx) evenOdd)) (getHigh (shuffle8 (ld 16 y cx) evenOdd)) cu cv).1
    (yuyOrder t (getLow (shuffle8 (ld 16 y cx) evenOdd)) (getHigh (shuffle8 (ld 16 y cx) evenOdd)) cu cv).2.1
    (yuyOrder t (getLow (shuffle8 (ld 16 y cx) evenOdd)) (getHigh (shuffle8 (ld 16 y cx) evenOdd)) cu cv).2.2.1
    (yuyOrder t (getLow (shuffle8 (ld 16 y cx) evenOdd)) (getHigh (shuffle8 (ld 16 y cx) evenOdd)) cu cv).2.2.2
    yuy
  refine Eq.trans e ?_
  rw [show cx * 2 = cx / 2 * 4 by omega]
  congr 1
  apply range_flatMap_congr
  intro k hk
  refine Eq.trans (yuyOrder_at t _ _ _ _ k) ?_
  rw [hu k hk, hv k hk, (sseDeHalf_at _ hk).1, (sseDeHalf_at _ hk).2, ld_at (by omega), ld_at (by omega)]
  unfold packPix
  rw [show cx + 2 * k = 2 * (cx / 2 + k) by omega, show cx + (2 * k + 1) = 2 * (cx / 2 + k) + 1 by omega]

/-! ## Loops -/

theorem yuyStep_add {s : Sampling} {a b : Nat} (ha : a % 2 = 0) (hb : b % 2 = 0) :
    yuyStep s (a + b) = yuyStep s a + yuyStep s b := by
  cases s <;> simp only [yuyStep] <;> omega

/-- A loop of the packers: `n` pairs per step. -/
theorem packLoop {s : Sampling} {n w : Nat} (hn : 0 < n) {pix : Nat → Buf}
    (hp : ∀ j, (pix j).length = 4) {body : Nat → Nat → Buf → Outcome Buf} {row : Buf}
    (hw : w / 2 * 4 ≤ row.length) {cx0 : Nat} (h0 : cx0 % 2 = 0)
    (hbody : ∀ m r, cx0 + m * (2 * n) + 2 * n < w →
      body (cx0 + m * (2 * n)) (yuyStep s (cx0 + m * (2 * n))) r
        = put r ((cx0 + m * (2 * n)) / 2 * 4)
            ((List.range n).flatMap fun j => pix ((cx0 + m * (2 * n)) / 2 + j))) (hcx : cx0 ≤ w) :
    vwhile (2 * n) (yuyStep s (2 * n)) w body cx0 (yuyStep s cx0) (painted 4 pix (cx0 / 2) row)
      = .ok (painted 4 pix (loopEnd (2 * n) w cx0 / 2) row, loopEnd (2 * n) w cx0,
          yuyStep s (loopEnd (2 * n) w cx0)) := by
  obtain ⟨st, cx, ux, h1, ⟨h2, ⟨k, h3, h7⟩, h4, h5, h8⟩, h6⟩ := vwhile_ok (width := w)
    (ustep := yuyStep s (2 * n)) (step := 2 * n) (by omega) (body := body)
    (P := fun cx ux st => st = painted 4 pix (cx / 2) row ∧
      (∃ k, cx = cx0 + k * (2 * n) ∧ (k = 0 ∨ cx < w)) ∧ ux = yuyStep s cx ∧ cx ≤ w ∧ cx % 2 = 0)
    (by
      rintro cx ux st ⟨rfl, ⟨k, g1, _⟩, rfl, g3, g4⟩ hlt
      subst g1
      refine ⟨painted 4 pix ((cx0 + k * (2 * n) + 2 * n) / 2) row, ?_, rfl,
        ⟨k + 1, by rw [Nat.add_mul]; omega, .inr hlt⟩,
        (yuyStep_add g4 (by omega)).symm, by omega, by omega⟩
      rw [hbody k _ hlt]
      generalize cx0 + k * (2 * n) = c at *
      rw [show (c + 2 * n) / 2 = c / 2 + n by omega]
      exact painted_put hp (by omega))
    (cx := cx0) (ux := yuyStep s cx0) (s := painted 4 pix (cx0 / 2) row)
    ⟨rfl, ⟨0, by omega, .inl rfl⟩, rfl, hcx, h0⟩
  have := loopEnd_eq (by omega) h3 h7 h6
  subst this
  rw [h1, h2, h4]

/-- What the registers of the three kinds of steps must hold in a row of `w` columns. -/
structure PackRegs (s : Sampling) (avx : Bool) (w : Nat) (c : Buf) (r : Nat → Nat) : Prop where
  avx2 : avx = true → ∀ m, 64 * m + 64 < w → PairsAt 32 r (32 * m) (avx2PackChroma s c (yuyStep s (64 * m)))
  sse : ∀ m, 32 * m + 32 < w → (avx = true → (w - 1) / 64 * 64 ≤ 32 * m) →
    PairsAt 16 r (16 * m) (ssePackChroma s c (yuyStep s (32 * m)))
  half : ∀ m, 16 * m + 16 < w → (w - 1) / 32 * 32 ≤ 16 * m →
    PairsAt 8 r (8 * m) (ssePackChromaHalf s c (yuyStep s (16 * m)))

theorem ssePackRow_ok {s : Sampling} {t : Yuy2} {w : Nat} {y u v row : Buf} {ru rv : Nat → Nat}
    {avx : Bool} (ly : w ≤ y.length) (hw : w / 2 * 4 ≤ row.length) (hu : PackRegs s avx w u ru)
    (hv : PackRegs s avx w v rv) {cx0 : Nat} (h0 : cx0 % 64 = 0)
    (hcx : cx0 = if avx = true then (w - 1) / 64 * 64 else 0) :
    ssePackRow s t w y u v (painted 4 (packPix t y ru rv) (cx0 / 2) row) cx0 (yuyStep s cx0)
      = .ok (painted 4 (packPix t y ru rv) ((w - 1) / 16 * 16 / 2) row, (w - 1) / 16 * 16,
          yuyStep s ((w - 1) / 16 * 16)) := by
  have hp : ∀ j, (packPix t y ru rv j).length = 4 := fun j => quad_length ..
  have hc : cx0 ≤ w - 1 := by rw [hcx]; split <;> omega
  have e1 : loopEnd 32 w cx0 = (w - 1) / 32 * 32 := by unfold loopEnd; omega
  have e2 : loopEnd 16 w ((w - 1) / 32 * 32) = (w - 1) / 16 * 16 := by unfold loopEnd; omega
  unfold ssePackRow
  have a := packLoop (s := s) (n := 16) (w := w) (by omega) hp (row := row) hw (cx0 := cx0) (by omega)
    (body := fun cx ux yuy => ssePack s t y u v cx ux yuy) (fun m r hm => by
      have g : avx = true → (w - 1) / 64 * 64 ≤ 32 * (cx0 / 32 + m) := by
        intro h; rw [if_pos h] at hcx; omega
      have hu' := hu.sse (cx0 / 32 + m) (by omega) g
      have hv' := hv.sse (cx0 / 32 + m) (by omega) g
      rw [show 32 * (cx0 / 32 + m) = cx0 + m * (2 * 16) by omega,
        show 16 * (cx0 / 32 + m) = (cx0 + m * (2 * 16)) / 2 by omega] at hu' hv'
      exact ssePack_eq (by omega) (by omega) hu' hv' r) (by omega)
  rw [show 2 * 16 = 32 by rfl, e1] at a
  rw [a, Outcome.bind_ok]
  have b := packLoop (s := s) (n := 8) (w := w) (by omega) hp (row := row) hw
    (cx0 := (w - 1) / 32 * 32) (by omega)
    (body := fun cx ux yuy => ssePackHalf s t y u v cx ux yuy) (fun m r hm => by
      have hu' := hu.half ((w - 1) / 32 * 2 + m) (by omega) (by omega)
      have hv' := hv.half ((w - 1) / 32 * 2 + m) (by omega) (by omega)
      rw [show 16 * ((w - 1) / 32 * 2 + m) = (w - 1) / 32 * 32 + m * (2 * 8) by omega,
        show 8 * ((w - 1) / 32 * 2 + m) = ((w - 1) / 32 * 32 + m * (2 * 8)) / 2 by omega] at hu' hv'
      exact ssePackHalf_eq (by omega) (by omega) hu' hv' r) (by omega)
  rw [show 2 * 8 = 16 by rfl, e2] at b
  exact b

theorem packer_row {cpu : Cpu} {s : Sampling} {t : Yuy2} {w : Nat} {y u v row : Buf}
    {ru rv : Nat → Nat} (ly : w ≤ y.length) (hw : w / 2 * 4 ≤ row.length)
    (hu : cpu ≠ .plain → PackRegs s (cpu == .avx2) w u ru)
    (hv : cpu ≠ .plain → PackRegs s (cpu == .avx2) w v rv) :
    packer cpu s t w row y u v
      = .ok (painted 4 (packPix t y ru rv) (yuyVecEnd cpu w / 2) row, yuyVecEnd cpu w) := by
  have hp : ∀ j, (packPix t y ru rv j).length = 4 := fun j => quad_length ..
  have y0 : yuyStep s 0 = 0 := by cases s <;> rfl
  cases cpu with
  | plain => simp [packer, yuyVecEnd, painted_zero]
  | sse41 =>
    have b := ssePackRow_ok (t := t) ly hw (hu (by simp)) (hv (by simp)) (cx0 := 0) (by omega) (by simp)
    rw [y0, painted_zero] at b
    unfold packer
    simp only [b, Outcome.bind_ok, yuyVecEnd]
    rfl
  | avx2 =>
    have hu := hu (by simp)
    have hv := hv (by simp)
    have a := packLoop (s := s) (n := 32) (w := w) (by omega) hp (row := row) hw (cx0 := 0) (by omega)
      (body := fun cx ux yuy => avx2Pack s t y u v cx ux yuy) (fun m r hm => by
        have hu' := hu.avx2 rfl m (by omega)
        have hv' := hv.avx2 rfl m (by omega)
        rw [show 64 * m = 0 + m * (2 * 32) by omega,
          show 32 * m = (0 + m * (2 * 32)) / 2 by omega] at hu' hv'
        exact avx2Pack_eq (by omega) (by omega) hu' hv' r) (by omega)
    rw [show 2 * 32 = 64 by rfl, show loopEnd 64 w 0 = (w - 1) / 64 * 64 by unfold loopEnd; omega, y0,
      painted_zero] at a
    have b := ssePackRow_ok (t := t) ly hw hu hv (cx0 := (w - 1) / 64 * 64) (by omega) (by simp)
    unfold packer avx2PackRow
    simp only [a, b, Outcome.bind_ok, yuyVecEnd]
    rfl

/-! ## 4:2:2 and 4:2:0 -/

theorem packRegs422 {s : Sampling} (hs : s ≠ .yuv444) {avx : Bool} {w : Nat} {c : Buf}
    (h : w / 2 ≤ c.length) : PackRegs s avx w c (fun j => c.getD j 0) := by
  have hy : ∀ n, yuyStep s n = n / 2 := by cases s <;> simp_all [yuyStep]
  have e1 : ∀ ux, avx2PackChroma s c ux = load 32 c ux := by cases s <;> simp_all [avx2PackChroma]
  have e2 : ∀ ux, ssePackChroma s c ux = load 16 c ux := by cases s <;> simp_all [ssePackChroma]
  have e3 : ∀ ux, ssePackChromaHalf s c ux = load 8 c ux := by
    cases s <;> simp_all [ssePackChromaHalf]
  refine ⟨fun _ m hm => ?_, fun m hm _ => ?_, fun m hm _ => ?_⟩
  · rw [e1, hy, load_ld (by omega)]
    exact ⟨_, rfl, fun k hk => by rw [ld_at hk]; congr 1; omega⟩
  · rw [e2, hy, load_ld (by omega)]
    exact ⟨_, rfl, fun k hk => by rw [ld_at hk]; congr 1; omega⟩
  · rw [e3, hy, load_ld (by omega)]
    exact ⟨_, rfl, fun k hk => by rw [ld_at hk]; congr 1; omega⟩

theorem yuyVecEnd_le (cpu : Cpu) (w : Nat) : yuyVecEnd cpu w ≤ w - 1 := by
  cases cpu <;> simp only [yuyVecEnd] <;> omega
theorem yuyVecEnd_even (cpu : Cpu) (w : Nat) : yuyVecEnd cpu w % 16 = 0 := by
  cases cpu <;> simp only [yuyVecEnd] <;> omega

theorem packer_ok422 (cpu : Cpu) {s : Sampling} (hs : s ≠ .yuv444) (t : Yuy2) (w : Nat) :
    (packer cpu s t w).Ok w (ceil2 w) t chroma422 := by
  intro yuy y u v hl hy hu hv
  have lc : ceil2 w = (w + 1) / 2 := rfl
  have := yuyVecEnd_le cpu w
  refine ⟨_, _, packer_row hy (by omega) (fun _ => packRegs422 hs (by omega))
    (fun _ => packRegs422 hs (by omega)), ?_⟩
  exact painted_done (by omega) (fun j => quad_length ..) (by omega) (by omega) (.inl (Nat.mod_one _))
    (fun j _ => rfl)

/-! ## 4:4:4 -/

theorem getLow_at (a : Reg) {i : Nat} (h : i < 16) : getLow a i = if i < 8 then a i else 0 := by
  interval_cases i <;> rfl
theorem getHigh_at (a : Reg) {i : Nat} (h : i < 16) : getHigh a i = if i < 8 then a (i + 8) else 0 := by
  interval_cases i <;> rfl

theorem packRegs444 {cpu : Cpu} {w : Nat} {c : Buf} (h : w ≤ c.length) (hb : ∀ x ∈ c, x < 256) :
    PackRegs .yuv444 (cpu == .avx2) w c (vecChroma444 cpu w (fun x => c.getD x 0)) := by
  have hb' : ∀ x, c.getD x 0 < 256 := fun x => by
    by_cases hx : x < c.length
    · exact bnd_getD hb hx
    · rw [List.getD_eq_getElem?_getD, List.getElem?_eq_none (by omega)]; decide
  refine ⟨fun ha m hm => ?_, fun m hm ha => ?_, fun m hm ha => ?_⟩
  · have ha : cpu = .avx2 := by cases cpu <;> simp_all
    simp only [avx2PackChroma, yuyStep]
    rw [load_ld (by omega), load_ld (by omega)]
    refine ⟨_, rfl, fun k hk => ?_⟩
    rw [avx2Havg_at (f := fun x => c.getD (64 * m + x) 0) (fun x => hb' _)
      (fun x hx => cat2_ld (by omega)) hk]
    unfold vecChroma444
    rw [if_pos ⟨ha, by omega⟩, show (32 * m + k) / 32 * 64 = 64 * m by omega,
      show (32 * m + k) % 32 = k by omega]
  · simp only [ssePackChroma, yuyStep]
    rw [load_ld (by omega), load_ld (by omega)]
    refine ⟨_, rfl, fun k hk => ?_⟩
    have e : ∀ d, d < 2 → (if k < 8 then ld 16 c (32 * m) else ld 16 c (32 * m + 16)) (2 * (k % 8) + d)
        = c.getD (2 * (16 * m + k) + d) 0 := by
      intro d hd
      by_cases hq : k < 8
      · rw [if_pos hq, ld_at (by omega)]; congr 1; omega
      · rw [if_neg hq, ld_at (by omega)]; congr 1; omega
    rw [sseHavg_at hk (e 0 (by omega)) (hb' _) (e 1 (by omega)) (hb' _)]
    unfold vecChroma444
    rw [if_neg, if_pos (.inl (by omega))]
    · rfl
    · rintro ⟨h1, h2⟩
      have := ha (by rw [h1]; rfl)
      omega
  · simp only [ssePackChromaHalf, yuyStep]
    rw [load_ld (by omega)]
    refine ⟨_, rfl, fun k hk => ?_⟩
    have hn : ¬(cpu = .avx2 ∧ 2 * (8 * m + k) < (w - 1) / 64 * 64) := by omega
    by_cases hq : k < 4
    · rw [sseHavg_at (x := c.getD (16 * m + 2 * k) 0) (y := c.getD (16 * m + (2 * k + 1)) 0)
        (by omega) ?_ (hb' _) ?_ (hb' _)]
      · unfold vecChroma444
        rw [if_neg hn, if_pos (.inr (by omega)), show 2 * (8 * m + k) = 16 * m + 2 * k by omega]
        rfl
      · rw [if_pos (by omega), getLow_at _ (by omega), if_pos (by omega), ld_at (by omega)]
        congr 1; omega
      · rw [if_pos (by omega), getLow_at _ (by omega), if_pos (by omega), ld_at (by omega)]
        congr 1; omega
    · rw [sseHavg_at (x := 0) (y := 0) (by omega) ?_ (by omega) ?_ (by omega)]
      · unfold vecChroma444
        rw [if_neg hn, if_neg (by omega)]
        rfl
      · rw [if_pos (by omega), getLow_at _ (by omega), if_neg (by omega)]
      · rw [if_pos (by omega), getLow_at _ (by omega), if_neg (by omega)]

theorem painted_paintRow {cn w : Nat} (hcn : 0 < cn) {pix : Nat → Buf} (hp : ∀ j, (pix j).length = cn)
    {cx : Nat} {row : Buf} (hw : w * cn ≤ row.length) (hcx : cx ≤ w) :
    painted cn pix cx row = paintRow cn cx pix row := by
  have hd := painted_done (w := w) (m := 1) (R := fun x p => p = pix x) hcn hp hw hcx
    (.inl (Nat.mod_one _)) (fun x _ => rfl)
  obtain ⟨vp, v1, v2, v3, v4, v5⟩ := rowDone_paint hcn hw hd
  rw [v5]
  exact paintRow_congr (le_trans (Nat.mul_le_mul_right _ hcx) hw) v2

theorem mapChunks_id {n s k : Nat} (hn : 0 < n) {l : Buf} (hs : s ≤ k) (hk : k * n ≤ l.length) :
    mapChunks n s k (fun _ c => c) l = l := by
  apply List.ext_getElem?
  intro i
  rw [mapChunks_getElem? hn (fun j c h => h) hs hk]
  split
  · rw [chunk_getElem?, if_pos (Nat.mod_lt _ hn), ← div_mod_split]
  · rfl

theorem mapChunks_chunk {n k : Nat} (hn : 0 < n) {P : Nat → Buf → Buf} (hP : KeepsLen n P) {l : Buf}
    (hk : k * n ≤ l.length) {px : Nat → Buf} (hl : ∀ j, (px j).length = n)
    (h : ∀ j, j < k → P j (chunk n l j) = px j) : mapChunks n 0 k P l = paintRow n k px l := by
  apply List.ext_getElem?
  intro i
  unfold paintRow
  rw [mapChunks_getElem? hn hP (by omega) hk, mapChunks_getElem? hn (fun j c _ => hl j) (by omega) hk]
  split
  · rename_i hi
    rw [h _ (div_lt_of_lt_mul' hi.2)]
  · rfl

/-- Quad `j` of a 4:4:4 row packed on an x86 processor. -/
def x86RowQuad (cpu : Cpu) (w : Nat) (t : Yuy2) (y u v row : Buf) (j : Nat) : Buf :=
  if 2 * j < yuyVecEnd cpu w then
    packPix t y (vecChroma444 cpu w (fun x => u.getD x 0)) (vecChroma444 cpu w (fun x => v.getD x 0)) j
  else if yuyVecEnd cpu w = 0 ∨ 2 * j + 1 = w then quad444 t w y u v j
  else chunk 4 row j

theorem x86PackRow444 {cpu : Cpu} {w : Nat} {t : Yuy2} {row y u v : Buf} (hw : 0 < w)
    (ly : y.length = w) (lr : row.length = ceil2 w * 4) (lu : u.length = w) (lv : v.length = w)
    (bu : ∀ x ∈ u, x < 256) (bv : ∀ x ∈ v, x < 256) :
    RowOk 4 (ceil2 w) (fun j p => p = x86RowQuad cpu w t y u v row j) row
      (packRow w t fetch444 id (packer cpu .yuv444 t w) row y u v) := by
  have lc : ceil2 w = (w + 1) / 2 := rfl
  have hE := yuyVecEnd_le cpu w
  have hv16 := yuyVecEnd_even cpu w
  unfold packRow
  rw [packer_row (ru := vecChroma444 cpu w (fun x => u.getD x 0))
    (rv := vecChroma444 cpu w (fun x => v.getD x 0)) (by omega) (by omega)
    (fun _ => packRegs444 (by omega) bu) (fun _ => packRegs444 (by omega) bv), Outcome.bind_ok]
  simp only [id]
  by_cases h0 : yuyVecEnd cpu w = 0
  · rw [h0, painted_zero]
    have := packRest444 (t := t) (s := 0) hw ly lr (by omega) lu lv
    rw [paintRow_zero] at this
    rw [this]
    refine ⟨quad444 t w y u v, fun j => quad_length .., fun j _ => ?_, rfl⟩
    show _ = x86RowQuad cpu w t y u v row j
    unfold x86RowQuad
    rw [if_neg (by omega), if_pos (.inl h0)]
  · have hhalf : w / 2 ≤ yuyVecEnd cpu w := by
      cases cpu <;> simp only [yuyVecEnd, not_true_eq_false] at h0 ⊢ <;> omega
    rw [painted_paintRow (w := w / 2) (pix := packPix t y (vecChroma444 cpu w fun x => u.getD x 0)
      (vecChroma444 cpu w fun x => v.getD x 0)) (cx := yuyVecEnd cpu w / 2) (row := row) (by omega)
      (fun j => quad_length ..) (by omega) (by omega)]
    generalize hpx : packPix t y (vecChroma444 cpu w fun x => u.getD x 0)
      (vecChroma444 cpu w fun x => v.getD x 0) = px
    have hpl : ∀ j, (px j).length = 4 := fun j => by rw [← hpx]; exact quad_length ..
    generalize hG : yuyVecEnd cpu w = e at *
    generalize hP : (fun (j : Nat) (c : Buf) => if 2 * j < e then px j
      else if 2 * j + 1 = w then quad444 t w y u v j else c) = P
    have hK : KeepsLen 4 P := fun j c hc => by
      rw [← hP]; simp only
      split
      · exact hpl j
      split
      · exact quad_length ..
      · exact hc
    have s1 : paintRow 4 (e / 2) px row = mapChunks 4 0 (w / 2) P row := by
      rw [← mapChunks_mapChunks (a := 0) (b := e / 2) (c := w / 2) (by omega) hK (by omega) (by omega)
        (by omega)]
      rw [mapChunks_congr (Q := fun _ c => c) (l := mapChunks 4 0 (e / 2) P row)
        (by rw [mapChunks_length hK (by omega) (by omega)]; omega) (fun j c h1 h2 _ => by
          rw [← hP]; simp only; rw [if_neg (by omega), if_neg (by omega)]),
        mapChunks_id (by omega) (by omega) (by rw [mapChunks_length hK (by omega) (by omega)]; omega)]
      refine mapChunks_congr (by omega) (fun j c h1 h2 _ => ?_)
      rw [← hP]; simp only; rw [if_pos (by omega)]
    have l1 : (mapChunks 4 0 (w / 2) P row).length = ceil2 w * 4 := by
      rw [mapChunks_length hK (by omega) (by omega), lr]
    have key : packRest w t fetch444 e (paintRow 4 (e / 2) px row) y u v
        = .ok (mapChunks 4 0 (ceil2 w) P row) := by
      unfold packRest
      rw [s1, l1, eachChunk_ok (by omega) (P := fun _ c => c)
        (by rw [l1, ly]; simp only [min4, fetch444]; omega)
        (fun j c h1 h2 h3 => by
          have h4 : j < w / 2 := by
            refine Nat.lt_of_lt_of_le h2 ?_
            rw [ly]; simp only [min4]; omega
          omega)]
      simp only [Outcome.bind_ok]
      have ee : min4 (ceil2 w * 4 / 4) (y.length / 2) (fetch444.count u) (fetch444.count v) = w / 2 := by
        rw [ly]; simp only [min4, fetch444]; omega
      rw [ee]
      have hid : mapChunks 4 e (w / 2) (fun _ c => c) (mapChunks 4 0 (w / 2) P row)
          = mapChunks 4 0 (w / 2) P row := by
        by_cases he : e = w / 2
        · rw [he]; exact mapChunks_id (by omega) (by omega) (by omega)
        · unfold mapChunks
          rw [show w / 2 - e = 0 by omega]
          simp only [mapGo]
          exact List.take_append_drop ..
      rw [hid]
      by_cases hodd : w % 2 = 0
      · rw [if_pos hodd, show ceil2 w = w / 2 by omega]; rfl
      · rw [if_neg hodd]
        rw [onLastChunk_ok (k := ceil2 w) (by omega) (by omega) (by rw [l1]; omega)
          (P := P) (fun c hc => by
            rw [lastElem_ok (by omega), lastElem_ok (by omega), lastElem_ok (by omega)]
            simp only [Outcome.bind_ok]
            rw [putQuad_ok _ _ _ _ _ hc, ← hP]
            simp only
            rw [if_neg (by omega), if_pos (by omega)]
            unfold quad444
            rw [if_neg (by omega), if_neg (by omega), if_neg (by omega), ly, lu, lv,
              show 2 * (ceil2 w - 1) = w - 1 by omega])]
        rw [show ceil2 w - 1 = w / 2 by omega,
          mapChunks_mapChunks (by omega) hK (by omega) (by omega) (by omega)]
    rw [key]
    refine ⟨fun j => if j < ceil2 w then x86RowQuad cpu w t y u v row j else [0, 0, 0, 0],
      fun j => ?_, fun j hj => if_pos hj, ?_⟩
    · simp only
      split
      · unfold x86RowQuad
        split
        · exact quad_length ..
        split
        · exact quad_length ..
        · exact chunk_length (by omega)
      · rfl
    · congr 1
      refine mapChunks_chunk (by omega) hK (by omega) (fun j => ?_) (fun j hj => ?_)
      · show (if j < ceil2 w then x86RowQuad cpu w t y u v row j else [0, 0, 0, 0]).length = 4
        split
        · unfold x86RowQuad
          split
          · exact quad_length ..
          split
          · exact quad_length ..
          · exact chunk_length (by omega)
        · rfl
      · simp only [if_pos hj]
        rw [← hP]
        unfold x86RowQuad
        rw [hG, hpx]
        simp only
        by_cases c1 : 2 * j < e
        · rw [if_pos c1, if_pos c1]
        · rw [if_neg c1, if_neg c1]
          by_cases c2 : 2 * j + 1 = w
          · rw [if_pos c2, if_pos (.inr c2)]
          · rw [if_neg c2, if_neg (by omega)]

theorem vecChroma444_congr {cpu : Cpu} {w j : Nat} {c c' : Nat → Nat} (hj : 2 * j < (w - 1) / 16 * 16)
    (h : ∀ x, x < w → c x = c' x) : vecChroma444 cpu w c j = vecChroma444 cpu w c' j := by
  unfold vecChroma444
  by_cases h1 : cpu = .avx2 ∧ 2 * j < (w - 1) / 64 * 64
  · rw [if_pos h1, if_pos h1]
    unfold avx2BlockChroma
    by_cases h2 : j % 32 % 2 = 1
    · rw [if_pos h2, if_pos h2]
    · rw [if_neg h2, if_neg h2]
      simp only
      have hb : j % 32 / 8 % 2 * 32 + j % 32 / 16 * 16 + j % 32 / 2 % 4 * 4 + 3 < 64 := by omega
      generalize j % 32 / 8 % 2 * 32 + j % 32 / 16 * 16 + j % 32 / 2 % 4 * 4 = b at *
      have hj64 : j / 32 * 64 + 64 ≤ (w - 1) / 64 * 64 := by omega
      rw [h _ (by omega), h _ (by omega), h _ (by omega), h _ (by omega)]
  · rw [if_neg h1, if_neg h1, h _ (by omega), h _ (by omega)]

/-! ## Frames -/

/-- `eachChunk_rows` with a hypothesis about the rows that are there. -/
theorem eachChunk_rows_at {stride s k cn w : Nat} (hst : 0 < stride) (hw : w * cn ≤ stride)
    {R : Nat → Nat → Buf → Prop} {g : Nat → Buf → Outcome Buf} {l : Buf} (hs : s ≤ k)
    (hk : k * stride ≤ l.length)
    (h : ∀ r, s ≤ r → r < k → RowOk cn w (fun x p => R x r p) (chunk stride l r) (g r (chunk stride l r))) :
    RowsOk stride s k cn w R l (eachChunk stride s k g l) := by
  have hc : ∀ r, r < k → (chunk stride l r).length = stride := by
    intro r hr
    have := succ_mul_le_of_lt stride hr
    exact chunk_length (by omega)
  have hh : ∀ r, ∃ pix : Nat → Buf, (∀ x, (pix x).length = cn) ∧ (s ≤ r → r < k →
      (∀ x, x < w → R x r (pix x)) ∧
      g r (chunk stride l r) = .ok (paintRow cn w pix (chunk stride l r))) := by
    intro r
    by_cases hr : s ≤ r ∧ r < k
    · obtain ⟨pix, a, b, c⟩ := h r hr.1 hr.2
      exact ⟨pix, a, fun _ _ => ⟨b, c⟩⟩
    · exact ⟨fun _ => List.replicate cn 0, by simp, fun a b => absurd ⟨a, b⟩ hr⟩
  refine ⟨fun x y => Classical.choose (hh y) x, ?_, ?_, ?_⟩
  · intro x y; exact (Classical.choose_spec (hh y)).1 x
  · intro x y hx h1 h2; exact ((Classical.choose_spec (hh y)).2 h1 h2).1 x hx
  · have hK : KeepsLen stride (fun y row => paintRow cn w (fun x => Classical.choose (hh y) x) row) :=
      paintRow_keeps (pix := fun x y => Classical.choose (hh y) x)
        (fun x y => (Classical.choose_spec (hh y)).1 x) hw
    by_cases hsk : s = k
    · subst hsk
      rw [eachChunk_ok hst (P := fun _ c => c) hk (fun t c a b => by omega)]
      simp [paintFrom, mapChunks_empty]
    · rw [eachChunk_chunk hst
        (P := fun t => if t < k then paintRow cn w (Classical.choose (hh t)) (chunk stride l t)
          else List.replicate stride 0) hk
        (fun t h1 h2 => by rw [if_pos h2]; exact ((Classical.choose_spec (hh t)).2 h1 h2).2)]
      unfold paintFrom
      rw [mapChunks_congr_chunk hst ?_ hK hs hk (fun t h1 h2 => by rw [if_pos h2])]
      intro t c _
      show (if t < k then _ else _ : Buf).length = stride
      split
      · rename_i ht
        rw [paintRow_length (Classical.choose_spec (hh t)).1 (by rw [hc t ht]; exact hw), hc t ht]
      · simp

theorem bnd_take {l : Buf} {B n : Nat} (h : ∀ x ∈ l, x < B) : ∀ x ∈ l.take n, x < B :=
  fun x hx => h x (List.mem_of_mem_take hx)

theorem x86PackRows444_rel {cpu : Cpu} {t : Yuy2} {i : Planar} {d : Packed} {B' : Nat}
    (hp : PlanarRows i .yuv444 256) (hd' : GoodPacked d B') (hw : i.width = d.width)
    (hhh : i.height = d.height) :
    FrameOk d.yuyStride i.height 4 (ceil2 i.width)
      (fun j y p => p = x86Quad444 cpu t i (pixelAt d.yuy d.yuyStride 4 j y) j y) d.yuy
      (packRows i.width t fetch444 id (packer cpu .yuv444 t i.width) i d.yuy d.yuyStride) := by
  have hs := hd'.stride'
  have hsp := hd'.spos
  have hf := hd'.full
  have h1 := hp.wpos
  have h2 := hp.yw
  have h3 := hp.uw
  have h4 := hp.vw
  have lc : ceil2 i.width = (i.width + 1) / 2 := rfl
  simp only [Sampling.chromaWidth] at h3 h4
  rw [← hw] at hs
  rw [← hhh] at hf
  unfold packRows
  rw [if_neg (by omega), fullRows_div hf, fullRows_div hp.yr, fullRows_div hp.ur, fullRows_div hp.vr,
    show min4 i.height i.height (Sampling.yuv444.chromaHeight i.height)
      (Sampling.yuv444.chromaHeight i.height) = i.height by simp [min4, Sampling.chromaHeight]]
  refine eachChunk_rows_at hsp (by omega) (by omega) (by rw [Nat.mul_comm]; exact hf.1) ?_
  intro r _ hr
  have ly := chunk_length (fullRows_row hp.yr hr)
  have lu := chunk_length (fullRows_row hp.ur hr)
  have lv := chunk_length (fullRows_row hp.vr hr)
  have lr := chunk_length (fullRows_row hf hr)
  unfold packSlice
  rw [slice_take (by omega), slice_take (by omega), slice_take (by omega)]
  simp only [Outcome.bind_ok]
  rw [yuy2Width_eq, onPrefix_all (by omega)]
  refine RowOk.mono (x86PackRow444 h1 (by rw [List.length_take]; omega) (by omega)
    (by rw [List.length_take]; omega) (by rw [List.length_take]; omega)
    (bnd_take (bnd_chunk hp.ub)) (bnd_take (bnd_chunk hp.vb))) ?_
  intro j p hj
  rintro rfl
  have hE := yuyVecEnd_le cpu i.width
  unfold x86RowQuad x86Quad444
  by_cases c1 : 2 * j < yuyVecEnd cpu i.width
  · have c1' : 2 * j < (i.width - 1) / 16 * 16 := by
      cases cpu <;> simp only [yuyVecEnd, Nat.not_lt_zero] at c1 ⊢ <;> omega
    rw [if_pos c1, if_pos c1]
    unfold packPix
    rw [vecChroma444_congr (c := fun x => ((chunk i.uStride i.u r).take i.width).getD x 0)
        (c' := fun x => Planar.U i .yuv444 x r) c1' (fun x hx => by
        simp only [Planar.U, hdiv, vdiv, Nat.div_one]; exact row_getD hx h3),
      vecChroma444_congr (c := fun x => ((chunk i.vStride i.v r).take i.width).getD x 0)
        (c' := fun x => Planar.V i .yuv444 x r) c1' (fun x hx => by
        simp only [Planar.V, hdiv, vdiv, Nat.div_one]; exact row_getD hx h4),
      row_getD (by omega) hp.yw, row_getD (by omega) hp.yw]
    rfl
  · rw [if_neg c1, if_neg c1]
    by_cases c2 : yuyVecEnd cpu i.width = 0 ∨ 2 * j + 1 = i.width
    · rw [if_pos c2, if_pos c2]
      unfold quad444 planarQuad444 Planar.Y Planar.U Planar.V chroma444
      simp only [hdiv, vdiv, Nat.div_one]
      rw [row_getD (by omega) hp.yw, row_getD (by omega) h3, row_getD (by omega) h4]
      by_cases h : 2 * j + 1 < i.width
      · rw [if_pos h, if_pos h, if_pos h, if_pos h, if_pos h, if_pos h, row_getD h hp.yw, row_getD h h3,
          row_getD h h4]
      · rw [if_neg h, if_neg h, if_neg h, if_neg h, if_neg h, if_neg h]
    · rw [if_neg c2, if_neg c2]
      apply List.ext_getElem?
      intro k
      unfold pixelAt
      rw [chunk_getElem?, List.getElem?_take]
      by_cases hk : k < 4
      · rw [if_pos hk, if_pos hk, chunk_getElem?, if_pos (by omega), List.getElem?_drop]
        congr 1; omega
      · rw [if_neg hk, if_neg hk]

end Verif.X86
