import Verif.Model.NeonAlpha
import Verif.Spec.NeonAlpha
import Verif.Lemmas.NeonYcgco
import Verif.Lemmas.X86Alpha
/-! # Rows of the NEON decoder with an alpha plane -/
namespace Verif.Neon
open Spec X86

theorem mul_lt_word {a b : Nat} (ha : a < 256) (hb : b < 256) : a * b ≤ 65025 := by
  have : a * b ≤ 255 * 255 := Nat.mul_le_mul (by omega) (by omega)
  omega

theorem asU16_nat {n : Nat} (h : n < 65536) : asU16 (n : Int) = n := by unfold asU16; omega

theorem premul_word {lo : Reg} {k w : Nat} (hw : w ≤ 65025) (h : w16 lo k = w) :
    w16 (rsra8 (addU16 lo (set1_16 127)) lo) k = w + 127 + (w + 128) / 256 := by
  simp only [rsra8, addU16, w16_mk16, w16_set127, h]
  rw [asU16_nat (n := w + 127) (by omega), asU16_nat (by omega)]

theorem premultiply_at {v a : Reg} {i : Nat} (h : i < 16) (hv : v i < 256) (ha : a i < 256) :
    premultiply v a i = neonDiv (v i * a i) := by
  have hw := mul_lt_word hv ha
  unfold premultiply qshrn8
  by_cases h8 : i < 8
  · rw [if_pos h8, premul_word hw (by
      rw [mullLow, w16_mk16, asU16_nat (by omega)])]
    unfold neonDiv; omega
  · have e : 8 + (i - 8) = i := by omega
    rw [if_neg h8, premul_word hw (by
      rw [mullHigh, w16_mk16, e, asU16_nat (by omega)])]
    unfold neonDiv; omega

/-- The pixel of a row, luma above the offset. -/
def apx (rdm pm : Bool) (ch : Channels) (t : InvCoef) (yo u v am a : Nat) : Buf :=
  let c := neonRGB rdm true t yo u v
  let f := fun c => if pm then neonDiv (c * am) else c
  layout ch (f c.1) (f c.2.1) (f c.2.2) a

theorem apx_length {rdm pm : Bool} {ch : Channels} {t : InvCoef} (yo u v am a : Nat) :
    (apx rdm pm ch t yo u v am a).length = ch.count := layout_length' ..

theorem neonRGB_lt (rdm two : Bool) (t : InvCoef) (yo u v : Nat) :
    (neonRGB rdm two t yo u v).1 < 256 ∧ (neonRGB rdm two t yo u v).2.1 < 256 ∧
    (neonRGB rdm two t yo u v).2.2 < 256 := ⟨byteSat_lt _, byteSat_lt _, byteSat_lt _⟩

section
variable {rdm pm : Bool} {t : InvCoef} (ht : Coef16 t) {ch : Channels} {Y U V M A : Nat → Nat}
include ht

theorem putAlpha16_eq {y u v m a : Reg} (hY : ∀ i, i < 16 → Y i < 256) (hU : ∀ i, i < 16 → U i < 256)
    (hV : ∀ i, i < 16 → V i < 256) (hM : ∀ i, i < 16 → M i < 256) (hy : ∀ i, i < 16 → y i = Y i)
    (hu : ∀ i, i < 16 → u i = (U i + 128) % 256) (hv : ∀ i, i < 16 → v i = (V i + 128) % 256)
    (hm : ∀ i, i < 16 → m i = M i) (ha : ∀ i, i < 16 → a i = A i) (p : Nat) (row : Buf) :
    putAlpha16 rdm pm ch t p y u v m a row = put row p
      ((List.range 16).flatMap fun i => apx rdm pm ch t (Y i) (U i) (V i) (M i) (A i)) := by
  simp only [putAlpha16, storeRgb_eq]
  refine congrArg (put row p) ?_
  unfold X86.pixels
  apply range_flatMap_congr
  intro i hi
  have key : ∀ {a b : Reg} {x : Nat}, (i < 8 → satU8 (s16 a i) = x) →
      (8 ≤ i → satU8 (s16 b (i - 8)) = x) → qmovun a b i = x := by
    intro a b x ha hb
    unfold qmovun
    by_cases h8 : i < 8
    · rw [if_pos h8]; exact ha h8
    · rw [if_neg h8]; exact hb (by omega)
  have lo : i < 8 → _ := fun h8 => colours_at (rdm := rdm) (two := true) (y := expandLow y) (u := shllLow u)
    (v := shllLow v) ht (hY i hi) (hU i hi) (hV i hi)
    (by rw [s16_expandLow h8 (by rw [hy i hi]; exact hY i hi), hy i hi])
    (s16_shllLow (hU i hi) (hu i hi)) (s16_shllLow (hV i hi) (hv i hi))
  have hi' : 8 ≤ i → _ := fun h8 => colours_at (rdm := rdm) (two := true) (k := i - 8)
    (y := expandHigh y) (u := shllHigh u) (v := shllHigh v) ht (hY i hi) (hU i hi) (hV i hi)
    (by
      have e : 8 + (i - 8) = i := by omega
      rw [s16_expandHigh (by rw [e, hy i hi]; exact hY i hi), e, hy i hi])
    (s16_shllHigh (hU i hi) (by rw [show 8 + (i - 8) = i by omega]; exact hu i hi))
    (s16_shllHigh (hV i hi) (by rw [show 8 + (i - 8) = i by omega]; exact hv i hi))
  have k1 := key (fun h => (lo h).1) (fun h => (hi' h).1)
  have k2 := key (fun h => (lo h).2.1) (fun h => (hi' h).2.1)
  have k3 := key (fun h => (lo h).2.2) (fun h => (hi' h).2.2)
  obtain ⟨b1, b2, b3⟩ := neonRGB_lt rdm true t (Y i) (U i) (V i)
  have hmi := hm i hi
  have hMi := hM i hi
  cases pm
  · simp only [Bool.false_eq_true, if_false, k1, k2, k3, ha i hi]
    rfl
  · simp only [if_true]
    rw [premultiply_at hi (by rw [k1]; exact b1) (by rw [hmi]; exact hMi),
      premultiply_at hi (by rw [k2]; exact b2) (by rw [hmi]; exact hMi),
      premultiply_at hi (by rw [k3]; exact b3) (by rw [hmi]; exact hMi), k1, k2, k3, hmi, ha i hi]
    rfl

end

variable {rdm pm : Bool} {rg : ChromaRange} {t : InvCoef}

/-- What a body stores when the colours of pixel `j` are multiplied by alpha `cx + σ j`. -/
def stepA (rdm pm : Bool) (ch : Channels) (rg : ChromaRange) (t : InvCoef) (σ : Nat → Nat) (hd n : Nat)
    (y u v a : Buf) (cx ux : Nat) : Buf :=
  (List.range n).flatMap fun j => apx rdm pm ch t (y.getD (cx + j) 0 - rg.biasY) (u.getD (ux + j / hd) 0)
    (v.getD (ux + j / hd) 0) (a.getD (cx + σ j) 0) (a.getD (cx + j) 0)

/-- The halves of 32 exchanged. -/
def swap16 (j : Nat) : Nat := if j % 32 < 16 then j + 16 else j - 16

section
variable (hb : rg.biasUv = 128) (hby : rg.biasY < 256) (ht : Coef16 t)
include hb hby ht

theorem alphaBody16_eq (s : Sampling) (ch : Channels) {y u v a : Buf} (hy : ∀ x ∈ y, x < 256)
    (hu : ∀ x ∈ u, x < 256) (hv : ∀ x ∈ v, x < 256) (ha : ∀ x ∈ a, x < 256) {cx ux : Nat}
    (ly : cx + 16 ≤ y.length) (lu : ux + chromaStep s 16 ≤ u.length)
    (lv : ux + chromaStep s 16 ≤ v.length) (la : cx + 16 ≤ a.length) (row : Buf) :
    alphaBody16 rdm pm s ch rg t y u v a cx ux row = put row (cx * ch.count)
      (stepA rdm pm ch rg t id (hdiv s) 16 y u v a cx ux) := by
  obtain ⟨yr, ey, y1, y2⟩ := load_at ly hy
  obtain ⟨ar, ea, a1, a2⟩ := load_at la ha
  obtain ⟨c, ec, c1, c2⟩ := planarChroma_at (st := .s16) hb hu hv lu lv
  rw [alphaBody16, ey, Outcome.bind_ok, ea, Outcome.bind_ok, ec, Outcome.bind_ok,
    putAlpha16_eq ht (Y := fun i => y.getD (cx + i) 0 - rg.biasY)
      (fun i hi => by have := y2 i; rw [y1 i hi] at this; omega) (fun i _ => getD_lt (by decide) hu)
      (fun i _ => getD_lt (by decide) hv) (fun i _ => getD_lt (by decide) ha)
      (fun i hi => by rw [subsU8_at hby, y1 i hi]) c1 c2 a1 a1]
  rfl

theorem alphaBody32_eq (s : Sampling) (ch : Channels) {y u v a : Buf} (hy : ∀ x ∈ y, x < 256)
    (hu : ∀ x ∈ u, x < 256) (hv : ∀ x ∈ v, x < 256) (ha : ∀ x ∈ a, x < 256) {cx ux : Nat}
    (ly : cx + 32 ≤ y.length) (lu : ux + chromaStep s 32 ≤ u.length)
    (lv : ux + chromaStep s 32 ≤ v.length) (la : cx + 32 ≤ a.length) (row : Buf) :
    alphaBody32 rdm pm s ch rg t y u v a cx ux row = put row (cx * ch.count)
      (stepA rdm pm ch rg t swap16 (hdiv s) 32 y u v a cx ux) := by
  obtain ⟨yr, ey, y1, y2⟩ := load_at ly hy
  obtain ⟨ar, ea, a1, a2⟩ := load_at la ha
  obtain ⟨c, ec, c1, c2⟩ := planarChroma_at (st := .s32) hb hu hv lu lv
  have c1 : ∀ i, i < 32 → c.1 i = (u.getD (ux + i / hdiv s) 0 + 128) % 256 := c1
  have c2 : ∀ i, i < 32 → c.2 i = (v.getD (ux + i / hdiv s) 0 + 128) % 256 := c2
  have yk : ∀ i, i < 32 → subsU8 yr (set1_8 rg.biasY) i = y.getD (cx + i) 0 - rg.biasY :=
    fun i hi => by rw [subsU8_at hby, y1 i hi]
  have yb : ∀ i, i < 32 → y.getD (cx + i) 0 - rg.biasY < 256 :=
    fun i hi => by have := y2 i; rw [y1 i hi] at this; omega
  have L := fun row => putAlpha16_eq (rdm := rdm) (pm := pm) (ch := ch) ht
    (Y := fun i => y.getD (cx + i) 0 - rg.biasY) (U := fun i => u.getD (ux + i / hdiv s) 0)
    (V := fun i => v.getD (ux + i / hdiv s) 0) (M := fun i => a.getD (cx + (16 + i)) 0)
    (A := fun i => a.getD (cx + i) 0) (m := upper 16 ar)
    (fun i hi => yb i (by omega)) (fun i _ => getD_lt (by decide) hu)
    (fun i _ => getD_lt (by decide) hv) (fun i _ => getD_lt (by decide) ha)
    (fun i hi => yk i (by omega)) (fun i hi => c1 i (by omega)) (fun i hi => c2 i (by omega))
    (fun i hi => a1 (16 + i) (by omega)) (fun i hi => a1 i (by omega)) (cx * ch.count) row
  have H := fun row => putAlpha16_eq (rdm := rdm) (pm := pm) (ch := ch) ht
    (Y := fun i => y.getD (cx + (16 + i)) 0 - rg.biasY) (U := fun i => u.getD (ux + (16 + i) / hdiv s) 0)
    (V := fun i => v.getD (ux + (16 + i) / hdiv s) 0) (M := fun i => a.getD (cx + i) 0)
    (A := fun i => a.getD (cx + (16 + i)) 0) (a := upper 16 ar)
    (y := upper 16 (subsU8 yr (set1_8 rg.biasY))) (u := upper 16 c.1) (v := upper 16 c.2)
    (fun i hi => yb (16 + i) (by omega)) (fun i _ => getD_lt (by decide) hu)
    (fun i _ => getD_lt (by decide) hv) (fun i _ => getD_lt (by decide) ha)
    (fun i hi => yk (16 + i) (by omega)) (fun i hi => c1 (16 + i) (by omega))
    (fun i hi => c2 (16 + i) (by omega)) (fun i hi => a1 i (by omega))
    (fun i hi => a1 (16 + i) (by omega)) (cx * ch.count + ch.count * 16) row
  rw [alphaBody32, ey, Outcome.bind_ok, ec, Outcome.bind_ok]
  simp only [ea, Outcome.bind_ok, L, H]
  rw [put_put _ _ _ _ _ (by
    rw [flatMap_length (fun j _ => apx_length ..)]; ring)]
  refine congrArg (put row (cx * ch.count)) ?_
  unfold stepA
  rw [show (32 : Nat) = 16 + 16 from rfl, List.range_add, List.flatMap_append, List.flatMap_map]
  refine congr (congrArg _ ?_) ?_
  · apply range_flatMap_congr
    intro i hi
    simp only [swap16, if_pos (show i % 32 < 16 by omega), Nat.add_comm 16 i]
  · apply range_flatMap_congr
    intro i hi
    simp only [swap16, if_neg (show ¬ (16 + i) % 32 < 16 by omega), Nat.add_sub_cancel_left]

end

/-- Beyond what is copied a buffer is as before. -/
theorem copyIn_rest {src dst b : Buf} {p n : Nat} (h1 : p + n ≤ src.length) (h2 : n ≤ dst.length)
    (h : copyIn src p n dst = .ok b) {j : Nat} (hj : n ≤ j) : b.getD j 0 = dst.getD j 0 := by
  have hl : ((src.drop p).take n).length = n := by simp; omega
  rw [copyIn, if_pos h1, put_ok (by omega)] at h
  cases h
  simp only [splice, List.take_zero, List.nil_append, List.getD_eq_getElem?_getD]
  rw [List.getElem?_append_right (by omega), List.getElem?_drop, hl]
  congr 2; omega

/-- Pixel `x` of a row of `w` pixels. -/
def rowA (rdm pm : Bool) (ch : Channels) (rg : ChromaRange) (t : InvCoef) (s : Sampling) (w : Nat)
    (y u v a : Buf) (x : Nat) : Buf :=
  apx rdm pm ch t (y.getD x 0 - rg.biasY) (u.getD (x / hdiv s) 0) (v.getD (x / hdiv s) 0)
    (if neonLost s w x then 0 else a.getD (neonMulCol w x) 0) (if neonLost s w x then 0 else a.getD x 0)

theorem getD_replicate_zero (n j : Nat) : (List.replicate n 0 : Buf).getD j 0 = 0 := by
  by_cases h : j < n <;> simp [List.getD, h]

theorem neonLost_false {s : Sampling} {w x : Nat} (h : x < 16 * ((w - 1) / 16)) :
    neonLost s w x = false := by
  unfold neonLost
  rw [decide_eq_false (by omega), Bool.and_false]

theorem div_hd {hd cx ux j : Nat} (hhd : 0 < hd) (h : ux * hd = cx) : (cx + j) / hd = ux + j / hd := by
  rw [← h, Nat.add_comm, Nat.add_mul_div_right _ _ hhd, Nat.add_comm]

theorem stepA_row32 (ch : Channels) (s : Sampling) {w cx ux : Nat} {y u v a : Buf} (h : ux * hdiv s = cx)
    (h32 : cx % 32 = 0) (hlt : cx + 32 < w) :
    stepA rdm pm ch rg t swap16 (hdiv s) 32 y u v a cx ux
      = (List.range 32).flatMap fun j => rowA rdm pm ch rg t s w y u v a (cx + j) := by
  apply range_flatMap_congr
  intro j hj
  have e1 : neonLost s w (cx + j) = false := neonLost_false (by omega)
  have e2 : neonMulCol w (cx + j) = cx + swap16 j := by
    unfold neonMulCol swap16
    rw [if_pos (by omega), show (cx + j) % 32 = j % 32 by omega]
    split <;> omega
  simp only [rowA, e1, e2, div_hd (hdiv_pos s) h, Bool.false_eq_true, if_false]

theorem stepA_row16 (ch : Channels) (s : Sampling) {w cx ux : Nat} {y u v a : Buf} (h : ux * hdiv s = cx)
    (h16 : cx % 16 = 0) (h32 : 32 * ((w - 1) / 32) ≤ cx) (hlt : cx + 16 < w) :
    stepA rdm pm ch rg t id (hdiv s) 16 y u v a cx ux
      = (List.range 16).flatMap fun j => rowA rdm pm ch rg t s w y u v a (cx + j) := by
  apply range_flatMap_congr
  intro j hj
  have e1 : neonLost s w (cx + j) = false := neonLost_false (by omega)
  have e2 : neonMulCol w (cx + j) = cx + j := by
    unfold neonMulCol
    rw [if_neg (by omega)]
  simp only [rowA, e1, e2, div_hd (hdiv_pos s) h, Bool.false_eq_true, if_false, id]

section
variable (hb : rg.biasUv = 128) (hby : rg.biasY < 256) (ht : Coef16 t)
include hb hby ht

theorem alphaTail_ok (s : Sampling) (ch : Channels) {w : Nat} {y u v a row : Buf}
    (hy : ∀ x ∈ y, x < 256) (hu : ∀ x ∈ u, x < 256) (hv : ∀ x ∈ v, x < 256) (ha : ∀ x ∈ a, x < 256)
    (ly : w ≤ y.length) (lu : (w - 1) / hdiv s + 1 ≤ u.length)
    (lv : (w - 1) / hdiv s + 1 ≤ v.length) (la : w ≤ a.length) (hw : w * ch.count ≤ row.length)
    {cx ux : Nat} (h1 : ux * hdiv s = cx) (h2 : cx ≤ w) (h3 : w ≤ cx + 16)
    (h4 : cx = 16 * ((w - 1) / 16)) :
    ∃ ux', alphaTail rdm pm s ch rg t w y u v a
        (painted ch.count (rowA rdm pm ch rg t s w y u v a) cx row) cx ux
      = .ok (painted ch.count (rowA rdm pm ch rg t s w y u v a) w row, w, ux') := by
  unfold alphaTail
  by_cases hlt : cx < w
  · rw [if_pos hlt]
    have hd : chromaStep s (w - cx) ≤ 16 := by
      cases s <;> simp only [chromaStep, ceil2] <;> omega
    have hd' : chromaStep s (w - cx) ≤ w - cx := by
      cases s <;> simp only [chromaStep, ceil2] <;> omega
    have h8 : chromaStep s 16 ≤ 16 := by cases s <;> decide
    obtain ⟨yb, ey, ly', y1, y2⟩ := copyIn_ok (src := y) (dst := List.replicate 16 0) (p := cx)
      (n := w - cx) (by omega) (by simp; omega)
    obtain ⟨ab, ea, la', a1, a2⟩ := copyIn_ok (src := a) (dst := List.replicate 16 0) (p := cx)
      (n := chromaStep s (w - cx)) (by omega) (by simp; omega)
    obtain ⟨ub, eu, lu', u1, u2⟩ := copyIn_ok (src := u) (dst := List.replicate 16 0) (p := ux)
      (n := chromaStep s (w - cx)) (chroma_tail h1 hlt lu) (by simp; omega)
    obtain ⟨vb, ev, lv', v1, v2⟩ := copyIn_ok (src := v) (dst := List.replicate 16 0) (p := ux)
      (n := chromaStep s (w - cx)) (chroma_tail h1 hlt lv) (by simp; omega)
    have a3 := fun j hj => copyIn_rest (j := j) (by omega) (by simp; omega) ea hj
    rw [List.length_replicate] at ly' lu' lv' la'
    have e1 := alphaBody16_eq hb hby ht (rdm := rdm) (pm := pm) s ch (y := yb) (u := ub) (v := vb) (a := ab)
      (fun x hx => (y2 x hx).elim (hy x) (z256 _ x)) (fun x hx => (u2 x hx).elim (hu x) (z256 _ x))
      (fun x hx => (v2 x hx).elim (hv x) (z256 _ x)) (fun x hx => (a2 x hx).elim (ha x) (z256 _ x))
      (cx := 0) (ux := 0) (show 0 + 16 ≤ _ by omega) (show 0 + chromaStep s 16 ≤ _ by omega)
      (show 0 + chromaStep s 16 ≤ _ by omega) (show 0 + 16 ≤ _ by omega) (List.replicate 64 0)
    rw [Nat.zero_mul] at e1
    have q := copyOut_put (N := 16) (L := 64) (n := w - cx) (cn := ch.count)
      (by have := count_le ch; omega) (by omega)
      (f := fun j => apx rdm pm ch t (yb.getD (0 + j) 0 - rg.biasY) (ub.getD (0 + j / hdiv s) 0)
        (vb.getD (0 + j / hdiv s) 0) (ab.getD (0 + id j) 0) (ab.getD (0 + j) 0))
      (fun j => apx_length ..) (painted ch.count (rowA rdm pm ch rg t s w y u v a) cx row) (cx * ch.count)
    have e3 : ((List.range (w - cx)).flatMap fun j => apx rdm pm ch t (yb.getD (0 + j) 0 - rg.biasY)
        (ub.getD (0 + j / hdiv s) 0) (vb.getD (0 + j / hdiv s) 0) (ab.getD (0 + id j) 0)
        (ab.getD (0 + j) 0))
        = (List.range (w - cx)).flatMap fun j => rowA rdm pm ch rg t s w y u v a (cx + j) := by
      apply range_flatMap_congr
      intro j hj
      have hc : j / hdiv s < chromaStep s (w - cx) := by
        cases s <;> simp only [hdiv, chromaStep, ceil2] <;> omega
      have ec : neonMulCol w (cx + j) = cx + j := by
        unfold neonMulCol
        rw [if_neg (by omega)]
      have el : neonLost s w (cx + j) = decide (chromaStep s (w - cx) ≤ j) := by
        unfold neonLost
        rw [← h4]
        cases s
        · exact decide_eq_decide.2 (show cx + (w - cx + 1) / 2 ≤ cx + j ↔ (w - cx + 1) / 2 ≤ j by omega)
        · exact decide_eq_decide.2 (show cx + (w - cx + 1) / 2 ≤ cx + j ↔ (w - cx + 1) / 2 ≤ j by omega)
        · exact (decide_eq_false (show ¬ w - cx ≤ j by omega)).symm
      have aj : ab.getD j 0 = if neonLost s w (cx + j) then 0 else a.getD (cx + j) 0 := by
        rw [el]
        by_cases hj' : chromaStep s (w - cx) ≤ j
        · rw [decide_eq_true hj', if_pos rfl, a3 j hj']
          exact getD_replicate_zero 16 j
        · rw [decide_eq_false hj', if_neg Bool.false_ne_true, a1 j (by omega)]
      simp only [rowA, ec, div_hd (hdiv_pos s) h1, Nat.zero_add, id, y1 j hj, u1 _ hc, v1 _ hc, aj]
    rw [e3, painted_put (pix := rowA rdm pm ch rg t s w y u v a) (fun j => apx_length ..)
        (by rw [Nat.add_sub_cancel' h2]; exact hw), Nat.add_sub_cancel' h2] at q
    refine ⟨ux + chromaStep s (w - cx), ?_⟩
    have q' : (put (List.replicate 64 0) 0 (stepA rdm pm ch rg t id (hdiv s) 16 yb ub vb ab 0 0) >>= fun db =>
        copyOut db ((w - cx) * ch.count) (painted ch.count (rowA rdm pm ch rg t s w y u v a) cx row)
          (cx * ch.count)) = .ok (painted ch.count (rowA rdm pm ch rg t s w y u v a) w row) := q
    simp only [ey, ea, eu, ev, e1, Outcome.bind_ok, if_neg (show ¬ 16 < w - cx by omega)]
    cases hp : put (List.replicate 64 0) 0 (stepA rdm pm ch rg t id (hdiv s) 16 yb ub vb ab 0 0) with
    | ok db =>
      rw [hp, Outcome.bind_ok] at q'
      simp only [Outcome.bind_ok, q', Nat.add_sub_cancel' h2, Outcome.pure_eq]
    | err x => rw [hp] at q'; cases q'
    | panic => rw [hp] at q'; cases q'
  · rw [if_neg hlt]
    obtain rfl : cx = w := by omega
    exact ⟨ux, rfl⟩

theorem alphaRow_ok (s : Sampling) (ch : Channels) {w : Nat} {y u v a row : Buf}
    (hy : ∀ x ∈ y, x < 256) (hu : ∀ x ∈ u, x < 256) (hv : ∀ x ∈ v, x < 256) (ha : ∀ x ∈ a, x < 256)
    (ly : w ≤ y.length) (lu : (w - 1) / hdiv s + 1 ≤ u.length)
    (lv : (w - 1) / hdiv s + 1 ≤ v.length) (la : w ≤ a.length) (hw : w * ch.count ≤ row.length) :
    ∃ ux, alphaRow rdm pm s ch rg t w y u v a row 0 0
      = .ok (painted ch.count (rowA rdm pm ch rg t s w y u v a) w row, w, ux) := by
  have s32 := chromaStep_hdiv s (show 32 % 2 = 0 by decide)
  have s16 := chromaStep_hdiv s (show 16 % 2 = 0 by decide)
  obtain ⟨cx, ux, e, l1, ⟨g1, g4⟩, g2, g3⟩ := paintLoopI (step := 32) (ustep := chromaStep s 32) (width := w)
    (cn := ch.count) (I := fun cx ux => ux * hdiv s = cx ∧ cx % 32 = 0) (by decide)
    (fun cx ux g => ⟨by rw [Nat.add_mul, g.1, s32], by omega⟩)
    (pix := rowA rdm pm ch rg t s w y u v a) (fun _ => apx_length ..) (row := row) hw
    (body := alphaBody32 rdm pm s ch rg t y u v a) (cx0 := 0) (ux0 := 0) ⟨Nat.zero_mul _, rfl⟩
    (fun cx ux r _ hux hlt => by
      rw [alphaBody32_eq hb hby ht s ch hy hu hv ha (by omega)
        (chroma_room hux.1 (by decide) (by omega) lu (by decide))
        (chroma_room hux.1 (by decide) (by omega) lv (by decide)) (by omega) r,
        stepA_row32 ch s hux.1 hux.2 hlt]) (Nat.zero_le _)
  have c32 : cx = 32 * ((w - 1) / 32) := by rw [l1]; unfold loopEnd; omega
  obtain ⟨cx', ux', e', l2, ⟨k1, k4, k5⟩, k2, k3⟩ := paintLoopI (step := 16) (ustep := chromaStep s 16)
    (width := w)
    (cn := ch.count) (I := fun cx ux => ux * hdiv s = cx ∧ cx % 16 = 0 ∧ 32 * ((w - 1) / 32) ≤ cx)
    (by decide)
    (fun cx ux g => ⟨by rw [Nat.add_mul, g.1, s16], by omega, by omega⟩)
    (pix := rowA rdm pm ch rg t s w y u v a) (fun _ => apx_length ..) (row := row) hw
    (body := alphaBody16 rdm pm s ch rg t y u v a) (cx0 := cx) (ux0 := ux) ⟨g1, by omega, by omega⟩
    (fun cx ux r _ hux hlt => by
      rw [alphaBody16_eq hb hby ht s ch hy hu hv ha (by omega)
        (chroma_room hux.1 (by decide) (by omega) lu (by decide))
        (chroma_room hux.1 (by decide) (by omega) lv (by decide)) (by omega) r,
        stepA_row16 ch s hux.1 hux.2.1 hux.2.2 hlt]) g2
  have c16 : cx' = 16 * ((w - 1) / 16) := by rw [l2, c32]; unfold loopEnd; omega
  obtain ⟨ux'', e''⟩ := alphaTail_ok (rdm := rdm) (pm := pm) hb hby ht s ch hy hu hv ha ly lu lv la hw k1 k2 k3 c16
  rw [painted_zero] at e
  exact ⟨ux'', by rw [alphaRow, e, Outcome.bind_ok]; simp only [e', Outcome.bind_ok]; exact e''⟩

end

theorem apx_split (ch : Channels) (rg : YuvRange) (m : Matrix) (lost : Bool) (am a y u v : Nat) :
    neonAlphaPixel rdm pm ch rg m lost am a y u v = apx rdm pm ch (searchInverse 13 8 rg m)
      (y - (getYuvRange 8 rg).biasY) u v (if lost then 0 else am) (if lost then 0 else a) := rfl

/-- What the handler does, seen with the alpha that multiplies a pixel. -/
theorem alphaHandler_fills_mul (s : Sampling) (ch : Channels) (rg : YuvRange) (m : Matrix) {w : Nat}
    (ht : Coef16 (searchInverse 13 8 rg m)) (px0 : Nat → Nat → Nat → Nat → Buf) :
    (alphaHandler rdm pm s ch (getYuvRange 8 rg) (searchInverse 13 8 rg m) w).FillsFrom (neonMulCol w) true
      256 ch.count w (hdiv s) px0
      (fun x y u v am p => ∃ a, p = neonAlphaPixel rdm pm ch rg m (neonLost s w x) am a y u v) := by
  intro y u v a row hy hu hv ha ly lu lv la hw
  have hb : (getYuvRange 8 rg).biasUv = 128 := by cases rg <;> rfl
  have hby : (getYuvRange 8 rg).biasY < 256 := by cases rg <;> decide
  obtain ⟨ux, e⟩ := alphaRow_ok (rdm := rdm) (pm := pm) hb hby ht s ch hy hu hv ha ly lu lv
    la hw
  exact ⟨row, _, _, by simp only [alphaHandler, done, e, Outcome.bind_ok]; rfl, ⟨rfl, fun _ _ => rfl⟩,
    painted_done (X86.count_pos ch) (fun _ => apx_length ..) hw (le_refl _) (.inr rfl)
      fun x hx => ⟨a.getD x 0, rfl⟩, fun x h1 h2 => absurd h1.le (by omega)⟩

/-- What the handler does, seen with the alpha of a pixel. -/
theorem alphaHandler_fills_own (s : Sampling) (ch : Channels) (rg : YuvRange) (m : Matrix) {w : Nat}
    (ht : Coef16 (searchInverse 13 8 rg m)) (px0 : Nat → Nat → Nat → Nat → Buf) :
    (alphaHandler rdm pm s ch (getYuvRange 8 rg) (searchInverse 13 8 rg m) w).Fills true
      256 ch.count w (hdiv s) px0
      (fun x y u v a p => ∃ am, p = neonAlphaPixel rdm pm ch rg m (neonLost s w x) am a y u v) := by
  intro y u v a row hy hu hv ha ly lu lv la hw
  have hb : (getYuvRange 8 rg).biasUv = 128 := by cases rg <;> rfl
  have hby : (getYuvRange 8 rg).biasY < 256 := by cases rg <;> decide
  obtain ⟨ux, e⟩ := alphaRow_ok (rdm := rdm) (pm := pm) hb hby ht s ch hy hu hv ha ly lu lv
    la hw
  exact ⟨_, _, by simp only [alphaHandler, done, e, Outcome.bind_ok]; rfl,
    painted_done (X86.count_pos ch) (fun _ => apx_length ..) hw (le_refl _) (.inr rfl)
      fun x hx => ⟨a.getD (neonMulCol w x) 0, rfl⟩, fun x h1 h2 => absurd h1.le (by omega)⟩

theorem layout_alpha_inj {ch : Channels} (hch : ch = .rgba ∨ ch = .bgra) {r g b a r' g' b' a' : Nat}
    (h : layout ch r g b a = layout ch r' g' b' a') : a = a' := by
  rcases hch with rfl | rfl <;> simp only [layout, List.cons.injEq] at h <;> omega

end Verif.Neon
