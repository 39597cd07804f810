import Verif.Model.NeonGrayDeep
import Verif.Lemmas.NeonDeep8
import Verif.Lemmas.NeonRows
/-! # Rows of the 64-bit ARM grey decoders of 10 to 16 bits -/
namespace Verif.Neon
open Spec X86

theorem part_at {v : Reg} {o j y : Nat} {c : Int} (hc : 0 ≤ c ∧ c ≤ 10000) (hy : y < 65536)
    (h : w16 v (o + j) = y) :
    (w32 (mlalU o (set1_32 (2 ^ 12 - 1)) v c) j : Int) = y * c + 4095 := by
  obtain ⟨a, rfl⟩ := Int.eq_ofNat_of_zero_le hc.1
  have ha : a ≤ 10000 := by have := hc.2; omega
  have m1 : y * a ≤ 65535 * 10000 := Nat.mul_le_mul (by omega) ha
  have u : asU16 (a : Int) = a := asU16_nat (by omega)
  rw [mlalU, w32_mk32, set1_32, w32_mk32, u, h]
  rw [show asU32 (2 ^ 12 - 1) = 4095 by decide]
  push_cast
  rw [← Nat.cast_mul]
  generalize y * a = x at m1
  unfold asU32; omega

/-- A grey word, whatever the luma word. -/
theorem greyWords_at {d : Nat} (hd : Deep d) (m : Matrix) {v : Reg} {j y : Nat} (hj : j < 8)
    (hy : y < 65536) (h : w16 v j = y - (getYuvRange d .limited).biasY) :
    w16 (greyWords d (searchInverse 13 d .limited m) v) j = grayLevel d .limited m y := by
  obtain ⟨c0, c1⟩ := grayY_coef hd.depth m
  unfold greyWords grayLevel
  dsimp only
  generalize (getYuvRange d .limited).biasY = b at h ⊢
  generalize (searchInverse 13 d .limited m).y = c at c0 c1 ⊢
  have key : ∀ o j', o + j' = j →
      (w32 (mlalU o (set1_32 (2 ^ 12 - 1)) v c) j' : Int) = ((y - b : Nat) : Int) * c + 4095 :=
    fun o j' e => part_at ⟨c0, c1⟩ (by omega) (e ▸ h)
  have hq : w16 (qshrnU 13 (mlalU 0 (set1_32 (2 ^ 12 - 1)) v c) (mlalU 4 (set1_32 (2 ^ 12 - 1)) v c)) j
      = min 65535 ((((y - b : Nat) : Int) * c + 4095) / 2 ^ 13).toNat := by
    rw [qshrnU, w16_mk16]
    by_cases h4 : j < 4
    · have := key 0 j (by omega)
      rw [if_pos h4, ← this, asU16_nat (by omega)]
      norm_cast
    · have := key 4 (j - 4) (by omega)
      rw [if_neg h4, ← this, asU16_nat (by omega)]
      norm_cast
  have hp : ((y - b : Nat) : Int) * c = max 0 (((y : Int) - b) * c) := by
    by_cases hyb : b ≤ y
    · rw [Nat.cast_sub hyb, max_eq_right]
      exact mul_nonneg (by omega) c0
    · rw [Nat.sub_eq_zero_of_le (by omega), Nat.cast_zero, zero_mul, max_eq_left]
      exact mul_nonpos_of_nonpos_of_nonneg (by omega) c0
  rw [hp] at hq
  generalize ((y : Int) - b) * c = x at hq ⊢
  have hmin : ∀ M : Nat, M ≤ 65535 → w16 (minU16 (qshrnU 13 (mlalU 0 (set1_32 (2 ^ 12 - 1)) v c)
      (mlalU 4 (set1_32 (2 ^ 12 - 1)) v c)) (set1_16 (M : Int))) j
      = min (min 65535 ((max 0 x + 4095) / 2 ^ 13).toNat) M := by
    intro M hM
    rw [minU16, w16_mk16, w16_set1 (by omega), hq, asU16_nat (by omega)]
  rcases hd with rfl | rfl | rfl | rfl
  · rw [if_pos (by decide)]
    refine (hmin 1023 (by decide)).trans ?_
    norm_num; omega
  · rw [if_pos (by decide)]
    refine (hmin 4095 (by decide)).trans ?_
    norm_num; omega
  · rw [if_pos (by decide)]
    refine (hmin 16383 (by decide)).trans ?_
    norm_num; omega
  · rw [if_neg (by decide), hq]
    norm_num; omega

/-- The pixel of a luma word. -/
def greyPx (d : Nat) (ch : Channels) (m : Matrix) (y : Nat) : Buf :=
  layout ch (grayLevel d .limited m y) (grayLevel d .limited m y) (grayLevel d .limited m y) (2 ^ d - 1)

theorem greyDeepBody_eq {d : Nat} (hd : Deep d) (ch : Channels) (m : Matrix) {y : Buf}
    (hy : ∀ x ∈ y, x < 65536) {cx : Nat} (ly : cx + 8 ≤ y.length) (p : Nat) (row : Buf) :
    greyDeepBody .little .lsb d ch (getYuvRange d .limited) (searchInverse 13 d .limited m) y cx p row
      = put row p ((List.range 8).flatMap fun j => greyPx d ch m (y.getD (cx + j) 0)) := by
  obtain ⟨yr, e1, a1, a2⟩ := load16_at ly hy
  have hby : (getYuvRange d .limited).biasY < 65536 := by
    rw [grayBias hd.depth]; rcases hd with rfl | rfl | rfl | rfl <;> decide
  unfold greyDeepBody storeRgb16
  rw [e1, Outcome.bind_ok, storeRgb_eq]
  unfold X86.pixels
  refine congrArg (put row p) (range_flatMap_congr fun j hj => ?_)
  have hx : w16 (subsU16 (nativeReg .little .lsb d yr) (set1_16 ((getYuvRange d .limited).biasY : Int))) j
      = y.getD (cx + j) 0 - (getYuvRange d .limited).biasY := by
    rw [w16_subsU (nativeReg_bytes .little .lsb d a2) hby]
    show w16 yr j - _ = _
    rw [a1 j hj]
  have hg := greyWords_at hd m hj (getD16_lt hy _) hx
  have ha : w16 (set1_16 (2 ^ d - 1)) j = 2 ^ d - 1 := by
    have : ((2 : Int) ^ d - 1) = ((2 ^ d - 1 : Nat) : Int) := by
      rcases hd with rfl | rfl | rfl | rfl <;> rfl
    rw [this, w16_set1 (by rcases hd with rfl | rfl | rfl | rfl <;> decide)]
  rw [hg, ha]
  rfl

theorem greyDeepRow_ok {d : Nat} (hd : Deep d) (ch : Channels) (m : Matrix) {w : Nat} {y row : Buf}
    (hy : ∀ x ∈ y, x < 65536) (ly : w ≤ y.length) (hw : w * ch.count ≤ row.length) :
    greyDeepRow .little .lsb d ch (getYuvRange d .limited) (searchInverse 13 d .limited m) w y row
      = .ok (painted ch.count (fun x => greyPx d ch m (y.getD x 0)) w row) := by
  have hlen : ∀ x, (greyPx d ch m (y.getD x 0)).length = ch.count := fun _ => layout_length' ..
  obtain ⟨cx, ux, e, h1, h2, h3, h4⟩ := paintLoopI (step := 8) (ustep := 0) (width := w) (cn := ch.count)
    (by decide) (I := fun _ _ => True) (fun _ _ _ => trivial)
    (pix := fun x => greyPx d ch m (y.getD x 0)) hlen
    (body := fun cx _ row => greyDeepBody .little .lsb d ch (getYuvRange d .limited)
      (searchInverse 13 d .limited m) y cx (cx * ch.count) row)
    (row := row) hw (cx0 := 0) (ux0 := 0) trivial
    (fun cx _ r _ _ hlt => greyDeepBody_eq hd ch m hy (by omega) _ _) (Nat.zero_le _)
  rw [painted_zero] at e
  unfold greyDeepRow
  rw [e, Outcome.bind_ok]
  dsimp only
  unfold grayTail
  by_cases hcx : cx < w
  · rw [if_pos hcx]
    obtain ⟨yb, ey, ly', y1, y2⟩ := copyIn_ok (src := y) (dst := List.replicate 8 0) (p := cx)
      (n := w - cx) (by omega) (by simp; omega)
    have e1 := greyDeepBody_eq hd ch m (y := yb) (cx := 0)
      (fun x hx => (y2 x hx).elim (hy x) (fun h => by rw [(List.mem_replicate.1 h).2]; decide))
      (by rw [ly']; simp) 0 (List.replicate (8 * 4) 0)
    simp only [ey, e1, Outcome.bind_ok, if_neg (show ¬ 8 < w - cx by omega)]
    have e2 := copyOut_put (N := 8) (L := 8 * 4) (n := w - cx) (cn := ch.count)
      (by have := X86.count_le ch; omega) (by omega)
      (f := fun j => greyPx d ch m (yb.getD (0 + j) 0)) (fun j => layout_length' ..)
      (painted ch.count (fun x => greyPx d ch m (y.getD x 0)) cx row) (cx * ch.count)
    have e3 : ((List.range (w - cx)).flatMap fun j => greyPx d ch m (yb.getD (0 + j) 0))
        = (List.range (w - cx)).flatMap fun j => greyPx d ch m (y.getD (cx + j) 0) := by
      apply range_flatMap_congr
      intro j hj
      rw [Nat.zero_add, y1 j hj]
    rw [e3, painted_put (pix := fun x => greyPx d ch m (y.getD x 0)) hlen
      (by rw [Nat.add_sub_cancel' h3]; exact hw), Nat.add_sub_cancel' h3] at e2
    exact e2
  · rw [if_neg hcx]
    obtain rfl : cx = w := by omega
    rfl

theorem greyDeepHandler_ok {d : Nat} (hd : Deep d) (ch : Channels) (m : Matrix) {w B : Nat} (hB : B ≤ 65536)
    {s : Src} (hs : s.cn = 1) :
    (greyDeepHandler d ch (getYuvRange d .limited) (searchInverse 13 d .limited m) w).Ok B w ch.count [s]
      (fun px p => p = greyPx d ch m (comp px 0 0)) := by
  intro rows row h1 h2 h3
  obtain ⟨y, rfl⟩ := rows_one h1
  obtain ⟨ly, hy⟩ := h2 s y (by simp)
  rw [hs, Nat.mul_one] at ly
  have e := greyDeepRow_ok hd ch m (fun x hx => Nat.lt_of_lt_of_le (hy x hx) hB) ly h3
  refine ⟨_, w, by simp only [greyDeepHandler, List.getD_cons_zero, e, Outcome.bind_ok]; rfl,
    painted_done (X86.count_pos ch) (fun _ => layout_length' ..) h3 (le_refl _) (.inr rfl) fun x hx => ?_⟩
  show _ = greyPx _ _ _ _
  rw [comp_plane hs (by omega)]
  rfl

/-- A row of the destination shorter than eight pixels: the first store leaves it. -/
theorem greyDeepRow_overrun (e : Endianness) (bp : BytesPacking) (d : Nat) (ch : Channels) (rg : ChromaRange)
    (t : InvCoef) {w : Nat} {y row : Buf} (h8 : 8 < w) (hs : row.length < 8 * ch.count) :
    greyDeepRow e bp d ch rg t w y row = .panic := by
  unfold greyDeepRow
  have hb : greyDeepBody e bp d ch rg t y 0 (0 * ch.count) row = .panic := by
    unfold greyDeepBody
    cases hl : load16 8 y 0 with
    | ok r =>
      rw [Outcome.bind_ok]
      unfold storeRgb16
      rw [storeRgb_eq, put, if_neg]
      rw [X86.pixels, X86.flatMap_length (cn := ch.count) (fun _ _ => layout_length' ..)]
      omega
    | err x => unfold load16 at hl; split at hl <;> cases hl
    | panic => rfl
  obtain ⟨n, rfl⟩ : ∃ n, w = n + 1 := ⟨w - 1, by omega⟩
  rw [vwhile, whileGo, if_pos (by omega), hb]
  rfl

end Verif.Neon
