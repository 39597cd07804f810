import Verif.Model.NeonShuffle
import Verif.Lemmas.NeonEncode
import Verif.Lemmas.X86Shuffle
/-! # Rows of the channel shuffles with NEON -/
namespace Verif.Neon
open Spec X86

/-- The pixel in the other layout, with alpha `d` if the source has none. -/
def shufP (d : Nat) (sc dc : Channels) (p : Buf) : Buf :=
  layout dc (red sc p) (green sc p) (blue sc p) (alphaOr d sc p)

theorem shufP_length (d : Nat) (sc dc : Channels) (p : Buf) : (shufP d sc dc p).length = dc.count :=
  layout_length' ..

/-- A step shuffles the `n` pixels from `x0` on to byte `q`. -/
def StepOk (n d : Nat) (sc dc : Channels) (f : Buf → Nat → Nat → Buf → Outcome Buf) : Prop :=
  ∀ (src : Buf) (x0 q : Nat) (row : Buf), (∀ b ∈ src, b < 256) → (x0 + n) * sc.count ≤ src.length →
    f src (x0 * sc.count) q row
      = put row q ((List.range n).flatMap fun j => shufP d sc dc (rowPx src sc.count (x0 + j)))

theorem loadRgba_at (n : Nat) {d : Nat} (hd : d < 256) (ch : Channels) {l : Buf} {x0 : Nat} (hb : ∀ b ∈ l, b < 256)
    (hl : (x0 + n) * ch.count ≤ l.length) :
    ∃ c, loadRgba n d ch l (x0 * ch.count) = .ok c ∧ ∀ j, j < n →
      c.1 j = red ch (rowPx l ch.count (x0 + j)) ∧ c.2.1 j = green ch (rowPx l ch.count (x0 + j)) ∧
      c.2.2.1 j = blue ch (rowPx l ch.count (x0 + j)) ∧ c.2.2.2 j = alphaOr d ch (rowPx l ch.count (x0 + j)) := by
  obtain ⟨c, e, h⟩ := loadRgb_at n ch hb hl
  have hl' : x0 * ch.count + n * ch.count ≤ l.length := by rw [← Nat.add_mul]; exact hl
  have hd' : ((d : Int) % 256).toNat = d := by omega
  have e4 : ∀ j, x0 * 4 + (4 * j + 3) = (x0 + j) * 4 + 3 := fun j => by omega
  have at4 : ch.count = 4 → ∀ j, j < n →
      ld (n * 4) l (x0 * 4) (4 * j + 3) = (rowPx l 4 (x0 + j)).getD 3 d := fun h4 j hj => by
    rw [h4] at hl'
    rw [ld_at (by omega), rowPx_getD' (by omega) (by omega), e4]
  cases ch <;> simp only [Channels.count] at hl' e h ⊢ <;>
    simp only [loadRgba, e, Outcome.bind_ok]
  · exact ⟨_, rfl, fun j hj => ⟨(h j hj).1.1, (h j hj).2.1.1, (h j hj).2.2.1, hd'⟩⟩
  · rw [load_ld hl']
    exact ⟨_, rfl, fun j hj => ⟨(h j hj).1.1, (h j hj).2.1.1, (h j hj).2.2.1, at4 rfl j hj⟩⟩
  · rw [load_ld hl']
    exact ⟨_, rfl, fun j hj => ⟨(h j hj).1.1, (h j hj).2.1.1, (h j hj).2.2.1, at4 rfl j hj⟩⟩
  · exact ⟨_, rfl, fun j hj => ⟨(h j hj).1.1, (h j hj).2.1.1, (h j hj).2.2.1, hd'⟩⟩

theorem shufStep_ok (n : Nat) {d : Nat} (hd : d < 256) (sc dc : Channels) : StepOk n d sc dc (shufStep n d sc dc) := by
  intro src x0 q row hb hl
  obtain ⟨c, e, h⟩ := loadRgba_at n hd sc hb hl
  rw [shufStep, e, Outcome.bind_ok, storeRgb_eq]
  refine congrArg (put row q) ?_
  unfold X86.pixels
  refine range_flatMap_congr fun j hj => ?_
  obtain ⟨h1, h2, h3, h4⟩ := h j hj
  rw [h1, h2, h3, h4]
  rfl

section
variable {sc dc : Channels} {n d : Nat} {f : Buf → Nat → Nat → Buf → Outcome Buf} (hf : StepOk n d sc dc f)
  {src row : Buf} {w : Nat} (hb : ∀ b ∈ src, b < 256) {P : Nat → Buf} (hP : ∀ x, (P x).length = dc.count)
include hf hb hP

theorem stepGo_ok (hl : w * sc.count ≤ src.length) (hr : w * dc.count ≤ row.length) : ∀ k x, x + k * n ≤ w →
    (∀ z, x ≤ z → z < x + k * n → P z = shufP d sc dc (rowPx src sc.count z)) →
    chunkGo (n * sc.count) (n * dc.count) (f src) k (x * sc.count) (x * dc.count) (painted dc.count P x row)
      = .ok (painted dc.count P (x + k * n) row)
  | 0, x, _, _ => by rw [chunkGo]; simp
  | k + 1, x, h, hz => by
    rw [Nat.add_mul, Nat.one_mul] at h hz
    have e : ((List.range n).flatMap fun j => shufP d sc dc (rowPx src sc.count (x + j)))
        = (List.range n).flatMap fun j => P (x + j) :=
      range_flatMap_congr fun j hj => (hz (x + j) (by omega) (by omega)).symm
    rw [chunkGo, hf _ _ _ _ hb (Nat.le_trans (Nat.mul_le_mul_right _ (by omega)) hl), e,
      painted_put hP (Nat.le_trans (Nat.mul_le_mul_right _ (by omega)) hr),
      Outcome.bind_ok, ← Nat.add_mul, ← Nat.add_mul,
      stepGo_ok hl hr k (x + n) (by omega) (fun z h1 h2 => hz z (by omega) (by omega))]
    congr 2; ring

theorem stepLoop_ok (hl : src.length = w * sc.count) (hr : row.length = w * dc.count) {x : Nat}
    (hx : x ≤ w)
    (hz : ∀ z, x ≤ z → z < x + (w - x) / n * n → P z = shufP d sc dc (rowPx src sc.count z)) :
    chunkLoop (n * sc.count) (n * dc.count) (f src) src.length
        (painted dc.count P x row, x * sc.count, x * dc.count)
      = .ok (painted dc.count P (x + (w - x) / n * n) row, (x + (w - x) / n * n) * sc.count,
          (x + (w - x) / n * n) * dc.count) := by
  have hd : ((painted dc.count P x row).length - x * dc.count) / (n * dc.count) = (w - x) / n :=
    rem_div (X86.count_pos dc) (by
      rw [painted_length hP (by rw [hr]; exact Nat.mul_le_mul_right _ hx), hr])
  have hm := Nat.div_mul_le_self (w - x) n
  simp only [chunkLoop, hd, rem_div (X86.count_pos sc) hl, Nat.min_self]
  rw [stepGo_ok hf hb hP (Nat.le_of_eq hl.symm) (Nat.le_of_eq hr.symm) _ _ (by omega) hz, Outcome.bind_ok]
  simp only [Nat.add_mul, Nat.mul_assoc]
  rfl

theorem stepTail_ok {N lim : Nat} (hl : src.length = w * sc.count)
    (hr : row.length = w * dc.count) {x : Nat} (hx : x ≤ w) (hx' : w < x + n)
    (hN : n * sc.count ≤ N) (hN' : n * dc.count ≤ N) (hlim : n * sc.count ≤ lim)
    (hlim' : n * dc.count ≤ lim)
    (hz : ∀ z, x ≤ z → z < w → P z = shufP d sc dc (rowPx src sc.count z)) :
    chunkTail N lim (fun sb db => f sb 0 0 db) src (painted dc.count P x row, x * sc.count, x * dc.count)
      = .ok (painted dc.count P w row) := by
  have hps := X86.count_pos sc
  have hpd := X86.count_pos dc
  have hpl : (painted dc.count P x row).length = w * dc.count := by
    rw [painted_length hP (by rw [hr]; exact Nat.mul_le_mul_right _ hx), hr]
  unfold chunkTail
  simp only [hpl, hl, ← Nat.sub_mul]
  by_cases hc : x = w
  · subst hc
    rw [if_neg (by simp)]
  · have h1 : (w - x) * sc.count < n * sc.count := Nat.mul_lt_mul_of_pos_right (by omega) hps
    have h2 : (w - x) * dc.count < n * dc.count := Nat.mul_lt_mul_of_pos_right (by omega) hpd
    rw [if_pos ⟨Nat.mul_ne_zero (by omega) (by omega), Nat.mul_ne_zero (by omega) (by omega)⟩,
      if_neg (by omega), if_neg (by omega)]
    have e1 : x * sc.count + (w - x) * sc.count = w * sc.count := by
      rw [← Nat.add_mul]; congr 1; omega
    obtain ⟨sb, es, ls, s1, s2⟩ := copyIn_ok (src := src) (dst := List.replicate N 0)
      (p := x * sc.count) (n := (w - x) * sc.count) (by omega) (by rw [List.length_replicate]; omega)
    rw [List.length_replicate] at ls
    have sb256 : ∀ b ∈ sb, b < 256 := fun b h => (s2 b h).elim (hb b) (fun h' => by
      rw [List.mem_replicate] at h'; omega)
    have e2 := hf sb 0 0 (List.replicate N 0) sb256 (by rw [Nat.zero_add]; omega)
    rw [Nat.zero_mul] at e2
    obtain ⟨b, e3, e4⟩ := buf_copyOut (N := n) (L := N) (cn := dc.count) hN'
      (f := fun j => shufP d sc dc (rowPx sb sc.count (0 + j))) (fun _ => shufP_length ..)
    rw [es, Outcome.bind_ok, e2, e3, Outcome.bind_ok, e4 _ _ _ (by omega)]
    have e5 : ((List.range (w - x)).flatMap fun j => shufP d sc dc (rowPx sb sc.count (0 + j)))
        = (List.range (w - x)).flatMap fun j => P (x + j) := by
      refine range_flatMap_congr fun j hj => ?_
      rw [Nat.zero_add, rowPx_copy (a := src) (b := sb) (n := w - x) (x0 := x) (by omega) (by omega)
        s1 hj, hz (x + j) (by omega) (by omega)]
    rw [e5, painted_put hP (by rw [Nat.add_sub_cancel' hx, hr]), Nat.add_sub_cancel' hx]

end

/-- The pixel in column `x` of a row of `w`. -/
def shufAt (w : Nat) (sc dc : Channels) (x : Nat) (p : Buf) : Buf :=
  shufP (if x < 16 * (w / 16) then 255 else 0) sc dc p

theorem shufRow_ok {sc dc : Channels} {src row : Buf} {w : Nat} (hb : ∀ b ∈ src, b < 256)
    (hl : src.length = w * sc.count) (hr : row.length = w * dc.count) :
    shufRow sc dc src row
      = .ok (painted dc.count (fun x => shufAt w sc dc x (rowPx src sc.count x)) w row) := by
  have hP : ∀ x, ((fun x => shufAt w sc dc x (rowPx src sc.count x)) x).length = dc.count :=
    fun _ => shufP_length ..
  have e1 := stepLoop_ok (shufStep_ok 16 (d := 255) (by decide) sc dc) hb hP hl hr (Nat.zero_le w) (fun z _ hz => by
    simp only [shufAt]; rw [if_pos (by omega)])
  have h1 : 0 + (w - 0) / 16 * 16 = 16 * (w / 16) := by omega
  rw [h1, painted_zero, Nat.zero_mul, Nat.zero_mul] at e1
  have e2 := stepLoop_ok (shufStep_ok 8 (d := 0) (by decide) sc dc) hb hP hl hr (x := 16 * (w / 16)) (by omega) (fun z hz _ => by
    simp only [shufAt]; rw [if_neg (by omega)])
  have := count_le sc
  have := count_le dc
  have e3 := stepTail_ok (N := 64) (lim := 64) (shufStep_ok 8 (d := 0) (by decide) sc dc) hb hP hl hr
    (x := 16 * (w / 16) + (w - 16 * (w / 16)) / 8 * 8) (by omega) (by omega) (by omega) (by omega) (by omega)
    (by omega) (fun z hz _ => by simp only [shufAt]; rw [if_neg (by omega)])
  rw [shufRow, e1, Outcome.bind_ok, e2, Outcome.bind_ok, e3]

theorem shufHandler_fills {sc dc : Channels} {w : Nat} {s : Src} (hs : s.cn = sc.count)
    (hcut : s.cut = true) :
    (shufHandler sc dc w).FillsLen (w * dc.count) 256 w dc.count [s]
      (fun px => shufPix sc dc (px.getD 0 []))
      (fun x px p => p = shufAt w sc dc x (px.getD 0 [])) := by
  intro rows row h1 h2 h2' h3 h4
  obtain ⟨src, rfl⟩ := rows_one h1
  have hl := h2' s src (by simp) hcut
  rw [hs] at hl
  have hb : ∀ b ∈ src, b < 256 := (h2 s src (by simp)).2
  refine ⟨_, w, by simp only [shufHandler, List.getD_cons_zero]; rw [shufRow_ok hb hl h4]; rfl,
    painted_done (X86.count_pos dc) (fun _ => shufP_length ..) h3 (le_refl _) (.inr rfl) fun x hx => ?_,
    fun x h5 h6 => absurd h6 (by omega)⟩
  show _ = shufAt _ _ _ _ _
  rw [rowPx_eq]
  simp only [Verif.pixels, List.zipWith_cons_cons, List.getD_cons_zero, hs]
  rfl

end Verif.Neon
