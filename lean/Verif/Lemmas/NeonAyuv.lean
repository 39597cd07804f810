import Verif.Model.NeonAyuv
import Verif.Lemmas.NeonAlpha
import Verif.Lemmas.X86Ayuv
/-! # The NEON kernel of the packed 4:4:4 decoders -/
namespace Verif.Neon
open Spec X86

/-- The pixel of packed samples. -/
def ayuvPx (rdm pm : Bool) (f : Packed444) (ch : Channels) (rg : ChromaRange) (t : InvCoef) (px : Buf) : Buf :=
  let s := samples444 f px
  apx rdm pm ch t (s.1 - rg.biasY) s.2.1 s.2.2.1 s.2.2.2 s.2.2.2

theorem ayuvPx_length (rdm pm : Bool) (f : Packed444) (ch : Channels) (rg : ChromaRange) (t : InvCoef)
    (px : Buf) : (ayuvPx rdm pm f ch rg t px).length = ch.count := apx_length ..

theorem ayuvPick_at (f : Packed444) {l : Buf} {x0 : Nat} (h : (x0 + 16) * 4 ≤ l.length) {i : Nat}
    (hi : i < 16) :
    let c := ayuvPick f (deinterleave4 (ld 64 l (x0 * 4)))
    samples444 f (rowPx l 4 (x0 + i)) = (c.2.1 i, c.2.2.1 i, c.2.2.2 i, c.1 i) := by
  have key : ∀ k, k < 4 → (rowPx l 4 (x0 + i)).getD k 0 = ld 64 l (x0 * 4) (4 * i + k) := by
    intro k hk
    rw [rowPx_getD' hk (by omega), ld_at (by omega)]
    congr 1; omega
  cases f <;>
    simp only [samples444, ayuvPick, deinterleave4, key _ (show 0 < 4 by decide),
      key _ (show 1 < 4 by decide), key _ (show 2 < 4 by decide), key _ (show 3 < 4 by decide),
      Nat.add_zero]

variable {rdm pm : Bool} {rg : ChromaRange} {t : InvCoef}

theorem ayuvBody_eq (hb : rg.biasUv = 128) (hby : rg.biasY < 256) (ht : Coef16 t)
    (f : Packed444) (ch : Channels) {src : Buf}
    (hs : ∀ x ∈ src, x < 256) {x0 : Nat} (l : (x0 + 16) * 4 ≤ src.length) (q : Nat) (row : Buf) :
    ayuvBody rdm pm f ch rg t src (x0 * 4) q row
      = put row q ((List.range 16).flatMap fun j => ayuvPx rdm pm f ch rg t (rowPx src 4 (x0 + j))) := by
  have h := fun i (hi : i < 16) => ayuvPick_at f l hi
  have lt := fun i (_ : i < 16) => samples444_lt f (rowPx_mem (cn := 4) (x := x0 + i) hs)
  unfold ayuvBody
  rw [load_ld (by omega), Outcome.bind_ok]
  simp only at h ⊢
  generalize ayuvPick f (deinterleave4 (ld 64 src (x0 * 4))) = c at h ⊢
  refine (putAlpha16_eq ht (Y := fun i => (samples444 f (rowPx src 4 (x0 + i))).1 - rg.biasY)
    (U := fun i => (samples444 f (rowPx src 4 (x0 + i))).2.1)
    (V := fun i => (samples444 f (rowPx src 4 (x0 + i))).2.2.1)
    (M := fun i => (samples444 f (rowPx src 4 (x0 + i))).2.2.2)
    (A := fun i => (samples444 f (rowPx src 4 (x0 + i))).2.2.2)
    (fun i hi => by have := (lt i hi).1; omega) (fun i hi => (lt i hi).2.1) (fun i hi => (lt i hi).2.2.1)
    (fun i hi => (lt i hi).2.2.2) (fun i hi => by rw [subsU8_at hby, h i hi])
    (fun i hi => sub8_at hb (by rw [h i hi])) (fun i hi => sub8_at hb (by rw [h i hi]))
    (fun i hi => by rw [h i hi]) (fun i hi => by rw [h i hi]) q row).trans ?_
  rfl

/-- Pixel `x` of a row. -/
def ayuvRowPx (rdm pm : Bool) (f : Packed444) (ch : Channels) (rg : ChromaRange) (t : InvCoef) (src : Buf)
    (x : Nat) : Buf := ayuvPx rdm pm f ch rg t (rowPx src 4 x)

theorem ayuvRowPx_length (rdm pm : Bool) (f : Packed444) (ch : Channels) (rg : ChromaRange) (t : InvCoef)
    (src : Buf) (x : Nat) : (ayuvRowPx rdm pm f ch rg t src x).length = ch.count := ayuvPx_length ..

theorem ayuvRow_ok (hb : rg.biasUv = 128) (hby : rg.biasY < 256) (ht : Coef16 t)
    (f : Packed444) (ch : Channels) {w : Nat} (h0 : 0 < w) {src row : Buf} (hs : ∀ x ∈ src, x < 256)
    (ls : w * 4 ≤ src.length) (hw : w * ch.count ≤ row.length) :
    ayuvRow rdm pm f ch rg t w src row
      = .ok (painted ch.count (ayuvRowPx rdm pm f ch rg t src) w row) := by
  obtain ⟨cx, ux, e, hc, -, h3, h4⟩ := paintLoopI (step := 16) (ustep := 0)
    (width := w) (cn := ch.count) (I := fun cx _ => cx % 16 = 0) (by decide)
    (fun cx ux g => by omega)
    (ayuvRowPx_length rdm pm f ch rg t src) (row := row) hw
    (body := fun cx _ row => ayuvBody rdm pm f ch rg t src (cx * 4) (cx * ch.count) row)
    (cx0 := 0) (ux0 := 0) rfl
    (by
      intro cx ux r _ hal hlt
      exact ayuvBody_eq hb hby ht f ch hs (by omega) _ _)
    (Nat.zero_le _)
  rw [painted_zero] at e
  have hcx : cx = 16 * ((w - 1) / 16) := by rw [hc]; unfold loopEnd; omega
  have h2 : cx < w := by omega
  simp only [ayuvRow, e, Outcome.bind_ok]
  unfold ayuvTail
  rw [if_pos h2]
  obtain ⟨sb, es, ls', s1, s2⟩ := copyIn_ok (src := src) (dst := List.replicate 64 0) (p := cx * 4)
    (n := (w - cx) * 4) (by omega) (by simp; omega)
  rw [List.length_replicate] at ls'
  have e1 := ayuvBody_eq (rdm := rdm) (pm := pm) hb hby ht f ch (src := sb) (x0 := 0)
    (fun x hx => (s2 x hx).elim (hs x) (fun h => by rw [(List.mem_replicate.1 h).2]; decide))
    (by omega) 0 (List.replicate 64 0)
  simp only [Nat.zero_mul] at e1
  simp only [es, e1, Outcome.bind_ok, if_neg (show ¬ 16 < w - cx by omega)]
  have e2 := copyOut_put (N := 16) (L := 64) (n := w - cx) (cn := ch.count)
    (by have := X86.count_le ch; omega) (by omega)
    (f := fun j => ayuvPx rdm pm f ch rg t (rowPx sb 4 (0 + j))) (fun j => ayuvPx_length ..)
    (painted ch.count (ayuvRowPx rdm pm f ch rg t src) cx row) (cx * ch.count)
  have e3 : ((List.range (w - cx)).flatMap fun j => ayuvPx rdm pm f ch rg t (rowPx sb 4 (0 + j)))
      = (List.range (w - cx)).flatMap fun j => ayuvRowPx rdm pm f ch rg t src (cx + j) := by
    apply range_flatMap_congr
    intro j hj
    have px : ∀ k, k < 4 → (rowPx sb 4 (0 + j)).getD k 0 = (rowPx src 4 (cx + j)).getD k 0 := by
      intro k hk
      rw [rowPx_getD' hk (by omega), rowPx_getD' hk (by omega), s1 _ (by omega)]
      congr 1
      omega
    have sm : samples444 f (rowPx sb 4 (0 + j)) = samples444 f (rowPx src 4 (cx + j)) := by
      cases f <;> simp only [samples444, px _ (show 0 < 4 by decide), px _ (show 1 < 4 by decide),
        px _ (show 2 < 4 by decide), px _ (show 3 < 4 by decide)]
    rw [ayuvRowPx]
    simp only [ayuvPx, sm]
  rw [e3, painted_put (ayuvRowPx_length rdm pm f ch rg t src)
    (by rw [Nat.add_sub_cancel' h3]; exact hw), Nat.add_sub_cancel' h3] at e2
  exact e2

theorem ayuvHandler_fills (f : Packed444) (ch : Channels) {w : Nat}
    (h0 : 0 < w) (hb : rg.biasUv = 128) (hby : rg.biasY < 256) (ht : Coef16 t) {s : Src}
    (hs : s.cn = 4) (F : Buf → Buf) :
    (ayuvHandler rdm pm f ch rg t w).Fills 256 w ch.count [s] (fun px => F (px.getD 0 []))
      (fun _ px p => p = ayuvPx rdm pm f ch rg t (px.getD 0 [])) := by
  intro rows row h1 h2 h3
  obtain ⟨src, rfl⟩ := rows_one h1
  obtain ⟨l1, l2⟩ := h2 s src (by simp)
  rw [hs] at l1
  refine ⟨_, w, ?_, painted_done (m := 1) (X86.count_pos ch)
    (ayuvRowPx_length rdm pm f ch rg t src) h3 (le_refl _)
    (.inr rfl) fun x hx => ?_, fun x h4 h5 => absurd h4 (by omega)⟩
  · simp only [ayuvHandler, List.getD_cons_zero]
    rw [ayuvRow_ok hb hby ht f ch h0 l2 l1 h3]
    rfl
  · simp only [Verif.pixels, List.zipWith_cons_cons, List.getD_cons_zero, hs, ayuvRowPx, rowPx_eq]

end Verif.Neon
