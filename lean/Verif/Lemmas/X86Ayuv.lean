import Verif.Lemmas.X86Alpha
import Verif.Lemmas.X86Shuffle
/-! # The AVX2 kernel of the packed 4:4:4 decoders -/
namespace Verif.X86
open Spec

/-- The pixel of packed samples. -/
def ayuvPix (kind : PremulKind) (pm : Bool) (f : Packed444) (ch : Channels) (rg : ChromaRange)
    (t : InvCoef) (px : Buf) : Buf :=
  let s := samples444 f px
  alphaPixAt kind pm ch rg t s.1 s.2.1 s.2.2.1 s.2.2.2

theorem ayuvPix_length (kind : PremulKind) (pm : Bool) (f : Packed444) (ch : Channels)
    (rg : ChromaRange) (t : InvCoef) (px : Buf) : (ayuvPix kind pm f ch rg t px).length = ch.count :=
  alphaPixAt_length ..

theorem avx2LoadAyuv_at (f : Packed444) {l : Buf} {x0 : Nat} (h : (x0 + 32) * 4 ≤ l.length) :
    ∃ c, avx2LoadAyuv f l (x0 * 4) = .ok c ∧ ∀ i, i < 32 →
      samples444 f (rowPx l 4 (x0 + i)) = (c.2.1 i, c.2.2.1 i, c.2.2.2 i, c.1 i) := by
  obtain ⟨c, e, hp⟩ := avx2Load4_at .rgba h
  have e : avx2Load4 .rgba l (x0 * 4) = .ok c := e
  have key : ∀ i, i < 32 → c.1 i = (rowPx l 4 (x0 + i)).getD 0 0 ∧
      c.2.1 i = (rowPx l 4 (x0 + i)).getD 1 0 ∧ c.2.2.1 i = (rowPx l 4 (x0 + i)).getD 2 0 ∧
      c.2.2.2 i = (rowPx l 4 (x0 + i)).getD 3 0 := by
    intro i hi
    obtain ⟨h1, h2, h3, h4⟩ := hp i hi
    refine ⟨h1, h2, h3, h4.trans ?_⟩
    show (rowPx l 4 (x0 + i)).getD 3 255 = _
    rw [rowPx_getD' (by omega) (by omega), rowPx_getD' (by omega) (by omega)]
  unfold avx2LoadAyuv
  rw [e, Outcome.bind_ok]
  cases f with
  | ayuv =>
    refine ⟨c, rfl, fun i hi => ?_⟩
    obtain ⟨h1, h2, h3, h4⟩ := key i hi
    simp only [samples444, h1, h2, h3, h4]
  | vuya =>
    refine ⟨_, rfl, fun i hi => ?_⟩
    obtain ⟨h1, h2, h3, h4⟩ := key i hi
    simp only [samples444, h1, h2, h3, h4]

theorem samples444_lt (f : Packed444) {px : Buf} (h : ∀ x ∈ px, x < 256) :
    (samples444 f px).1 < 256 ∧ (samples444 f px).2.1 < 256 ∧ (samples444 f px).2.2.1 < 256 ∧
      (samples444 f px).2.2.2 < 256 := by
  have g : ∀ k, px.getD k 0 < 256 := fun k => getD_lt h k
  cases f <;> exact ⟨g _, g _, g _, g _⟩

theorem rowPx_mem {l : Buf} {cn x : Nat} (h : ∀ a ∈ l, a < 256) : ∀ a ∈ rowPx l cn x, a < 256 := by
  intro a ha
  rw [rowPx_eq] at ha
  exact h a (List.mem_of_mem_drop (List.mem_of_mem_take ha))

variable {rg : ChromaRange} {t : InvCoef}

theorem avx2AyuvBody_eq (hb : rg.biasUv = 128) (hby : rg.biasY < 256) (ht : Coef16 t)
    (kind : PremulKind) (pm : Bool) (f : Packed444) (ch : Channels) {src : Buf}
    (hs : ∀ x ∈ src, x < 256) {x0 : Nat} (l : (x0 + 32) * 4 ≤ src.length) (q : Nat) (row : Buf) :
    avx2AyuvBody (preOf kind) pm f ch rg t src (x0 * 4) q row
      = put row q ((List.range 32).flatMap fun j => ayuvPix kind pm f ch rg t (rowPx src 4 (x0 + j))) := by
  obtain ⟨c, e, h⟩ := avx2LoadAyuv_at f l
  have lt := fun i (hi : i < 32) => by
    have := samples444_lt f (rowPx_mem (cn := 4) (x := x0 + i) hs)
    rw [h i hi] at this
    exact this
  rw [avx2AyuvBody, e, Outcome.bind_ok, avx2Store_eq]
  congr 1
  refine range_flatMap_congr fun i hi => ?_
  obtain ⟨h1, h2, h3⟩ := alphaRgb_at hb ht kind pm (n := 32) rfl
    (y := subsU8 c.2.1 (set1_8 rg.biasY)) (u := c.2.2.1)
    (v := c.2.2.2) (a := c.1) (fun i hi => by rw [subsU8_at hby]; have := (lt i hi).1; simp only at this; omega)
    (fun i hi => (lt i hi).2.1) (fun i hi => (lt i hi).2.2.1) (fun i hi => (lt i hi).2.2.2) hi
  rw [h1, h2, h3, subsU8_at hby]
  unfold ayuvPix
  rw [h i hi]
  rfl

/-- Pixel `x` of a row; the kind of premultiplication depends on the column. -/
def ayuvRowPix (kind : Nat → PremulKind) (pm : Bool) (f : Packed444) (ch : Channels)
    (rg : ChromaRange) (t : InvCoef) (src : Buf) (x : Nat) : Buf :=
  ayuvPix (kind x) pm f ch rg t (rowPx src 4 x)

theorem ayuvRowPix_length (kind : Nat → PremulKind) (pm : Bool) (f : Packed444) (ch : Channels)
    (rg : ChromaRange) (t : InvCoef) (src : Buf) (x : Nat) :
    (ayuvRowPix kind pm f ch rg t src x).length = ch.count := ayuvPix_length ..

/-- Which premultiplication the kernel applies in column `x`. -/
def ayuvKind (w x : Nat) : PremulKind := if x < 32 * ((w - 1) / 32) then .avx2Loop else .avx2Raw

theorem avx2AyuvRow_ok (hb : rg.biasUv = 128) (hby : rg.biasY < 256) (ht : Coef16 t) (pm : Bool)
    (f : Packed444) (ch : Channels) {w : Nat} (h0 : 0 < w) {src row : Buf} (hs : ∀ x ∈ src, x < 256)
    (ls : w * 4 ≤ src.length) (hw : w * ch.count ≤ row.length) :
    avx2AyuvRow pm f ch rg t w src row
      = .ok (painted ch.count (ayuvRowPix (ayuvKind w) pm f ch rg t src) w row) := by
  obtain ⟨cx, ux, e, hc, -, h3, h4⟩ := paintLoopI (step := 32) (ustep := 0)
    (width := w) (cn := ch.count) (I := fun cx _ => cx % 32 = 0) (by decide)
    (fun cx ux g => by omega)
    (ayuvRowPix_length (ayuvKind w) pm f ch rg t src) (row := row) hw
    (body := fun cx _ row => avx2AyuvBody avx2Premul pm f ch rg t src (cx * 4) (cx * ch.count) row)
    (cx0 := 0) (ux0 := 0) rfl
    (by
      intro cx ux r _ hal hlt
      refine (avx2AyuvBody_eq hb hby ht .avx2Loop pm f ch hs (by omega) _ _).trans ?_
      congr 1
      refine range_flatMap_congr fun j hj => ?_
      rw [ayuvRowPix, ayuvKind, if_pos (by omega)])
    (Nat.zero_le _)
  rw [painted_zero] at e
  have hcx : cx = 32 * ((w - 1) / 32) := by rw [hc]; unfold loopEnd; omega
  have h2 : cx < w := by omega
  simp only [avx2AyuvRow, e, Outcome.bind_ok]
  unfold avx2AyuvTail
  rw [if_pos h2]
  obtain ⟨sb, es, ls', s1, s2⟩ := copyIn_ok (src := src) (dst := List.replicate 128 0) (p := cx * 4)
    (n := (w - cx) * 4) (by omega) (by simp; omega)
  rw [List.length_replicate] at ls'
  have e1 := avx2AyuvBody_eq hb hby ht .avx2Raw pm f ch (src := sb) (x0 := 0)
    (fun x hx => (s2 x hx).elim (hs x) (fun h => by rw [(List.mem_replicate.1 h).2]; decide))
    (by omega) 0 (List.replicate 128 0)
  simp only [Nat.zero_mul, preOf] at e1
  simp only [es, e1, Outcome.bind_ok, if_neg (show ¬ 32 < w - cx by omega)]
  have e2 := copyOut_put (N := 32) (L := 128) (n := w - cx) (cn := ch.count)
    (by have := count_le ch; omega) (by omega)
    (f := fun j => ayuvPix .avx2Raw pm f ch rg t (rowPx sb 4 (0 + j))) (fun j => ayuvPix_length ..)
    (painted ch.count (ayuvRowPix (ayuvKind w) pm f ch rg t src) cx row) (cx * ch.count)
  have e3 : ((List.range (w - cx)).flatMap fun j => ayuvPix .avx2Raw pm f ch rg t (rowPx sb 4 (0 + j)))
      = (List.range (w - cx)).flatMap fun j => ayuvRowPix (ayuvKind w) pm f ch rg t src (cx + j) := by
    apply range_flatMap_congr
    intro j hj
    have px : ∀ k, k < 4 → (rowPx sb 4 (0 + j)).getD k 0 = (rowPx src 4 (cx + j)).getD k 0 := by
      intro k hk
      rw [rowPx_getD' hk (by omega), rowPx_getD' hk (by omega), s1 _ (by omega)]
      congr 1
      omega
    have sm : samples444 f (rowPx sb 4 (0 + j)) = samples444 f (rowPx src 4 (cx + j)) := by
      cases f <;> simp only [samples444, px _ (show 0 < 4 by decide), px _ (show 1 < 4 by decide),
        px _ (show 2 < 4 by decide), px _ (show 3 < 4 by decide)]
    rw [ayuvRowPix, ayuvKind, if_neg (by omega)]
    simp only [ayuvPix, sm]
  rw [e3, painted_put (ayuvRowPix_length (ayuvKind w) pm f ch rg t src)
    (by rw [Nat.add_sub_cancel' h3]; exact hw), Nat.add_sub_cancel' h3] at e2
  exact e2

theorem ayuvHandler_fills (cpu : Cpu) (pm : Bool) (f : Packed444) (ch : Channels) {w : Nat}
    (h0 : 0 < w) (hb : rg.biasUv = 128) (hby : rg.biasY < 256) (ht : Coef16 t) {s : Src}
    (hs : s.cn = 4) (F : Buf → Buf) :
    (ayuvHandler cpu pm f ch rg t w).Fills 256 w ch.count [s] (fun px => F (px.getD 0 []))
      (fun x px p => p = match cpu with
        | .avx2 => ayuvPix (ayuvKind w x) pm f ch rg t (px.getD 0 [])
        | _ => F (px.getD 0 [])) := by
  intro rows row h1 h2 h3
  obtain ⟨src, rfl⟩ := rows_one h1
  obtain ⟨l1, l2⟩ := h2 s src (by simp)
  rw [hs] at l1
  have noVec : ∃ row' cx, noMap [src] row = .ok (row', cx) ∧
      RowDone ch.count w 1 (fun x p => p = F ((Verif.pixels [s] [src] x).getD 0 [])) row row' cx ∧
      ∀ x, cx ≤ x → x < w → F ((Verif.pixels [s] [src] x).getD 0 [])
        = F ((Verif.pixels [s] [src] x).getD 0 []) := by
    obtain ⟨row', cx, e, hd⟩ := noMap_ok (B := 256) (R := fun _ _ => False) [src] row h1 h2 h3
    exact ⟨row', cx, e, rowDone_imp hd fun _ _ _ h => h.elim, fun _ _ _ => rfl⟩
  cases cpu with
  | sse41 => exact noVec
  | plain => exact noVec
  | avx2 =>
    refine ⟨_, w, ?_, painted_done (m := 1) (count_pos ch)
      (ayuvRowPix_length (ayuvKind w) pm f ch rg t src) h3 (le_refl _)
      (.inr rfl) fun x hx => ?_, fun x h4 h5 => absurd h4 (by omega)⟩
    · simp only [ayuvHandler, List.getD_cons_zero]
      rw [avx2AyuvRow_ok hb hby ht pm f ch h0 l2 l1 h3]
      rfl
    · simp only [Verif.pixels, List.zipWith_cons_cons, List.getD_cons_zero, hs, ayuvRowPix, rowPx_eq]

end Verif.X86
