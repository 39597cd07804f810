import Verif.Model.X86Gbr
import Verif.Lemmas.X86Gray
/-! # The x86 kernels of the GBR decoders -/
namespace Verif.X86
open Spec

/-- The transform of the registers acts byte by byte, as `M`. -/
def ByteFn (n : Nat) (f : Reg → Reg) (M : Nat → Nat) : Prop :=
  ∀ v : Reg, (∀ i, v i < 256) → ∀ i, i < n → f v i = M (v i)

theorem byteFn_id (n : Nat) : ByteFn n id id := fun _ _ _ _ => rfl

theorem byteFn_limited {n bias : Nat} {k : Int} (hn : n % 16 = 0) (hb : bias < 256)
    (hk : GrayCoef ⟨k, 0, 0, 0, 0⟩) :
    ByteFn n (gbrLimited bias k) (fun s => byteSat (mulRound (expand10 (s - bias)) k)) := by
  intro v hv i hi
  rw [gbrLimited, grayBytes_at hk hn (fun i _ => by rw [subsU8_at hb]; have := hv i; omega) hi,
    subsU8_at hb]
  rfl

/-- Pixel `x` of a row. -/
def gbrPix (ch : Channels) (M : Nat → Nat) (g b r : Buf) (x : Nat) : Buf :=
  layout ch (M (r.getD x 0)) (M (g.getD x 0)) (M (b.getD x 0)) 255

theorem gbrPix_length (ch : Channels) (M : Nat → Nat) (g b r : Buf) (x : Nat) :
    (gbrPix ch M g b r x).length = ch.count := layout_length' ..

/-- A step of `n` pixels. -/
def GbrStep (n : Nat) (ch : Channels) (M : Nat → Nat)
    (f : Buf → Buf → Buf → Nat → Nat → Buf → Outcome Buf) : Prop :=
  ∀ (g b r : Buf) (cx p : Nat) (row : Buf), (∀ x ∈ g, x < 256) → (∀ x ∈ b, x < 256) →
    (∀ x ∈ r, x < 256) → cx + n ≤ g.length → cx + n ≤ b.length → cx + n ≤ r.length →
    f g b r cx p row = put row p ((List.range n).flatMap fun j => gbrPix ch M g b r (cx + j))

theorem avx2Gbr_ok (ch : Channels) {f : Reg → Reg} {M : Nat → Nat} (hf : ByteFn 32 f M) :
    GbrStep 32 ch M (avx2Gbr ch f) := by
  intro g b r cx p row hg hb hr lg lb lr
  obtain ⟨gv, eg, g1, g2⟩ := load_at lg hg
  obtain ⟨bv, eb, b1, b2⟩ := load_at lb hb
  obtain ⟨rv, er, r1, r2⟩ := load_at lr hr
  rw [avx2Gbr, eg, Outcome.bind_ok, eb, Outcome.bind_ok, er, Outcome.bind_ok, avx2Store_eq]
  congr 1
  refine range_flatMap_congr fun j hj => ?_
  rw [hf gv g2 j hj, hf bv b2 j hj, hf rv r2 j hj, g1 j hj, b1 j hj, r1 j hj]
  rfl

theorem sseGbr_ok (ch : Channels) {f : Reg → Reg} {M : Nat → Nat} (hf : ByteFn 16 f M) :
    GbrStep 16 ch M (sseGbr ch f) := by
  intro g b r cx p row hg hb hr lg lb lr
  obtain ⟨gv, eg, g1, g2⟩ := load_at lg hg
  obtain ⟨bv, eb, b1, b2⟩ := load_at lb hb
  obtain ⟨rv, er, r1, r2⟩ := load_at lr hr
  rw [sseGbr, eg, Outcome.bind_ok, eb, Outcome.bind_ok, er, Outcome.bind_ok, sseStore_eq]
  congr 1
  refine range_flatMap_congr fun j hj => ?_
  rw [hf gv g2 j hj, hf bv b2 j hj, hf rv r2 j hj, g1 j hj, b1 j hj, r1 j hj]
  rfl

section
variable {n w : Nat} {ch : Channels} {M : Nat → Nat}
  {f : Buf → Buf → Buf → Nat → Nat → Buf → Outcome Buf} {g b r row : Buf}

theorem gbrTail_ok (hf : GbrStep n ch M f) (hg : ∀ x ∈ g, x < 256) (hb : ∀ x ∈ b, x < 256)
    (hr : ∀ x ∈ r, x < 256) (lg : w ≤ g.length) (lb : w ≤ b.length) (lr : w ≤ r.length)
    (hw : w * ch.count ≤ row.length) {cx : Nat} (h2 : cx < w) (h3 : w ≤ cx + n) :
    gbrTail n ch.count w (fun g b r d => f g b r 0 0 d) g b r
        (painted ch.count (gbrPix ch M g b r) cx row) cx
      = .ok (painted ch.count (gbrPix ch M g b r) w row, w) := by
  have mem : ∀ {l bf : Buf}, (∀ x ∈ l, x < 256) → (∀ s ∈ bf, s ∈ l ∨ s ∈ List.replicate n 0) →
      ∀ x ∈ bf, x < 256 := fun hl hm x hx =>
    (hm x hx).elim (hl x) (fun h => by rw [(List.mem_replicate.1 h).2]; decide)
  unfold gbrTail
  rw [if_pos h2]
  obtain ⟨gb, eg, lg', g1, g2⟩ := copyIn_ok (src := g) (dst := List.replicate n 0) (p := cx)
    (n := w - cx) (by omega) (by simp; omega)
  obtain ⟨bb, eb, lb', b1, b2⟩ := copyIn_ok (src := b) (dst := List.replicate n 0) (p := cx)
    (n := w - cx) (by omega) (by simp; omega)
  obtain ⟨rb, er, lr', r1, r2⟩ := copyIn_ok (src := r) (dst := List.replicate n 0) (p := cx)
    (n := w - cx) (by omega) (by simp; omega)
  rw [List.length_replicate] at lg' lb' lr'
  have e1 := hf gb bb rb 0 0 (List.replicate (n * 4) 0) (mem hg g2) (mem hb b2) (mem hr r2)
    (by omega) (by omega) (by omega)
  simp only [eg, eb, er, e1, Outcome.bind_ok, if_neg (show ¬ n < w - cx by omega)]
  have e2 := copyOut_put (N := n) (L := n * 4) (n := w - cx) (cn := ch.count)
    (Nat.mul_le_mul_left _ (count_le ch)) (by omega)
    (f := fun j => gbrPix ch M gb bb rb (0 + j)) (fun j => gbrPix_length ..)
    (painted ch.count (gbrPix ch M g b r) cx row) (cx * ch.count)
  have e3 : ((List.range (w - cx)).flatMap fun j => gbrPix ch M gb bb rb (0 + j))
      = (List.range (w - cx)).flatMap fun j => gbrPix ch M g b r (cx + j) := by
    apply range_flatMap_congr
    intro j hj
    rw [Nat.zero_add]
    simp only [gbrPix, g1 j hj, b1 j hj, r1 j hj]
  rw [e3, painted_put (gbrPix_length ch M g b r)
    (by rw [Nat.add_sub_cancel' (by omega)]; exact hw), Nat.add_sub_cancel' (by omega)] at e2
  rw [← bind_assoc', e2, Outcome.bind_ok, Nat.add_sub_cancel' (by omega)]
  rfl

/-- A row: the loop of whole steps, then the tail. -/
theorem gbrRow_ok (hn : 0 < n) (hf : GbrStep n ch M f) (hg : ∀ x ∈ g, x < 256)
    (hb : ∀ x ∈ b, x < 256) (hr : ∀ x ∈ r, x < 256) (lg : w ≤ g.length) (lb : w ≤ b.length)
    (lr : w ≤ r.length) (hw : w * ch.count ≤ row.length) (h0 : 0 < w) :
    (do
      let s ← vwhile n 0 w (fun cx _ row => f g b r cx (cx * ch.count) row) 0 0 row
      gbrTail n ch.count w (fun g b r d => f g b r 0 0 d) g b r s.1 s.2.1)
      = .ok (painted ch.count (gbrPix ch M g b r) w row, w) := by
  obtain ⟨cx, ux, e, hc, -, -, h4⟩ := paintLoopI (step := n) (ustep := 0) (width := w)
    (cn := ch.count) (I := fun _ _ => True) hn (fun _ _ _ => trivial) (gbrPix_length ch M g b r)
    (row := row) hw (body := fun cx _ row => f g b r cx (cx * ch.count) row) (cx0 := 0) (ux0 := 0)
    trivial
    (fun cx ux r' _ _ h => hf g b r cx _ r' hg hb hr (by omega) (by omega) (by omega)) (by omega)
  rw [painted_zero] at e
  have hlt : cx < w := by
    rw [hc, loopEnd]
    have := Nat.div_mul_le_self (w - 1 - 0) n
    omega
  rw [e, Outcome.bind_ok]
  exact gbrTail_ok hf hg hb hr lg lb lr hw hlt h4

end

theorem comp_plane3 {l l' l'' : Buf} {s s' s'' : Src} (hs : s.cn = 1) (hs' : s'.cn = 1)
    (hs'' : s''.cn = 1) {x : Nat} :
    comp (Verif.pixels [s, s', s''] [l, l', l''] x) 0 0 = l.getD x 0 ∧
    comp (Verif.pixels [s, s', s''] [l, l', l''] x) 1 0 = l'.getD x 0 ∧
    comp (Verif.pixels [s, s', s''] [l, l', l''] x) 2 0 = l''.getD x 0 := by
  simp only [comp, Verif.pixels, List.zipWith_cons_cons, List.getD_cons_succ, List.getD_cons_zero, hs,
    hs', hs'']
  simp only [List.getD_eq_getElem?_getD, chunk_getElem?]
  simp

theorem gbrHandler_fills (cpu : Cpu) (ch : Channels) {f : Reg → Reg} {M N : Nat → Nat}
    (h16 : ByteFn 16 f M) (h32 : ByteFn 32 f M) {w : Nat} (h0 : 0 < w) {s s' s'' : Src}
    (hs : s.cn = 1) (hs' : s'.cn = 1) (hs'' : s''.cn = 1) :
    (gbrHandler cpu ch f w).Fills 256 w ch.count [s, s', s'']
      (fun px => layout ch (N (comp px 2 0)) (N (comp px 0 0)) (N (comp px 1 0)) 255)
      (fun _ px p => p = if cpu = .plain then
          layout ch (N (comp px 2 0)) (N (comp px 0 0)) (N (comp px 1 0)) 255
        else layout ch (M (comp px 2 0)) (M (comp px 0 0)) (M (comp px 1 0)) 255) := by
  intro rows row h1 h2 h3
  obtain ⟨g, b, r, rfl⟩ := List.length_eq_three.1 h1
  obtain ⟨lg, hg⟩ := h2 s g (by simp)
  obtain ⟨lb, hb⟩ := h2 s' b (by simp)
  obtain ⟨lr, hr⟩ := h2 s'' r (by simp)
  rw [hs, Nat.mul_one] at lg
  rw [hs', Nat.mul_one] at lb
  rw [hs'', Nat.mul_one] at lr
  by_cases hc : cpu = .plain
  · subst hc
    obtain ⟨row', cx, e, hd⟩ := noMap_ok (B := 256) (R := fun _ _ => False) [g, b, r] row h1 h2 h3
    exact ⟨row', cx, e, rowDone_imp hd fun _ _ _ h => h.elim, fun _ _ _ => rfl⟩
  · have e : gbrHandler cpu ch f w [g, b, r] row
        = .ok (painted ch.count (gbrPix ch M g b r) w row, w) := by
      cases cpu with
      | avx2 => exact gbrRow_ok (by decide) (avx2Gbr_ok ch h32) hg hb hr lg lb lr h3 h0
      | sse41 => exact gbrRow_ok (by decide) (sseGbr_ok ch h16) hg hb hr lg lb lr h3 h0
      | plain => exact absurd rfl hc
    refine ⟨_, w, e, painted_done (m := 1) (count_pos ch) (gbrPix_length ch M g b r) h3 (le_refl _)
      (.inr rfl) fun x hx => ?_, fun x h4 h5 => absurd h4 (by omega)⟩
    obtain ⟨q1, q2, q3⟩ := comp_plane3 hs hs' hs'' (l := g) (l' := b) (l'' := r) (x := x)
    show _ = if _ then _ else _
    rw [if_neg hc, q1, q2, q3]
    rfl

end Verif.X86
