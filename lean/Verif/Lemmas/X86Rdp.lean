import Verif.Lemmas.X86Wide
import Verif.Lemmas.X86Ayuv
import Verif.Lemmas.X86YuyRgb
import Verif.Spec.Packed444
/-! # The AVX2 kernel of the RemoteFX encoder -/
namespace Verif.X86
open Spec

/-- The weights fit 16 bits with room to spare. -/
structure RdpCoef (kr kg kb off : Int) : Prop where
  r : -20000 ≤ kr ∧ kr ≤ 20000
  g : -20000 ≤ kg ∧ kg ≤ 20000
  b : -20000 ≤ kb ∧ kb ≤ 20000
  o : 0 ≤ off ∧ off ≤ 4096

/-- The sample of a pixel. -/
def rdpPix (ch : RdpChannels) (kr kg kb off : Int) (px : Buf) : Buf :=
  let c := rdpColours ch px
  [pattern16 ((c.1 * kr + c.2.1 * kg + c.2.2 * kb) / 1024 - off)]

theorem rdpLoad_at (ch : RdpChannels) {l : Buf} {x0 : Nat} (h : (x0 + 32) * ch.count ≤ l.length) :
    ∃ c, rdpLoad ch l (x0 * ch.count) = .ok c ∧ ∀ i, i < 32 →
      rdpColours ch (rowPx l ch.count (x0 + i)) = (c.1 i, c.2.1 i, c.2.2 i) := by
  have key : ∀ c4 : Channels, (x0 + 32) * c4.count ≤ l.length →
      ∃ c, avx2Load c4 l (x0 * c4.count) = .ok c ∧ ∀ i, i < 32 →
        (red c4 (rowPx l c4.count (x0 + i)), green c4 (rowPx l c4.count (x0 + i)),
          blue c4 (rowPx l c4.count (x0 + i))) = (c.1 i, c.2.1 i, c.2.2 i) := by
    intro c4 h
    obtain ⟨c, e, hp⟩ := avx2Load_at c4 h
    refine ⟨c, e, fun i hi => ?_⟩
    obtain ⟨h1, h2, h3⟩ := hp i hi
    rw [h1, h2, h3]
  have key4 : (x0 + 32) * 4 ≤ l.length → ∃ c, avx2Load4 .rgba l (x0 * 4) = .ok c ∧ ∀ i, i < 32 →
      c.1 i = (rowPx l 4 (x0 + i)).getD 0 0 ∧
      c.2.1 i = (rowPx l 4 (x0 + i)).getD 1 0 ∧ c.2.2.1 i = (rowPx l 4 (x0 + i)).getD 2 0 ∧
      c.2.2.2 i = (rowPx l 4 (x0 + i)).getD 3 0 := by
    intro h
    obtain ⟨c, e, hp⟩ := avx2LoadAyuv_at .ayuv h
    have e : (avx2Load4 .rgba l (x0 * 4) >>= fun v => pure v) = .ok c := e
    refine ⟨c, by cases hh : avx2Load4 .rgba l (x0 * 4) <;> rw [hh] at e <;> simp_all [pure], fun i hi => ?_⟩
    have := hp i hi
    simp only [samples444, Prod.mk.injEq] at this
    exact ⟨this.2.2.2.symm, this.1.symm, this.2.1.symm, this.2.2.1.symm⟩
  cases ch with
  | rgb => exact key .rgb h
  | bgr => exact key .bgr h
  | rgba => exact key .rgba h
  | bgra => exact key .bgra h
  | abgr =>
    obtain ⟨c, e, hp⟩ := key4 h
    refine ⟨(c.2.2.2, c.2.2.1, c.2.1), ?_, fun i hi => ?_⟩
    · show (avx2Load4 .rgba l (x0 * 4) >>= _) = _
      rw [e]; rfl
    · obtain ⟨-, h2, h3, h4⟩ := hp i hi
      show _ = (c.2.2.2 i, c.2.2.1 i, c.2.1 i)
      rw [h2, h3, h4]; rfl
  | argb =>
    obtain ⟨c, e, hp⟩ := key4 h
    refine ⟨(c.2.1, c.2.2.1, c.2.2.2), ?_, fun i hi => ?_⟩
    · show (avx2Load4 .rgba l (x0 * 4) >>= _) = _
      rw [e]; rfl
    · obtain ⟨-, h2, h3, h4⟩ := hp i hi
      show _ = (c.2.1 i, c.2.2.1 i, c.2.2.2 i)
      rw [h2, h3, h4]; rfl

variable {kr kg kb off : Int}

theorem rdpWord {r g b : Reg} {k R G B : Nat} (hk : RdpCoef kr kg kb off) (hr : s16 r k = R)
    (hg : s16 g k = G) (hb : s16 b k = B) (lr : R < 256) (lg : G < 256) (lb : B < 256) :
    w16 (sub16 (dotHalf 10 kr kg kb r g b) (set1_16 off)) k
      = pattern16 ((R * kr + G * kg + B * kb) / 1024 - off) := by
  obtain ⟨h1, h2, h3, h4⟩ := hk
  rw [sub16, w16_mk16, dotHalf_at (by omega) (by omega) (by omega), s16_set1, asI16_id (by omega) (by omega),
    hr, hg, hb]
  have b1 := mul_bounds (a := R) (t := kr) (A := 255) (T := 20000) (by omega) h1
  have b2 := mul_bounds (a := G) (t := kg) (A := 255) (T := 20000) (by omega) h2
  have b3 := mul_bounds (a := B) (t := kb) (A := 255) (T := 20000) (by omega) h3
  generalize (R : Int) * kr = x at *
  generalize (G : Int) * kg = y at *
  generalize (B : Int) * kb = z at *
  rw [asI32_id (x := x + y + z) (by omega) (by omega), asI32_id (by omega) (by omega),
    satI16, max_eq_right (by omega), min_eq_left (by omega)]
  rfl

theorem rdpColours_lt' (ch : RdpChannels) {px : Buf} (h : ∀ a ∈ px, a < 256) :
    (rdpColours ch px).1 < 256 ∧ (rdpColours ch px).2.1 < 256 ∧ (rdpColours ch px).2.2 < 256 := by
  have g : ∀ k, px.getD k 0 < 256 := fun k => getD_lt h k
  cases ch <;> exact ⟨g _, g _, g _⟩

theorem rdpBlock_eq (ch : RdpChannels) (hk : RdpCoef kr kg kb off) {src : Buf}
    (hs : ∀ x ∈ src, x < 256) {x0 : Nat} (l : (x0 + 32) * ch.count ≤ src.length) (q : Nat) (row : Buf) :
    rdpBlock ch kr kg kb off src (x0 * ch.count) q row
      = put row q ((List.range 32).flatMap fun j => rdpPix ch kr kg kb off (rowPx src ch.count (x0 + j))) := by
  obtain ⟨c, e, h⟩ := rdpLoad_at ch l
  have lt := fun i (hi : i < 32) => by
    have := rdpColours_lt' ch (rowPx_mem (cn := ch.count) (x := x0 + i) hs)
    rw [h i hi] at this
    exact this
  rw [rdpBlock, e, Outcome.bind_ok]
  refine store16_two.trans ?_
  congr 1
  rw [← List.flatMap_singleton' ((List.range 32).map _), List.flatMap_map]
  refine range_flatMap_congr fun i hi => ?_
  have l3 := lt i hi
  unfold rdpPix
  simp only [h i hi]
  congr 1
  by_cases h16 : i < 16
  · rw [if_pos h16, Nat.mod_eq_of_lt h16]
    exact rdpWord hk (s16_widenLo l3.1) (s16_widenLo l3.2.1) (s16_widenLo l3.2.2) l3.1 l3.2.1 l3.2.2
  · rw [if_neg h16]
    have e : 16 + i % 16 = i := by omega
    refine rdpWord hk ?_ ?_ ?_ l3.1 l3.2.1 l3.2.2
    · rw [s16_widenHi (by rw [e]; exact l3.1), e]
    · rw [s16_widenHi (by rw [e]; exact l3.2.1), e]
    · rw [s16_widenHi (by rw [e]; exact l3.2.2), e]

/-- Sample `x` of a row. -/
def rdpRowPix (ch : RdpChannels) (kr kg kb off : Int) (src : Buf) (x : Nat) : Buf :=
  rdpPix ch kr kg kb off (rowPx src ch.count x)

theorem rdpRow_ok (ch : RdpChannels) (hk : RdpCoef kr kg kb off) {w : Nat} (h0 : 0 < w)
    {src row : Buf} (hs : ∀ x ∈ src, x < 256) (ls : w * ch.count ≤ src.length) (hw : w ≤ row.length) :
    rdpRow ch kr kg kb off w src row = .ok (painted 1 (rdpRowPix ch kr kg kb off src) w row) := by
  have hcn : 0 < ch.count ∧ ch.count ≤ 4 := by cases ch <;> decide
  obtain ⟨cx, ux, e, hc, -, h3, h4⟩ := paintLoopI (step := 32) (ustep := 32)
    (width := w) (cn := 1) (I := fun _ _ => True) (by decide) (fun _ _ _ => trivial)
    (pix := rdpRowPix ch kr kg kb off src) (fun _ => rfl) (row := row) (by omega)
    (body := fun cx _ row => rdpBlock ch kr kg kb off src (cx * ch.count) cx row)
    (cx0 := 0) (ux0 := 0) trivial
    (by
      intro cx ux r _ _ hlt
      rw [Nat.mul_one]
      refine rdpBlock_eq ch hk hs (le_trans (Nat.mul_le_mul_right _ (by omega)) ls) _ _)
    (Nat.zero_le _)
  rw [painted_zero] at e
  have h2 : cx < w := by
    have : cx = 32 * ((w - 1) / 32) := by rw [hc]; unfold loopEnd; omega
    omega
  simp only [rdpRow, e, Outcome.bind_ok]
  unfold rdpTail
  rw [if_pos h2]
  have hm : cx * ch.count + (w - cx) * ch.count = w * ch.count := by
    rw [← Nat.add_mul, Nat.add_sub_cancel' h3]
  have hd : (w - cx) * ch.count ≤ 32 * 4 := Nat.mul_le_mul (by omega) hcn.2
  obtain ⟨sb, es, ls', s1, s2⟩ := copyIn_ok (src := src) (dst := List.replicate 128 0)
    (p := cx * ch.count) (n := (w - cx) * ch.count) (by omega) (by simp; omega)
  rw [List.length_replicate] at ls'
  have e1 := rdpBlock_eq ch hk (src := sb) (x0 := 0)
    (fun x hx => (s2 x hx).elim (hs x) (fun h => by rw [(List.mem_replicate.1 h).2]; decide))
    (by omega) 0 (List.replicate 32 0)
  simp only [Nat.zero_mul] at e1
  simp only [es, e1, Outcome.bind_ok, if_neg (show ¬ 32 < w - cx by omega)]
  have e2 := copyOut_put (N := 32) (L := 32) (n := w - cx) (cn := 1) (by omega) (by omega)
    (f := fun j => rdpPix ch kr kg kb off (rowPx sb ch.count (0 + j))) (fun j => rfl)
    (painted 1 (rdpRowPix ch kr kg kb off src) cx row) (cx * 1)
  have e3 : ((List.range (w - cx)).flatMap fun j => rdpPix ch kr kg kb off (rowPx sb ch.count (0 + j)))
      = (List.range (w - cx)).flatMap fun j => rdpRowPix ch kr kg kb off src (cx + j) := by
    apply range_flatMap_congr
    intro j hj
    have hj' := Nat.mul_le_mul_right ch.count (show j + 1 ≤ w - cx from hj)
    rw [Nat.add_mul, Nat.one_mul] at hj'
    have px : ∀ k, k < ch.count →
        (rowPx sb ch.count (0 + j)).getD k 0 = (rowPx src ch.count (cx + j)).getD k 0 := by
      intro k hk
      rw [rowPx_getD hk, rowPx_getD hk, Nat.zero_add, s1 _ (by omega), Nat.add_mul]
      congr 1
      omega
    have sm : rdpColours ch (rowPx sb ch.count (0 + j)) = rdpColours ch (rowPx src ch.count (cx + j)) := by
      clear e e1 e2 hm hd es
      cases ch <;> simp only [RdpChannels.count] at px ⊢ <;> simp only [rdpColours] <;>
        first | (rw [px 0, px 1, px 2] <;> decide) | (rw [px 1, px 2, px 3] <;> decide)
    rw [rdpRowPix, rdpPix, rdpPix, sm]
  rw [e3, painted_put (pix := rdpRowPix ch kr kg kb off src) (fun _ => rfl)
    (by rw [Nat.add_sub_cancel' h3, Nat.mul_one]; exact hw), Nat.add_sub_cancel' h3, Nat.mul_one, Nat.mul_one] at e2
  exact e2

theorem rdpHandler_row (cpu : Cpu) (ch : RdpChannels) (hk : RdpCoef kr kg kb off) {w : Nat} (h0 : 0 < w)
    {s a b : Src} (hcn : s.cn = ch.count) {src ra rb row : Buf} (hs : ∀ x ∈ src, x < 256)
    (ls : w * ch.count ≤ src.length) (hw : w ≤ row.length) :
    (rdpHandler cpu ch kr kg kb off w).FillsRow w 1 [s, a, b]
      (fun px => rdpPix ch kr kg kb off (px.getD 0 []))
      (fun _ px p => p = rdpPix ch kr kg kb off (px.getD 0 [])) [src, ra, rb] row := by
  have noVec : (rdpHandler .plain ch kr kg kb off w).FillsRow w 1 [s, a, b]
      (fun px => rdpPix ch kr kg kb off (px.getD 0 []))
      (fun _ px p => p = rdpPix ch kr kg kb off (px.getD 0 [])) [src, ra, rb] row :=
    ⟨row, 0, rfl, ⟨by omega, Or.inl (by simp), rfl, by intros; omega, fun _ _ => rfl⟩,
      fun _ _ _ => rfl⟩
  cases cpu with
  | sse41 => exact noVec
  | plain => exact noVec
  | avx2 =>
    refine ⟨_, w, ?_, painted_done (m := 1) (by decide)
      (pix := rdpRowPix ch kr kg kb off src) (fun _ => rfl) (by rw [Nat.mul_one]; exact hw) (le_refl _)
      (.inr rfl) fun x hx => ?_, fun x h4 h5 => absurd h4 (by omega)⟩
    · simp only [rdpHandler, List.getD_cons_zero]
      rw [rdpRow_ok ch hk h0 hs ls hw]
      rfl
    · simp only [Verif.pixels, List.zipWith_cons_cons, List.getD_cons_zero, hcn, rdpRowPix, rowPx_eq]

end Verif.X86
