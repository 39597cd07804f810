import Verif.Model.NeonGray
import Verif.Spec.NeonGray
import Verif.Lemmas.NeonEncode
import Verif.Lemmas.NeonRows
import Verif.Lemmas.X86Gray
/-! # The rows of the grey encoder and of the grey decoder with alpha with NEON -/
namespace Verif.Neon
open X86 Spec

/-! ## The encoder -/

/-- A byte of the sum with the offset as it is. -/
def rawByte (bias : Nat) (k : Int × Int × Int) (r g b : Nat) : Nat :=
  low8 (exactSum bias k r g b / 2 ^ 13)

theorem rawFits (rg : YuvRange) (m : Matrix) :
    ByteFits 13 255 ((getYuvRange 8 rg).biasY : Int) (kLuma (searchForward 13 8 rg m)) := by
  cases rg <;> cases m <;> decide +kernel

theorem rawDot_at {bias : Nat} {k : Int × Int × Int} (hf : ByteFits 13 255 (bias : Int) k)
    (hb : bias ≤ 128) : DotAt Word 255 (rawDot bias k) (rawByte bias k) := by
  intro c j r g b hj hr hg hb' cr cg cb
  have hby := hf.byte hr hg hb'
  rw [rawByte, rawDot]
  refine movn_shrn ?_ hby.1 hby.2
  refine lanes_split (P := fun o => sum3 (mlal o) (set1_32 (bias : Int)) k c) hj fun o j' ho => ?_
  exact sum3_mlal (by omega) hf.1 hf.2.1 hf.2.2.1 hr hg hb' (ho ▸ cr) (ho ▸ cg) (ho ▸ cb)

/-- The luma of the vector code. -/
def vecToGray (rdm : Bool) (ch : Channels) (rg : YuvRange) (m : Matrix) (px : Buf) : Nat :=
  if rdm then (neonVals true ch rg m).y px else rawLuma ch rg m px

variable {rg : YuvRange} {m : Matrix} {rdm : Bool}

theorem toGray16_ok (ch : Channels) :
    ToGrayOk 16 ch (fun _ => vecToGray rdm ch rg m)
      (toGrayStep 16 (toGray16 rdm (getYuvRange 8 rg) (searchForward 13 8 rg m)) ch) := by
  intro src x0 cx o hb hl
  obtain ⟨c, e, hp⟩ := loadRgb_at 16 ch hb hl
  rw [toGrayStep, e, Outcome.bind_ok]
  refine store_flat (fun i hi => ?_) o
  cases rdm
  · exact bytes16_at (one := fun x => x) wide0_at (fun x h => by omega)
      (rawDot_at (rawFits rg m) (balFits rg m).2.2.1)
      (rawDot_at (rawFits rg m) (balFits rg m).2.2.1) c _ _ _ hp i hi
  · have dy := rdmDot_at (rdmFits rg m).1
    have := bytes16_at (one := fun x => 16 * x) wide4_at (fun x h => by omega) dy dy c _ _ _ hp i hi
    refine this.trans ?_
    rw [show ((rdmBiasY (getYuvRange 8 rg) : Nat) : Int) = 4 * (getYuvRange 8 rg).biasY by
      unfold rdmBiasY; omega]
    rfl

theorem toGray8_ok (ch : Channels) :
    ToGrayOk 8 ch (fun _ => vecToGray rdm ch rg m)
      (toGrayStep 8 (toGray8 rdm (getYuvRange 8 rg) (searchForward 13 8 rg m)) ch) := by
  intro src x0 cx o hb hl
  obtain ⟨c, e, hp⟩ := loadRgb_at 8 ch hb hl
  rw [toGrayStep, e, Outcome.bind_ok]
  refine store_flat (fun i hi => ?_) o
  cases rdm
  · exact bytes8_at (one := fun x => x)
      (fun a k x h hx => wide0_at 0 a k x (by rw [Nat.zero_add]; exact h) hx) (fun x h => by omega)
      (rawDot_at (rawFits rg m) (balFits rg m).2.2.1) c _ _ _ hp i hi
  · have dy := rdmDot_at (rdmFits rg m).1
    have := bytes8_at (one := fun x => 16 * x)
      (fun a k x h hx => wide4_at 0 a k x (by rw [Nat.zero_add]; exact h) hx) (fun x h => by omega)
      dy c _ _ _ hp i hi
    refine this.trans ?_
    rw [show ((rdmBiasY (getYuvRange 8 rg) : Nat) : Int) = 4 * (getYuvRange 8 rg).biasY by
      unfold rdmBiasY; omega]
    rfl

theorem toGrayRow_ok (ch : Channels) {w : Nat} (h0 : 0 < w) {src : Buf} (hb : ∀ b ∈ src, b < 256)
    (hl : w * ch.count ≤ src.length) {o : Buf} (ho : w ≤ o.length) :
    toGrayRow rdm ch (getYuvRange 8 rg) (searchForward 13 8 rg m) w src o 0
      = .ok (painted 1 (toGrayPix ch (fun _ => vecToGray rdm ch rg m) src) (8 * ((w - 1) / 8)) o,
        8 * ((w - 1) / 8)) := by
  obtain ⟨c1, e1, k1, m1, l1⟩ := toGrayLoop (step := 16) (A := 16) (by decide) rfl
    (V := fun _ => vecToGray rdm ch rg m) (toGray16_ok ch) hb hl ho (cx0 := 0) rfl h0
    (fun _ _ _ _ _ _ => rfl)
  obtain ⟨c2, e2, k2, m2, l2⟩ := toGrayLoop (step := 8) (A := 8) (by decide) rfl
    (V := fun _ => vecToGray rdm ch rg m) (toGray8_ok ch) hb hl ho (cx0 := c1)
    (by omega) l1 (fun _ _ _ _ _ _ => rfl)
  rw [painted_zero] at e1
  simp only [toGrayRow, e1, Outcome.bind_ok, e2]
  rw [show c2 = 8 * ((w - 1) / 8) by omega]
  rfl

theorem toGrayHandler_fills (ch : Channels) {w : Nat} (h0 : 0 < w) {s : Src} (hs : s.cn = ch.count) :
    MapHandler.Fills (fun rows row => toGrayRow rdm ch (getYuvRange 8 rg) (searchForward 13 8 rg m) w
        (rows.getD 0 []) row 0) 256 w 1 [s]
      (fun px => [luma8 13 ch rg m (px.getD 0 [])])
      (fun x px p => p = [neonGrayLuma rdm ch rg m w x (px.getD 0 [])]) := by
  intro rows row h1 h2 h3
  obtain ⟨src, rfl⟩ := rows_one h1
  obtain ⟨ls, hb⟩ := h2 s src (by simp)
  rw [hs] at ls
  have e := toGrayRow_ok (rdm := rdm) (rg := rg) (m := m) ch h0 hb ls (o := row) (by omega)
  have epx : ∀ x, (Verif.pixels [s] [src] x).getD 0 [] = rowPx src ch.count x := by
    intro x
    simp only [Verif.pixels, List.zipWith_cons_cons, List.getD_cons_zero, hs, chunk, rowPx, pixelAt,
      Nat.zero_mul, Nat.zero_add]
  refine ⟨_, _, by simp only [List.getD_cons_zero]; exact e,
    painted_done (pix := toGrayPix ch (fun _ => vecToGray rdm ch rg m) src) Nat.one_pos (fun _ => rfl) h3
      (by omega) (.inl (Nat.mod_one _)) fun x hx => ?_, fun x h4 h5 => ?_⟩
  · show _ = [_]
    rw [epx]
    simp only [toGrayPix, neonGrayLuma, if_pos hx]
    rfl
  · show _ = [_]
    simp only [neonGrayLuma]
    rw [if_neg (show ¬ x < 8 * ((w - 1) / 8) by omega)]

/-! ## The decoder -/

variable {t : InvCoef} {cr : ChromaRange}

theorem greyAlphaBody_eq (hby : cr.biasY < 256) (hty : -32767 ≤ t.y ∧ t.y ≤ 32767) (st : Step)
    (ch : Channels) {y a : Buf} (hy : ∀ x ∈ y, x < 256) {cx : Nat} (ly : cx + st.n ≤ y.length)
    (la : cx + st.n ≤ a.length) (p : Nat) (row : Buf) :
    greyAlphaBody rdm st ch cr t y a cx p row
      = put row p (grayStep ch (fun y => grayLev rdm t (y - cr.biasY)) st.n y (some a) cx) := by
  obtain ⟨yr, ey, y1, y2⟩ := load_at ly hy
  have h256 : ∀ i, subsU8 yr (set1_8 cr.biasY) i < 256 := by
    intro i; rw [subsU8_at hby]; have := y2 i; omega
  have ea := load_ld la
  have a1 : ∀ i, i < st.n → ld st.n a cx i = alphaCol (some a) (cx + i) := fun i hi => by
    rw [ld_at hi]; rfl
  rw [greyAlphaBody, ey, Outcome.bind_ok, ea, Outcome.bind_ok]
  cases st
  · have ly' : cx + 32 ≤ y.length := ly
    simp only [storeRgb_eq]
    rw [put_put _ _ _ _ _ (by
      unfold X86.pixels
      rw [flatMap_length (cn := ch.count) (fun j _ => layout_length' ..), Nat.mul_comm])]
    rw [show Step.n .s32 = 16 + 16 from rfl, ← grayStep_append]
    rw [grayStep_of ch (L := fun y => grayLev rdm t (y - cr.biasY)) (y := y) (a := some a) (cx := cx)
        (n := 16) (v := grey16 rdm t (subsU8 yr (set1_8 cr.biasY))) (av := ld (16 + 16) a cx) ?_
        (fun i hi => a1 i (show i < 32 by omega)),
      grayStep_of ch (L := fun y => grayLev rdm t (y - cr.biasY)) (y := y) (a := some a) (cx := cx + 16)
        (n := 16) (v := grey16 rdm t (upper 16 (subsU8 yr (set1_8 cr.biasY))))
        (av := upper 16 (ld (16 + 16) a cx)) ?_
        (fun i hi => by
          rw [upper]
          exact (a1 (16 + i) (show 16 + i < 32 by omega)).trans (by rw [Nat.add_assoc]))]
    · intro i hi
      rw [grey16_at (y := upper 16 (subsU8 yr (set1_8 cr.biasY))) hty (fun i _ => h256 _) hi, upper,
        subsU8_at hby, y1 _ (show 16 + i < 32 by omega), show cx + (16 + i) = cx + 16 + i by omega]
    · intro i hi
      rw [grey16_at hty (fun i _ => h256 _) hi, subsU8_at hby, y1 _ (show i < 32 by omega)]
  · simp only [storeRgb_eq]
    refine congrArg (put row p) ?_
    refine grayStep_of ch (L := fun y => grayLev rdm t (y - cr.biasY)) (y := y) (a := some a) (cx := cx)
        (n := 16) (v := grey16 rdm t (subsU8 yr (set1_8 cr.biasY))) (av := ld 16 a cx) ?_ a1
    intro i hi
    rw [grey16_at hty (fun i _ => h256 _) hi, subsU8_at hby, y1 _ hi]
  · simp only [storeRgb_eq]
    refine congrArg (put row p) ?_
    refine grayStep_of ch (L := fun y => grayLev rdm t (y - cr.biasY)) (y := y) (a := some a) (cx := cx)
        (n := 8) (v := grey8 rdm t (subsU8 yr (set1_8 cr.biasY))) (av := ld 8 a cx) ?_ a1
    intro i hi
    rw [grey8_at hty (fun i _ => h256 _) hi, subsU8_at hby, y1 _ hi]

theorem bind_pair {X : Outcome Buf} {f : Buf → Outcome Buf} {v : Buf} {w : Nat}
    (h : (X >>= f) = .ok v) : (X >>= fun d => f d >>= fun r => pure (r, w)) = .ok (v, w) := by
  cases X with
  | ok x => rw [Outcome.bind_ok] at h ⊢; rw [h]; rfl
  | _ => cases h

theorem greyAlphaTail_ok (hby : cr.biasY < 256) (hty : -32767 ≤ t.y ∧ t.y ≤ 32767) (ch : Channels)
    {w : Nat} {y a row : Buf} (hy : ∀ x ∈ y, x < 256) (ly : w ≤ y.length) (la : w ≤ a.length)
    (hw : w * ch.count ≤ row.length) {cx : Nat} (h2 : cx < w) (h3 : w ≤ cx + 8) :
    greyAlphaTail rdm ch cr t w y a
        (painted ch.count (grayRowPix ch (fun _ y => grayLev rdm t (y - cr.biasY)) y (some a)) cx row) cx
      = .ok (painted ch.count (grayRowPix ch (fun _ y => grayLev rdm t (y - cr.biasY)) y (some a)) w row, w)
      := by
  unfold greyAlphaTail
  rw [if_pos h2]
  obtain ⟨yb, ey, ly', y1, y2⟩ := copyIn_ok (src := y) (dst := List.replicate 8 0) (p := cx)
    (n := w - cx) (by omega) (by simp; omega)
  obtain ⟨ab, ea, la', a1, a2⟩ := copyIn_ok (src := a) (dst := List.replicate 8 0) (p := cx)
    (n := w - cx) (by omega) (by simp; omega)
  have e1 := greyAlphaBody_eq (rdm := rdm) hby hty .s8 ch (y := yb) (a := ab) (cx := 0)
    (fun x hx => (y2 x hx).elim (hy x) (fun h => by rw [(List.mem_replicate.1 h).2]; decide))
    (show 0 + 8 ≤ _ by rw [ly']; simp) (show 0 + 8 ≤ _ by rw [la']; simp) 0 (List.replicate (8 * 4) 0)
  simp only [ey, ea, e1, Outcome.bind_ok, if_neg (show ¬ 8 < w - cx by omega)]
  have e2 := copyOut_put (N := 8) (L := 8 * 4) (n := w - cx) (cn := ch.count)
    (Nat.mul_le_mul_left _ (count_le ch)) (by omega)
    (f := fun j => grayPix ch (grayLev rdm t (yb.getD (0 + j) 0 - cr.biasY)) (alphaCol (some ab) (0 + j)))
    (fun j => layout_length' ..)
    (painted ch.count (grayRowPix ch (fun _ y => grayLev rdm t (y - cr.biasY)) y (some a)) cx row)
    (cx * ch.count)
  have e3 : ((List.range (w - cx)).flatMap fun j =>
      grayPix ch (grayLev rdm t (yb.getD (0 + j) 0 - cr.biasY)) (alphaCol (some ab) (0 + j)))
      = (List.range (w - cx)).flatMap fun j =>
        grayRowPix ch (fun _ y => grayLev rdm t (y - cr.biasY)) y (some a) (cx + j) := by
    apply range_flatMap_congr
    intro j hj
    rw [Nat.zero_add, y1 j hj, grayRowPix]
    simp only [alphaCol]
    rw [a1 j hj]
  rw [e3, painted_put (grayRowPix_length ch _ y (some a))
    (by rw [Nat.add_sub_cancel' (by omega)]; exact hw), Nat.add_sub_cancel' (by omega)] at e2
  rw [Nat.add_sub_cancel' (by omega)]
  exact bind_pair e2

theorem greyAlphaRow_ok (hby : cr.biasY < 256) (hty : -32767 ≤ t.y ∧ t.y ≤ 32767) (ch : Channels) {w : Nat}
    (h0 : 0 < w) {y a row : Buf} (hy : ∀ x ∈ y, x < 256) (ly : w ≤ y.length) (la : w ≤ a.length)
    (hw : w * ch.count ≤ row.length) :
    greyAlphaRow rdm ch cr t w y a row 0
      = .ok (painted ch.count (grayRowPix ch (fun _ y => grayLev rdm t (y - cr.biasY)) y (some a)) w row, w)
      := by
  have loop : ∀ (st : Step) (c0 : Nat), c0 < w → ∃ c, vwhile st.n 0 w
      (fun cx _ row => greyAlphaBody rdm st ch cr t y a cx (cx * ch.count) row) c0 0
        (painted ch.count (grayRowPix ch (fun _ y => grayLev rdm t (y - cr.biasY)) y (some a)) c0 row)
      = .ok (painted ch.count (grayRowPix ch (fun _ y => grayLev rdm t (y - cr.biasY)) y (some a)) c row,
          c, 0) ∧ c < w ∧ w ≤ c + st.n := by
    intro st c0 hc0
    have hp := (n_half st).2
    obtain ⟨c, e, k, -, l⟩ := grayLoop (step := st.n) (A := 1) hp (Nat.mod_one _)
      (L := fun _ y => grayLev rdm t (y - cr.biasY)) (M := fun y => grayLev rdm t (y - cr.biasY)) (y := y)
      (a := some a) hw (body := fun cx r => greyAlphaBody rdm st ch cr t y a cx (cx * ch.count) r)
      (cx0 := c0) (Nat.mod_one _) hc0
      (fun cx r _ h => greyAlphaBody_eq hby hty st ch hy (by omega) (by omega) _ r) (fun _ _ _ => rfl)
    refine ⟨c, e, l, ?_⟩
    have h1 := Nat.div_add_mod (w - 1 - c0) st.n
    have h2 := Nat.mod_lt (w - 1 - c0) hp
    rw [Nat.mul_comm] at h1
    omega
  obtain ⟨c1, e1, l1, -⟩ := loop .s32 0 h0
  obtain ⟨c2, e2, l2, -⟩ := loop .s16 c1 l1
  obtain ⟨c3, e3, l3, m3⟩ := loop .s8 c2 l2
  rw [painted_zero] at e1
  simp only [greyAlphaRow]
  rw [show vwhile 32 0 w _ 0 0 row = _ from e1, Outcome.bind_ok]
  simp only []
  rw [show vwhile 16 0 w _ c1 0 _ = _ from e2, Outcome.bind_ok]
  simp only []
  rw [show vwhile 8 0 w _ c2 0 _ = _ from e3, Outcome.bind_ok]
  exact greyAlphaTail_ok hby hty ch hy ly la hw l3 m3

theorem greyAlphaHandler_fills (ch : Channels) {w : Nat} (h0 : 0 < w) {s s' : Src} (hs : s.cn = 1)
    (hs' : s'.cn = 1) :
    MapHandler.Fills (fun rows row => greyAlphaRow rdm ch (getYuvRange 8 .limited)
        (searchInverse 13 8 .limited m) w (rows.getD 0 []) (rows.getD 1 []) row 0) 256 w ch.count [s, s']
      (fun px => layout ch (grayLevel 8 .limited m (comp px 0 0))
        (grayLevel 8 .limited m (comp px 0 0)) (grayLevel 8 .limited m (comp px 0 0)) (comp px 1 0))
      (fun _ px p => p = grayPix ch (neonGray rdm m (comp px 0 0)) (comp px 1 0)) := by
  intro rows row h1 h2 h3
  obtain ⟨y, a, rfl⟩ := rows_two h1
  obtain ⟨ly, hy⟩ := h2 s y (by simp)
  obtain ⟨la, -⟩ := h2 s' a (by simp)
  rw [hs, Nat.mul_one] at ly
  rw [hs', Nat.mul_one] at la
  have hby : (getYuvRange 8 .limited).biasY < 256 := by decide
  have hc := grayCoef_search m
  unfold GrayCoef at hc
  have e := greyAlphaRow_ok (rdm := rdm) hby (t := searchInverse 13 8 .limited m) (by omega) ch h0 hy ly la
    h3
  refine ⟨_, w, by simp only [List.getD_cons_zero, List.getD_cons_succ]; exact e,
    painted_done (X86.count_pos ch) (fun _ => grayRowPix_length ..) h3 (le_refl _) (.inr rfl)
      fun x hx => ?_, fun x h4 h5 => absurd h4 (by omega)⟩
  show _ = grayPix _ _ _
  rw [comp_plane hs (by omega), comp_plane1 hs']; rfl

end Verif.Neon
