import Verif.Lemmas.X86EncPlanar
import Verif.Lemmas.EncodeFrames
/-! # The x86 row encoders meet the contract of a row encoder and finish every row -/
namespace Verif.X86
open Spec

/-! ## Values -/

/-- The values the vector code stores, as functions of pixels. -/
def vecFun (s : Sampling) (ch : Channels) (rg : YuvRange) (m : Matrix) : EncFun where
  y := vecLuma ch rg m
  y11 _ px := vecLuma ch rg m px
  u := vecCb s ch rg m
  v := vecCr s ch rg m

/-- The vector code stores exactly these values. -/
def vecRel (F : EncFun) : EncRel where
  y px v := v = F.y px
  u last l v := v = F.u last l
  v last l v := v = F.v last l

/-- Scalar arithmetic that computes the same values (it is never used: the vector code finishes
every row). -/
def vecBlocks (cn : Nat) (F : EncFun) : PixelBlocks where
  one a := .ok (F.y a, F.u false [a], F.v false [a])
  pair a := .ok (F.y (a.take cn), F.y (a.drop cn), F.u false [a.take cn, a.drop cn],
    F.v false [a.take cn, a.drop cn])
  tail a := .ok (F.y a, F.u false [a], F.v false [a])
  quad a b := .ok (F.y (a.take cn), F.y (a.drop cn), F.y (b.take cn),
    F.y11 (a.drop cn) (b.drop cn), F.u false [a.take cn, a.drop cn, b.take cn, b.drop cn],
    F.v false [a.take cn, a.drop cn, b.take cn, b.drop cn])
  tail2 a b := .ok (F.y a, F.y b, F.u true [a, b], F.v true [a, b])

theorem vecBlocks_ok (B cn : Nat) (F : EncFun) : BlocksOk (vecBlocks cn F) B cn F where
  one a _ _ := rfl
  pair a b ha hb _ _ := by
    subst ha
    simp only [vecBlocks, List.take_left, List.drop_left]
  tail a _ _ := rfl
  quad a b c d ha hb hc hd _ _ _ _ := by
    subst ha
    have e1 : (c ++ d).take a.length = c := by rw [← hc]; exact List.take_left
    have e2 : (c ++ d).drop a.length = d := by rw [← hc]; exact List.drop_left
    simp only [vecBlocks, List.take_left, List.drop_left, e1, e2]
  tail2 a b _ _ _ _ := rfl

theorem biasLuma_eq (rg : YuvRange) : biasLuma (getYuvRange 8 rg) = 4 * (getYuvRange 8 rg).biasY := by
  unfold biasLuma; omega

theorem biasChroma_eq (rg : YuvRange) : biasChroma (getYuvRange 8 rg) = 513 := by
  cases rg <;> rfl

theorem fwdOk_search (rg : YuvRange) (m : Matrix) : FwdOk (getYuvRange 8 rg) (searchForward 13 8 rg m) := by
  have h : ∀ rg m, DotOk (biasLuma (getYuvRange 8 rg)) (kLuma (searchForward 13 8 rg m)) ∧
      DotOk (biasChroma (getYuvRange 8 rg)) (kCb (searchForward 13 8 rg m)) ∧
      DotOk (biasChroma (getYuvRange 8 rg)) (kCr (searchForward 13 8 rg m)) := by
    intro rg m; cases rg <;> cases m <;> decide +kernel
  exact ⟨(h rg m).1, (h rg m).2.1, (h rg m).2.2⟩

theorem lumaVec_eq (ch : Channels) (rg : YuvRange) (m : Matrix) (px : Buf) :
    lumaVec ch (biasLuma (getYuvRange 8 rg)) (kLuma (searchForward 13 8 rg m)) px
      = vecLuma ch rg m px := by
  rw [lumaVec, biasLuma_eq]; rfl

/-- One row of components: chroma sample `c`. -/
theorem chWord_row {s : Sampling} {w : Nat} {rgba : Buf} {cn c : Nat} (hc : c < (w - 1) / hdiv s + 1)
    (hw : 0 < w) (f : Buf → Nat) :
    chWord s (fun x => f (extPx w cn rgba x)) c
      = chromaWord s false ((rowBlock rgba cn w (hdiv s) c).map f) := by
  have sub : ∀ s, s ≠ .yuv444 → c < (w - 1) / 2 + 1 →
      chWord s (fun x => f (extPx w cn rgba x)) c
        = chromaWord s false ((rowBlock rgba cn w 2 c).map f) := by
    intro s hs hc
    rw [chWord_sub hs]
    by_cases h : 2 * c + 1 < w
    · rw [rowBlock_two h, extPx_lt (by omega), extPx_lt h]
      rfl
    · have h' : 2 * c + 1 = w := by omega
      have e : extPx w cn rgba (2 * c + 1) = extPx w cn rgba (2 * c) := by
        unfold extPx; congr 1; omega
      rw [rowBlock_last h', e, extPx_lt (by omega)]
      simp only [List.map_cons, List.map_nil, chromaWord, if_neg hs]
      omega
  cases s
  · exact sub .yuv420 (by decide) hc
  · exact sub .yuv422 (by decide) hc
  · simp only [hdiv, Nat.div_one] at hc ⊢
    rw [rowBlock_one (by omega)]
    simp only [chWord, if_true, List.map_cons, List.map_nil, chromaWord]
    rw [extPx_lt (by omega)]

/-- Two rows of components. -/
theorem chWord_rows {w : Nat} {rgba0 rgba1 : Buf} {cn c : Nat} (hc : c < (w - 1) / 2 + 1)
    (hw : 0 < w) (f : Buf → Nat) :
    chWord .yuv420 (fun x => (f (extPx w cn rgba0 x) + f (extPx w cn rgba1 x) + 1) / 2) c
      = chromaWord .yuv420 (decide (2 * c + 1 = w))
          ((rowBlock rgba0 cn w 2 c ++ rowBlock rgba1 cn w 2 c).map f) := by
  rw [chWord_sub (by decide)]
  by_cases h : 2 * c + 1 < w
  · rw [rowBlock_two h, rowBlock_two h, extPx_lt (by omega), extPx_lt h, extPx_lt (by omega),
      extPx_lt h]
    simp only [List.cons_append, List.nil_append, List.map_cons, List.map_nil, chromaWord]
  · have h' : 2 * c + 1 = w := by omega
    have e : ∀ rgba, extPx w cn rgba (2 * c + 1) = extPx w cn rgba (2 * c) := by
      intro rgba; unfold extPx; congr 1; omega
    rw [rowBlock_last h', rowBlock_last h', e, e, extPx_lt (by omega), extPx_lt (by omega)]
    simp only [List.cons_append, List.nil_append, List.map_cons, List.map_nil, chromaWord,
      decide_eq_true h', if_true]
    omega

theorem chromaDone_le {hd w c : Nat} (h : 0 < hd) (hw : 0 < w) (hc : c < chromaDone hd w) :
    c < (w - 1) / hd + 1 := by
  have : chromaDone hd w = (w - 1) / hd + 1 := by
    unfold chromaDone
    rw [show w + (hd - 1) = w - 1 + hd by omega, Nat.add_div_right _ h]
  omega

/-- Painted chroma, in terms of the row specification. -/
theorem painted_rel {w : Nat} {pix : Nat → Buf} (hp : ∀ j, (pix j).length = 1) {cw : Nat} {row : Buf}
    (hw : cw ≤ row.length) {R : Nat → Nat → Buf → Prop} (hR : ∀ x, x < cw → R x 0 (pix x)) :
    FrameRel (painted 1 pix cw row) row 0 cw 1 1 R := by
  have h := (painted_done (w := cw) (m := 1) (cn := 1) (by omega) hp (R := fun x p => R x 0 p)
    (cx := cw) (row := row) (by omega) (Nat.le_refl _) (.inr rfl) hR).2.2
  exact ⟨h.1, fun x y hx hy => by
    have e : y = 0 := by omega
    subst e; exact h.2.1 x 0 hx hy, h.2.2⟩

/-- The row encoder of an x86 processor. -/
theorem rowEncoder_ok {cpu : Cpu} (hcpu : cpu ≠ .plain) (s : Sampling) (ch : Channels)
    (rg : YuvRange) (m : Matrix) {w : Nat} (hw : 0 < w) :
    (rowEncoder cpu s ch (getYuvRange 8 rg) (searchForward 13 8 rg m) w).Ok 256 ch.count w (hdiv s)
      (vecRel (vecFun s ch rg m)) := by
  intro y u v rgba hB ly lu lv hr
  have key : ∃ ux, (∀ f : Planes × Nat × Nat → Outcome (Buf × Buf × Buf × Nat), f = (fun r =>
      Outcome.ok (r.1.1, r.1.2.1, r.1.2.2, r.2.1)) →
      rowEncoder cpu s ch (getYuvRange 8 rg) (searchForward 13 8 rg m) w y u v rgba
        = f (rowDone s ch (getYuvRange 8 rg) (searchForward 13 8 rg m) w rgba (y, u, v) w, w, ux)) := by
    cases cpu
    · obtain ⟨ux, e⟩ := avx2EncRow_ok (ch := ch) (fwdOk_search rg m) s hw (o := (y, u, v)) hB hr ly lu lv
      refine ⟨ux, ?_⟩
      rintro f rfl
      simp only [rowEncoder, e]
      rfl
    · obtain ⟨ux, e⟩ := sseEncRow_ok (ch := ch) (fwdOk_search rg m) s hw (o := (y, u, v)) hB hr ly lu lv
      refine ⟨ux, ?_⟩
      rintro f rfl
      simp only [rowEncoder, e]
      rfl
    · exact absurd rfl hcpu
  obtain ⟨ux, key⟩ := key
  have hcd : chromaDone (hdiv s) w = (w - 1) / hdiv s + 1 := by
    unfold chromaDone
    have := hdiv_pos s
    rw [show w + (hdiv s - 1) = w - 1 + hdiv s by omega, Nat.add_div_right _ this]
  refine ⟨_, _, _, w, key _ rfl, ?_, ?_, ?_⟩
  · refine painted_done (w := w) (cn := 1) Nat.one_pos (fun _ => rfl) (by omega) (Nat.le_refl _) (.inr rfl) fun x hx => ?_
    simp only [List.getD_cons_zero, vecRel, vecFun]
    exact lumaVec_eq ..
  · refine painted_rel (w := w) (fun _ => rfl) (by dsimp only; omega) fun c hc => ?_
    have hc' := chromaDone_le (hdiv_pos s) hw hc
    simp only [List.getD_cons_zero, vecRel, vecFun]
    rw [chroma1, chWord_row hc' hw, chWord_row hc' hw, chWord_row hc' hw, biasChroma_eq]
    rfl
  · refine painted_rel (w := w) (fun _ => rfl) (by dsimp only; omega) fun c hc => ?_
    have hc' := chromaDone_le (hdiv_pos s) hw hc
    simp only [List.getD_cons_zero, vecRel, vecFun]
    rw [chroma1, chWord_row hc' hw, chWord_row hc' hw, chWord_row hc' hw, biasChroma_eq]
    rfl

/-- The encoder of two rows. -/
theorem rowEncoder420_ok {cpu : Cpu} (hcpu : cpu ≠ .plain) (ch : Channels)
    (rg : YuvRange) (m : Matrix) {w : Nat} (hw : 0 < w) :
    (rowEncoder420 cpu ch (getYuvRange 8 rg) (searchForward 13 8 rg m) w).Ok 256 ch.count w
      (vecRel (vecFun .yuv420 ch rg m)) := by
  intro y0 y1 u v rgba0 rgba1 hB0 hB1 ly0 ly1 lu lv hr0 hr1
  have key : ∃ ux, (∀ f : Planes4 × Nat × Nat → Outcome (Buf × Buf × Buf × Buf × Nat), f = (fun r =>
      Outcome.ok (r.1.1, r.1.2.1, r.1.2.2.1, r.1.2.2.2, r.2.1)) →
      rowEncoder420 cpu ch (getYuvRange 8 rg) (searchForward 13 8 rg m) w y0 y1 u v rgba0 rgba1
        = f (rowDone2 ch (getYuvRange 8 rg) (searchForward 13 8 rg m) w rgba0 rgba1 (y0, y1, u, v) w,
            w, ux)) := by
    cases cpu
    · obtain ⟨ux, e⟩ := avx2EncRow420_ok (ch := ch) (fwdOk_search rg m) hw (o := (y0, y1, u, v)) hB0 hB1
        hr0 hr1 ly0 ly1 lu lv
      refine ⟨ux, ?_⟩
      rintro f rfl
      simp only [rowEncoder420, e]
      rfl
    · obtain ⟨ux, e⟩ := sseEncRow420_ok (ch := ch) (fwdOk_search rg m) hw (o := (y0, y1, u, v)) hB0 hB1
        hr0 hr1 ly0 ly1 lu lv
      refine ⟨ux, ?_⟩
      rintro f rfl
      simp only [rowEncoder420, e]
      rfl
    · exact absurd rfl hcpu
  obtain ⟨ux, key⟩ := key
  have hcd : chromaDone 2 w = (w - 1) / 2 + 1 := by unfold chromaDone; omega
  refine ⟨_, _, _, _, w, key _ rfl, ?_, ?_, ?_, ?_⟩
  · refine painted_done (w := w) (cn := 1) Nat.one_pos (fun _ => rfl) (by omega) (Nat.le_refl _) (.inr rfl) fun x hx => ?_
    simp only [List.getD_cons_zero, vecRel, vecFun]
    exact lumaVec_eq ..
  · refine painted_done (w := w) (cn := 1) Nat.one_pos (fun _ => rfl) (by omega) (Nat.le_refl _) (.inr rfl) fun x hx => ?_
    simp only [List.getD_cons_zero, vecRel, vecFun]
    exact lumaVec_eq ..
  · refine painted_rel (w := w) (fun _ => rfl) (by dsimp only; omega) fun c hc => ?_
    simp only [List.getD_cons_zero, vecRel, vecFun]
    rw [chroma2, chWord_rows (by omega) hw, chWord_rows (by omega) hw, chWord_rows (by omega) hw,
      biasChroma_eq]
    rfl
  · refine painted_rel (w := w) (fun _ => rfl) (by dsimp only; omega) fun c hc => ?_
    simp only [List.getD_cons_zero, vecRel, vecFun]
    rw [chroma2, chWord_rows (by omega) hw, chWord_rows (by omega) hw, chWord_rows (by omega) hw,
      biasChroma_eq]
    rfl

/-! ## Every row is finished -/

/-- The vector code, where it succeeds, finishes the row. -/
def Finishes (f : RowEncoder) (w : Nat) : Prop :=
  ∀ y u v rgba r, f y u v rgba = .ok r → r.2.2.2 = w
/-- The same for two rows. -/
def Finishes2 (f : RowEncoder420) (w : Nat) : Prop :=
  ∀ y0 y1 u v rgba0 rgba1 r, f y0 y1 u v rgba0 rgba1 = .ok r → r.2.2.2.2 = w

theorem encTail_cx {n : Nat} {s : Sampling} {cn w : Nat} {f : Buf → Planes → Outcome Planes}
    {rgba : Buf} {o : Planes} {cx ux : Nat} {r : Planes × Nat × Nat}
    (h : encTail n s cn w f rgba o cx ux = .ok r) (hc : cx ≤ w) : r.2.1 = w := by
  unfold encTail at h
  split at h
  · by_cases hn : n < w - cx
    · simp only [if_pos hn] at h; cases h
    · simp only [if_neg hn] at h
      obtain ⟨_, _, h⟩ := bind_eq_ok h
      obtain ⟨_, _, h⟩ := bind_eq_ok h
      obtain ⟨_, _, h⟩ := bind_eq_ok h
      obtain ⟨_, _, h⟩ := bind_eq_ok h
      obtain ⟨_, _, h⟩ := bind_eq_ok h
      cases h
      show cx + (w - cx) = w
      omega
  · cases h
    show cx = w
    omega

theorem encTail420_cx {n cn w : Nat} {f : Buf → Buf → Planes4 → Outcome Planes4}
    {rgba0 rgba1 : Buf} {o : Planes4} {cx ux : Nat} {r : Planes4 × Nat × Nat}
    (h : encTail420 n cn w f rgba0 rgba1 o cx ux = .ok r) (hc : cx ≤ w) : r.2.1 = w := by
  unfold encTail420 at h
  split at h
  · by_cases hn : n < w - cx
    · simp only [if_pos hn] at h; cases h
    · simp only [if_neg hn] at h
      obtain ⟨_, _, h⟩ := bind_eq_ok h
      obtain ⟨_, _, h⟩ := bind_eq_ok h
      obtain ⟨_, _, h⟩ := bind_eq_ok h
      obtain ⟨_, _, h⟩ := bind_eq_ok h
      obtain ⟨_, _, h⟩ := bind_eq_ok h
      obtain ⟨_, _, h⟩ := bind_eq_ok h
      obtain ⟨_, _, h⟩ := bind_eq_ok h
      cases h
      show cx + (w - cx) = w
      omega
  · cases h
    show cx = w
    omega

theorem rowEncoder_finishes {cpu : Cpu} (hcpu : cpu ≠ .plain) (s : Sampling) (ch : Channels)
    (rg : ChromaRange) (t : FwdCoef) (w : Nat) : Finishes (rowEncoder cpu s ch rg t w) w := by
  intro y u v rgba r h
  cases cpu
  · obtain ⟨q, hq, e⟩ := bind_eq_ok h
    cases e
    obtain ⟨q1, h1, h⟩ := bind_eq_ok hq
    exact encTail_cx h (vwhile_le h1 (Nat.zero_le _))
  · obtain ⟨q, hq, e⟩ := bind_eq_ok h
    cases e
    obtain ⟨q1, h1, h⟩ := bind_eq_ok hq
    obtain ⟨q2, h2, h⟩ := bind_eq_ok h
    exact encTail_cx h (vwhile_le h2 (vwhile_le h1 (Nat.zero_le _)))
  · exact absurd rfl hcpu

theorem rowEncoder420_finishes {cpu : Cpu} (hcpu : cpu ≠ .plain) (ch : Channels)
    (rg : ChromaRange) (t : FwdCoef) (w : Nat) : Finishes2 (rowEncoder420 cpu ch rg t w) w := by
  intro y0 y1 u v rgba0 rgba1 r h
  cases cpu
  · obtain ⟨q, hq, e⟩ := bind_eq_ok h
    cases e
    obtain ⟨q1, h1, h⟩ := bind_eq_ok hq
    exact encTail420_cx h (vwhile_le h1 (Nat.zero_le _))
  · obtain ⟨q, hq, e⟩ := bind_eq_ok h
    cases e
    obtain ⟨q1, h1, h⟩ := bind_eq_ok hq
    obtain ⟨q2, h2, h⟩ := bind_eq_ok h
    exact encTail420_cx h (vwhile_le h2 (vwhile_le h1 (Nat.zero_le _)))
  · exact absurd rfl hcpu

section
variable {w cn : Nat} {f : RowEncoder} {f2 : RowEncoder420} (E E' : PixelBlocks)

theorem encFullRow_fin (h : Finishes f w) : encFullRow w cn E f = encFullRow w cn E' f := by
  funext y u v rgba
  unfold encFullRow
  cases hh : f y u v rgba with
  | ok r =>
    obtain ⟨a, b, c, cx⟩ := r
    obtain rfl : cx = w := h _ _ _ _ _ hh
    simp only [Outcome.bind_ok, if_true]
  | err e => rfl
  | panic => rfl

theorem encHalvedRow_fin (h : Finishes f w) : encHalvedRow w cn E f = encHalvedRow w cn E' f := by
  funext y u v rgba
  unfold encHalvedRow
  cases hh : f y u v rgba with
  | ok r =>
    obtain ⟨a, b, c, cx⟩ := r
    obtain rfl : cx = w := h _ _ _ _ _ hh
    simp only [Outcome.bind_ok, if_true]
  | err e => rfl
  | panic => rfl

theorem encDoubledRow_fin (h : Finishes2 f2 w) :
    encDoubledRow true w cn E f2 = encDoubledRow true w cn E' f2 := by
  funext y0 y1 u v rgba0 rgba1
  unfold encDoubledRow
  cases hh : f2 y0 y1 u v rgba0 rgba1 with
  | ok r =>
    obtain ⟨a, b, c, d, cx⟩ := r
    obtain rfl : cx = w := h _ _ _ _ _ _ _ hh
    simp only [Outcome.bind_ok, and_self, if_true]
  | err e => rfl
  | panic => rfl

variable {i : Planar} {rgba : Buf} {stride : Nat}

theorem encode444_fin (h : Finishes f i.width) :
    encode444 cn E f i rgba stride = encode444 cn E' f i rgba stride := by
  unfold encode444
  rw [encFullRow_fin E E' h]

theorem encode422_fin (h : Finishes f i.width) :
    encode422 true cn E f i rgba stride = encode422 true cn E' f i rgba stride := by
  unfold encode422
  rw [encHalvedRow_fin E E' h]

theorem encode420_fin (h : Finishes f i.width) (h2 : Finishes2 f2 i.width) :
    encode420 true cn E f f2 i rgba stride = encode420 true cn E' f f2 i rgba stride := by
  unfold encode420 encLast420
  simp only []
  rw [encHalvedRow_fin E E' h, encDoubledRow_fin E E' h2]

end

end Verif.X86
