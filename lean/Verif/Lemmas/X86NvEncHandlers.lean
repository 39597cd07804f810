import Verif.Lemmas.X86NvEncBodies
import Verif.Lemmas.X86EncHandlers
import Verif.Lemmas.NvEncodeFrames
/-! # The semi-planar x86 row encoders meet their contract and finish every row -/
namespace Verif.X86
open Spec

/-- Painted samples, in terms of the row specification. -/
theorem painted_relN {cn : Nat} (hcn : 0 < cn) {pix : Nat → Buf} (hp : ∀ j, (pix j).length = cn)
    {cw : Nat} {row : Buf} (hw : cw * cn ≤ row.length) {R : Nat → Nat → Buf → Prop}
    (hR : ∀ x, x < cw → R x 0 (pix x)) : FrameRel (painted cn pix cw row) row 0 cw 1 cn R := by
  have h := (painted_done (w := cw) (m := 1) hcn hp (R := fun x p => R x 0 p)
    (cx := cw) (row := row) hw (Nat.le_refl _) (.inr rfl) hR).2.2
  exact ⟨h.1, fun x y hx hy => by
    have e : y = 0 := by omega
    subst e; exact h.2.1 x 0 hx hy, h.2.2⟩

theorem orderUV_u (o : NVOrder) (a b : Nat) : (orderUV o a b).getD o.uPos 0 = a := by cases o <;> rfl
theorem orderUV_v (o : NVOrder) (a b : Nat) : (orderUV o a b).getD o.vPos 0 = b := by cases o <;> rfl

theorem rowEncoderNV_ok {cpu : Cpu} (hcpu : cpu ≠ .plain) (o : NVOrder) (s : Sampling) (ch : Channels)
    (rg : YuvRange) (m : Matrix) {w : Nat} (hw : 0 < w) :
    (rowEncoderNV cpu o s ch (getYuvRange 8 rg) (searchForward 13 8 rg m) w).Ok 256 ch.count w (hdiv s)
      o.uPos o.vPos (vecRel (vecFun s ch rg m)) := by
  intro y uv rgba hB ly lu hr
  have key : ∃ ux, (∀ f : Planes2 × Nat × Nat → Outcome (Buf × Buf × Nat), f = (fun r =>
      Outcome.ok (r.1.1, r.1.2, r.2.1)) →
      rowEncoderNV cpu o s ch (getYuvRange 8 rg) (searchForward 13 8 rg m) w y uv rgba
        = f (nvRowDone o s ch (getYuvRange 8 rg) (searchForward 13 8 rg m) w rgba (y, uv) w, w, ux)) := by
    cases cpu
    · obtain ⟨ux, e⟩ := avx2NvEncRow_ok (ch := ch) o (fwdOk_search rg m) s hw (d := (y, uv)) hB hr ly lu
      refine ⟨ux, ?_⟩
      rintro f rfl
      simp only [rowEncoderNV, e]
      rfl
    · obtain ⟨ux, e⟩ := sseNvEncRow_ok (ch := ch) o (fwdOk_search rg m) s hw (d := (y, uv)) hB hr ly lu
      refine ⟨ux, ?_⟩
      rintro f rfl
      simp only [rowEncoderNV, e]
      rfl
    · exact absurd rfl hcpu
  obtain ⟨ux, key⟩ := key
  have hcd : chromaDone (hdiv s) w = (w - 1) / hdiv s + 1 := by
    unfold chromaDone
    have := hdiv_pos s
    rw [show w + (hdiv s - 1) = w - 1 + hdiv s by omega, Nat.add_div_right _ this]
  refine ⟨_, _, w, key _ rfl, ?_, ?_⟩
  · refine painted_done (w := w) (cn := 1) Nat.one_pos (fun _ => rfl) (by omega) (Nat.le_refl _)
      (.inr rfl) fun x hx => ?_
    simp only [List.getD_cons_zero, vecRel, vecFun]
    exact lumaVec_eq ..
  · refine painted_relN (by omega) (fun _ => orderUV_length) (by dsimp only; omega) fun c hc => ?_
    have hc' := chromaDone_le (hdiv_pos s) hw hc
    simp only [rowP, orderUV_u, orderUV_v, vecRel, vecFun]
    constructor
    · rw [chroma1, chWord_row hc' hw, chWord_row hc' hw, chWord_row hc' hw, biasChroma_eq]
      rfl
    · rw [chroma1, chWord_row hc' hw, chWord_row hc' hw, chWord_row hc' hw, biasChroma_eq]
      rfl

theorem rowEncoderNV420_ok {cpu : Cpu} (hcpu : cpu ≠ .plain) (o : NVOrder) (ch : Channels)
    (rg : YuvRange) (m : Matrix) {w : Nat} (hw : 0 < w) :
    (rowEncoderNV420 cpu o ch (getYuvRange 8 rg) (searchForward 13 8 rg m) w).Ok 256 ch.count w
      o.uPos o.vPos (vecRel (vecFun .yuv420 ch rg m)) := by
  intro y0 y1 uv rgba0 rgba1 hB0 hB1 ly0 ly1 lu hr0 hr1
  have key : ∃ ux, (∀ f : Planes3 × Nat × Nat → Outcome (Buf × Buf × Buf × Nat), f = (fun r =>
      Outcome.ok (r.1.1, r.1.2.1, r.1.2.2, r.2.1)) →
      rowEncoderNV420 cpu o ch (getYuvRange 8 rg) (searchForward 13 8 rg m) w y0 y1 uv rgba0 rgba1
        = f (nvRowDone2 o ch (getYuvRange 8 rg) (searchForward 13 8 rg m) w rgba0 rgba1 (y0, y1, uv) w,
            w, ux)) := by
    cases cpu
    · obtain ⟨ux, e⟩ := avx2NvEncRow420_ok (ch := ch) o (fwdOk_search rg m) hw (d := (y0, y1, uv)) hB0
        hB1 hr0 hr1 ly0 ly1 lu
      refine ⟨ux, ?_⟩
      rintro f rfl
      simp only [rowEncoderNV420, e]
      rfl
    · obtain ⟨ux, e⟩ := sseNvEncRow420_ok (ch := ch) o (fwdOk_search rg m) hw (d := (y0, y1, uv)) hB0
        hB1 hr0 hr1 ly0 ly1 lu
      refine ⟨ux, ?_⟩
      rintro f rfl
      simp only [rowEncoderNV420, e]
      rfl
    · exact absurd rfl hcpu
  obtain ⟨ux, key⟩ := key
  have hcd : chromaDone 2 w = (w - 1) / 2 + 1 := by unfold chromaDone; omega
  refine ⟨_, _, _, w, key _ rfl, ?_, ?_, ?_⟩
  · refine painted_done (w := w) (cn := 1) Nat.one_pos (fun _ => rfl) (by omega) (Nat.le_refl _)
      (.inr rfl) fun x hx => ?_
    simp only [List.getD_cons_zero, vecRel, vecFun]
    exact lumaVec_eq ..
  · refine painted_done (w := w) (cn := 1) Nat.one_pos (fun _ => rfl) (by omega) (Nat.le_refl _)
      (.inr rfl) fun x hx => ?_
    simp only [List.getD_cons_zero, vecRel, vecFun]
    exact lumaVec_eq ..
  · refine painted_relN (by omega) (fun _ => orderUV_length) (by dsimp only; omega) fun c hc => ?_
    simp only [rowP2, orderUV_u, orderUV_v, vecRel, vecFun]
    constructor
    · rw [chroma2, chWord_rows (by omega) hw, chWord_rows (by omega) hw, chWord_rows (by omega) hw,
        biasChroma_eq]
      rfl
    · rw [chroma2, chWord_rows (by omega) hw, chWord_rows (by omega) hw, chWord_rows (by omega) hw,
        biasChroma_eq]
      rfl

/-! ## Every row is finished -/

/-- The vector code, where it succeeds, finishes the row. -/
def FinishesNv (f : RowEncoderNV) (w : Nat) : Prop :=
  ∀ y uv rgba r, f y uv rgba = .ok r → r.2.2 = w
/-- The same for two rows. -/
def FinishesNv2 (f : RowEncoderNV420) (w : Nat) : Prop :=
  ∀ y0 y1 uv rgba0 rgba1 r, f y0 y1 uv rgba0 rgba1 = .ok r → r.2.2.2 = w

theorem nvEncTail_cx {n : Nat} {s : Sampling} {cn w : Nat} {f : Buf → Planes2 → Outcome Planes2}
    {rgba : Buf} {d : Planes2} {cx ux : Nat} {r : Planes2 × Nat × Nat}
    (h : nvEncTail n s cn w f rgba d cx ux = .ok r) (hc : cx ≤ w) : r.2.1 = w := by
  unfold nvEncTail at h
  split at h
  · by_cases hn : n < w - cx
    · simp only [if_pos hn] at h; cases h
    · simp only [if_neg hn] at h
      obtain ⟨_, _, h⟩ := bind_eq_ok h
      obtain ⟨_, _, h⟩ := bind_eq_ok h
      obtain ⟨_, _, h⟩ := bind_eq_ok h
      obtain ⟨_, _, h⟩ := bind_eq_ok h
      cases h
      show cx + (w - cx) = w
      omega
  · cases h
    show cx = w
    omega

theorem nvEncTail420_cx {n cn w : Nat} {f : Buf → Buf → Planes3 → Outcome Planes3}
    {rgba0 rgba1 : Buf} {d : Planes3} {cx ux : Nat} {r : Planes3 × Nat × Nat}
    (h : nvEncTail420 n cn w f rgba0 rgba1 d cx ux = .ok r) (hc : cx ≤ w) : r.2.1 = w := by
  unfold nvEncTail420 at h
  split at h
  · by_cases hn : n < w - cx
    · simp only [if_pos hn] at h; cases h
    · simp only [if_neg hn] at h
      obtain ⟨_, _, h⟩ := bind_eq_ok h
      obtain ⟨_, _, h⟩ := bind_eq_ok h
      obtain ⟨_, _, h⟩ := bind_eq_ok h
      obtain ⟨_, _, h⟩ := bind_eq_ok h
      obtain ⟨_, _, h⟩ := bind_eq_ok h
      obtain ⟨_, _, h⟩ := bind_eq_ok h
      cases h
      show cx + (w - cx) = w
      omega
  · cases h
    show cx = w
    omega

theorem rowEncoderNV_finishes {cpu : Cpu} (hcpu : cpu ≠ .plain) (o : NVOrder) (s : Sampling)
    (ch : Channels) (rg : ChromaRange) (t : FwdCoef) (w : Nat) :
    FinishesNv (rowEncoderNV cpu o s ch rg t w) w := by
  intro y uv rgba r h
  cases cpu
  · obtain ⟨q, hq, e⟩ := bind_eq_ok h
    cases e
    obtain ⟨q1, h1, h⟩ := bind_eq_ok hq
    exact nvEncTail_cx h (vwhile_le h1 (Nat.zero_le _))
  · obtain ⟨q, hq, e⟩ := bind_eq_ok h
    cases e
    obtain ⟨q1, h1, h⟩ := bind_eq_ok hq
    exact nvEncTail_cx h (vwhile_le h1 (Nat.zero_le _))
  · exact absurd rfl hcpu

theorem rowEncoderNV420_finishes {cpu : Cpu} (hcpu : cpu ≠ .plain) (o : NVOrder) (ch : Channels)
    (rg : ChromaRange) (t : FwdCoef) (w : Nat) :
    FinishesNv2 (rowEncoderNV420 cpu o ch rg t w) w := by
  intro y0 y1 uv rgba0 rgba1 r h
  cases cpu
  · obtain ⟨q, hq, e⟩ := bind_eq_ok h
    cases e
    obtain ⟨q1, h1, h⟩ := bind_eq_ok hq
    exact nvEncTail420_cx h (vwhile_le h1 (Nat.zero_le _))
  · obtain ⟨q, hq, e⟩ := bind_eq_ok h
    cases e
    obtain ⟨q1, h1, h⟩ := bind_eq_ok hq
    exact nvEncTail420_cx h (vwhile_le h1 (Nat.zero_le _))
  · exact absurd rfl hcpu

section
variable {w cn : Nat} {o : NVOrder} {f : RowEncoderNV} {f2 : RowEncoderNV420} (E E' : PixelBlocks)

theorem nvEncFullRow_fin (h : FinishesNv f w) : nvEncFullRow w cn o E f = nvEncFullRow w cn o E' f := by
  funext y uv rgba
  unfold nvEncFullRow
  cases hh : f y uv rgba with
  | ok r =>
    obtain ⟨a, b, cx⟩ := r
    obtain rfl : cx = w := h _ _ _ _ hh
    simp only [Outcome.bind_ok, if_true]
  | err e => rfl
  | panic => rfl

theorem nvEncHalvedRow_fin (h : FinishesNv f w) :
    nvEncHalvedRow w cn o E f = nvEncHalvedRow w cn o E' f := by
  funext y uv rgba
  unfold nvEncHalvedRow
  cases hh : f y uv rgba with
  | ok r =>
    obtain ⟨a, b, cx⟩ := r
    obtain rfl : cx = w := h _ _ _ _ hh
    simp only [Outcome.bind_ok, if_true]
  | err e => rfl
  | panic => rfl

theorem nvEncDoubledRow_fin (b : Bool) (h : FinishesNv2 f2 w) :
    nvEncDoubledRow b w cn o E f2 = nvEncDoubledRow b w cn o E' f2 := by
  funext y0 y1 uv rgba0 rgba1
  unfold nvEncDoubledRow
  cases hh : f2 y0 y1 uv rgba0 rgba1 with
  | ok r =>
    obtain ⟨a, b, c, cx⟩ := r
    obtain rfl : cx = w := h _ _ _ _ _ _ hh
    simp only [Outcome.bind_ok, if_true]
  | err e => rfl
  | panic => rfl

variable {i : BiPlanar} {rgba : Buf} {stride : Nat}

theorem nvEncode444_fin (h : FinishesNv f i.width) :
    nvEncode444 cn o E f i rgba stride = nvEncode444 cn o E' f i rgba stride := by
  unfold nvEncode444
  rw [nvEncFullRow_fin E E' h]

theorem nvEncode422_fin (h : FinishesNv f i.width) :
    nvEncode422 cn o E f i rgba stride = nvEncode422 cn o E' f i rgba stride := by
  unfold nvEncode422
  rw [nvEncHalvedRow_fin E E' h]

theorem nvEncode420_fin (b : Bool) (h : FinishesNv f i.width) (h2 : FinishesNv2 f2 i.width) :
    nvEncode420 b cn o E f f2 i rgba stride = nvEncode420 b cn o E' f f2 i rgba stride := by
  unfold nvEncode420 nvEncLast420
  simp only []
  rw [nvEncHalvedRow_fin E E' h, nvEncDoubledRow_fin E E' b h2]

end

end Verif.X86
