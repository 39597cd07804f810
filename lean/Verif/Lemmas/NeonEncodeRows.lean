import Verif.Lemmas.NeonEncode
import Verif.Props.X86Parts
/-! # Rows of the NEON encoders, and images made of any finished row encoders -/
namespace Verif.Neon
open Spec X86

/-- `nvEncLoop` from wherever the previous loop stopped. -/
theorem nvEncLoopFrom {σ : Type} {step ustep width hd : Nat} (hs : 0 < step) (hus : ustep * hd = step)
    {st : Nat → σ} {body : Nat → Nat → σ → Outcome σ} {cx0 c0 : Nat} (h0 : c0 * hd = cx0)
    (hbody : ∀ cx c, c * hd = cx → cx + step < width →
      body cx (c * 2) (st cx) = .ok (st (cx + step))) (hw : cx0 < width) :
    ∃ cx c, vwhile step (ustep * 2) width body cx0 (c0 * 2) (st cx0) = .ok (st cx, cx, c * 2) ∧
      c * hd = cx ∧ cx < width ∧ width ≤ cx + step := by
  obtain ⟨s, cx, ux, h1, ⟨h2, ⟨c, rfl, h3⟩, h4⟩, h5⟩ := vwhile_ok (width := width) (ustep := ustep * 2)
    hs (body := body) (P := fun cx ux s => s = st cx ∧ (∃ c, ux = c * 2 ∧ c * hd = cx) ∧ cx < width)
    (by
      rintro cx ux s ⟨rfl, ⟨c, rfl, g1⟩, g2⟩ hlt
      refine ⟨_, hbody cx c g1 hlt, rfl, ⟨c + ustep, by rw [Nat.add_mul], ?_⟩, hlt⟩
      rw [Nat.add_mul, g1, hus])
    (cx := cx0) (ux := c0 * 2) (s := st cx0) ⟨rfl, ⟨c0, rfl, h0⟩, hw⟩
  subst h2
  exact ⟨cx, c, h1, h3, h4, h5⟩

section
variable {C C' : Type} {P : Part C} {Q : Part C'} {ch : Channels} {A : Vals}
  {R : C → (Nat → Buf) → Prop} {R' : C' → (Nat → Buf) → Prop} {w : Nat}

theorem rowEncoder2_ok (h : PartOk P ch A R) (h' : PartOk Q ch A R') (s : Sampling) (hw : 0 < w) :
    (rowEncoder2 P Q s ch.count w).Ok 256 ch.count w (hdiv s) (vecRel (valsFun A s)) := by
  intro y u v rgba hB ly lu lv hr
  have hU := rowU_local A s
  have hV := rowV_local A s
  obtain ⟨cx, ux, h1, h2, h3, h4⟩ := encLoop (step := P.n) (ustep := chromaStep s P.n) (hd := hdiv s)
    h.pos (chromaStep_hdiv s h.even)
    (st := encSt (hdiv s) (valL ch A.y rgba) (valC ch (rowU A s) w rgba) (valC ch (rowV A s) w rgba)
      (y, u, v))
    (body := fun cx ux o => P.enc s rgba (cx * ch.count) o cx ux) (cx0 := 0) (ux0 := 0) (Nat.zero_mul _)
    (fun cx ux hux hlt => val_step (Part.step_ok h s) hU hV h.even h.pos hB hr ly lu lv hux hlt) hw
  rw [encSt_zero (hdiv_pos s)] at h1
  obtain ⟨cx2, ux2, g1, g2, g3, g4⟩ := encLoop (step := Q.n) (ustep := chromaStep s Q.n) (hd := hdiv s)
    h'.pos (chromaStep_hdiv s h'.even)
    (st := encSt (hdiv s) (valL ch A.y rgba) (valC ch (rowU A s) w rgba) (valC ch (rowV A s) w rgba)
      (y, u, v))
    (body := fun cx ux o => Q.enc s rgba (cx * ch.count) o cx ux) h2
    (fun cx ux hux hlt => val_step (Part.step_ok h' s) hU hV h'.even h'.pos hB hr ly lu lv hux hlt) h3
  obtain ⟨ux', h5⟩ := valTail_ok (by omega) (Part.step_ok h' s) hU hV h'.even hB hr
    (o := (y, u, v)) ly lu lv g2 g3 g4
  have e : encRow2 P Q s ch.count w rgba (y, u, v) 0 0 = .ok (encSt (hdiv s) (valL ch A.y rgba)
      (valC ch (rowU A s) w rgba) (valC ch (rowV A s) w rgba) (y, u, v) w, w, ux') := by
    rw [encRow2, h1, Outcome.bind_ok]
    simp only []
    rw [g1, Outcome.bind_ok]
    exact h5
  have hcd := chromaDone_all (hdiv_pos s) hw
  refine ⟨_, _, _, w, (by rw [rowEncoder2, e]; rfl), ?_, ?_, ?_⟩
  · exact painted_done (w := w) (cn := 1) Nat.one_pos (fun _ => rfl) (by omega) (Nat.le_refl _) (.inr rfl)
      fun x hx => rfl
  · refine painted_rel (w := w) (fun _ => rfl) (by dsimp only; omega) fun c hc => ?_
    exact rowU_block (chromaDone_le (hdiv_pos s) hw hc) hw
  · refine painted_rel (w := w) (fun _ => rfl) (by dsimp only; omega) fun c hc => ?_
    exact rowV_block (chromaDone_le (hdiv_pos s) hw hc) hw

theorem rowEncoder2x420_ok (h : PartOk P ch A R) (h' : PartOk Q ch A R') (hw : 0 < w) :
    (rowEncoder2x420 P Q ch.count w).Ok 256 ch.count w (vecRel (valsFun A .yuv420)) := by
  intro y0 y1 u v rgba0 rgba1 hB0 hB1 ly0 ly1 lu lv hr0 hr1
  have hU := rowU2_local A
  have hV := rowV2_local A
  have he := h.even
  have he' := h'.even
  have hf := Part.step2_ok h
  have hf' := Part.step2_ok h'
  obtain ⟨cx, ux, h1, h2, h3, h4⟩ := encLoop (step := P.n) (ustep := P.n / 2) (hd := 2) h.pos (by omega)
    (st := encSt2 (valL2 ch (fun a _ => A.y a) rgba0 rgba1) (valL2 ch (fun _ b => A.y b) rgba0 rgba1)
      (valC2 ch (rowU2 A) w rgba0 rgba1) (valC2 ch (rowV2 A) w rgba0 rgba1) (y0, y1, u, v))
    (body := fun cx ux o => P.enc420 rgba0 rgba1 (cx * ch.count) o cx ux) (cx0 := 0) (ux0 := 0) rfl
    (fun cx ux hux hlt => val2_step hf hU hV he hB0 hB1 hr0 hr1 ly0 ly1 lu lv hux hlt) hw
  rw [encSt2_zero] at h1
  obtain ⟨cx2, ux2, g1, g2, g3, g4⟩ := encLoop (step := Q.n) (ustep := Q.n / 2) (hd := 2) h'.pos (by omega)
    (st := encSt2 (valL2 ch (fun a _ => A.y a) rgba0 rgba1) (valL2 ch (fun _ b => A.y b) rgba0 rgba1)
      (valC2 ch (rowU2 A) w rgba0 rgba1) (valC2 ch (rowV2 A) w rgba0 rgba1) (y0, y1, u, v))
    (body := fun cx ux o => Q.enc420 rgba0 rgba1 (cx * ch.count) o cx ux) h2
    (fun cx ux hux hlt => val2_step hf' hU hV he' hB0 hB1 hr0 hr1 ly0 ly1 lu lv hux hlt) h3
  obtain ⟨ux', h5⟩ := valTail420_ok (by omega) hf' hU hV he' hB0 hB1 hr0 hr1 (o := (y0, y1, u, v)) ly0 ly1
    lu lv g2 g3 g4
  have e : encRow2x420 P Q ch.count w rgba0 rgba1 (y0, y1, u, v) 0 0
      = .ok (encSt2 (valL2 ch (fun a _ => A.y a) rgba0 rgba1) (valL2 ch (fun _ b => A.y b) rgba0 rgba1)
      (valC2 ch (rowU2 A) w rgba0 rgba1) (valC2 ch (rowV2 A) w rgba0 rgba1) (y0, y1, u, v) w, w, ux') := by
    rw [encRow2x420, h1, Outcome.bind_ok]
    simp only []
    rw [g1, Outcome.bind_ok]
    exact h5
  have hcd := chromaDone_all (show 0 < 2 by omega) hw
  refine ⟨_, _, _, _, w, (by rw [rowEncoder2x420, e]; rfl), ?_, ?_, ?_, ?_⟩
  · exact painted_done (w := w) (cn := 1) Nat.one_pos (fun _ => rfl) (by omega) (Nat.le_refl _) (.inr rfl)
      fun x hx => rfl
  · exact painted_done (w := w) (cn := 1) Nat.one_pos (fun _ => rfl) (by omega) (Nat.le_refl _) (.inr rfl)
      fun x hx => rfl
  · refine painted_rel (w := w) (fun _ => rfl) (by dsimp only; omega) fun c hc => ?_
    exact rowU2_block (by omega) hw
  · refine painted_rel (w := w) (fun _ => rfl) (by dsimp only; omega) fun c hc => ?_
    exact rowV2_block (by omega) hw

theorem rowEncoderNv2_ok (h : PartOk P ch A R) (h' : PartOk Q ch A R') (o : NVOrder) (s : Sampling)
    (hw : 0 < w) :
    (rowEncoderNv2 P Q o s ch.count w).Ok 256 ch.count w (hdiv s) o.uPos o.vPos
      (vecRel (valsFun A s)) := by
  intro y uv rgba hB ly lu hr
  have hst := Part.stepNv_ok h o s
  have hst' := Part.stepNv_ok h' o s
  obtain ⟨cx, c, h1, h2, h3, h4⟩ := nvEncLoop (step := P.n) (ustep := chromaStep s P.n) (hd := hdiv s)
    h.pos (chromaStep_hdiv s h.even)
    (st := nvSt (hdiv s) (valL ch A.y rgba) (valP o ch (rowU A s) (rowV A s) w rgba) (y, uv))
    (body := fun cx ux d => P.encNv o s rgba (cx * ch.count) d cx ux)
    (fun cx ux hux hlt => stepNv_step hst (rowU_local A s) (rowV_local A s) h.even h.pos hB hr ly lu
      hux hlt) hw
  rw [nvSt_zero (hdiv_pos s)] at h1
  obtain ⟨cx2, c2, g1, g2, g3, g4⟩ := nvEncLoopFrom (step := Q.n) (ustep := chromaStep s Q.n)
    (hd := hdiv s) h'.pos (chromaStep_hdiv s h'.even)
    (st := nvSt (hdiv s) (valL ch A.y rgba) (valP o ch (rowU A s) (rowV A s) w rgba) (y, uv))
    (body := fun cx ux d => Q.encNv o s rgba (cx * ch.count) d cx ux) h2
    (fun cx ux hux hlt => stepNv_step hst' (rowU_local A s) (rowV_local A s) h'.even h'.pos hB hr ly lu
      hux hlt) h3
  obtain ⟨ux', h5⟩ := stepNvTail_ok hst' (rowU_local A s) (rowV_local A s) h'.even hB hr
    (d := (y, uv)) ly lu g2 g3 g4
  have e : encRowNv2 P Q o s ch.count w rgba (y, uv) 0 0 = .ok (nvSt (hdiv s) (valL ch A.y rgba)
      (valP o ch (rowU A s) (rowV A s) w rgba) (y, uv) w, w, ux') := by
    rw [encRowNv2, h1, Outcome.bind_ok]
    simp only []
    rw [g1, Outcome.bind_ok]
    exact h5
  have hcd := chromaDone_all (hdiv_pos s) hw
  refine ⟨_, _, w, (by rw [rowEncoderNv2, e]; rfl), ?_, ?_⟩
  · exact painted_done (w := w) (cn := 1) Nat.one_pos (fun _ => rfl) (by omega) (Nat.le_refl _)
      (.inr rfl) fun x hx => rfl
  · refine painted_relN (by omega) (fun _ => orderUV_length) (by dsimp only; omega) fun c hc => ?_
    have hc' := chromaDone_le (hdiv_pos s) hw hc
    simp only [valP, orderUV_u, orderUV_v, vecRel, valsFun]
    exact ⟨rowU_block hc' hw, rowV_block hc' hw⟩
end

section
variable {C C' : Type} (P : Part C) (Q : Part C')
theorem rowEncoder2_finishes (s : Sampling) (cn w : Nat) : Finishes (rowEncoder2 P Q s cn w) w := by
  intro y u v rgba r h
  obtain ⟨q, hq, e⟩ := bind_eq_ok h
  cases e
  obtain ⟨q1, h1, h⟩ := bind_eq_ok hq
  obtain ⟨q2, h2, h⟩ := bind_eq_ok h
  exact encTail_cx h (vwhile_le h2 (vwhile_le h1 (Nat.zero_le _)))
theorem rowEncoder2x420_finishes (cn w : Nat) : Finishes2 (rowEncoder2x420 P Q cn w) w := by
  intro y0 y1 u v rgba0 rgba1 r h
  obtain ⟨q, hq, e⟩ := bind_eq_ok h
  cases e
  obtain ⟨q1, h1, h⟩ := bind_eq_ok hq
  obtain ⟨q2, h2, h⟩ := bind_eq_ok h
  exact encTail420_cx h (vwhile_le h2 (vwhile_le h1 (Nat.zero_le _)))
theorem rowEncoderNv2_finishes (o : NVOrder) (s : Sampling) (cn w : Nat) :
    FinishesNv (rowEncoderNv2 P Q o s cn w) w := by
  intro y uv rgba r h
  obtain ⟨q, hq, e⟩ := bind_eq_ok h
  cases e
  obtain ⟨q1, h1, h⟩ := bind_eq_ok hq
  obtain ⟨q2, h2, h⟩ := bind_eq_ok h
  exact nvEncTail_cx h (vwhile_le h2 (vwhile_le h1 (Nat.zero_le _)))
end

/-! ## Images -/

theorem rows_encode {ch : Channels} {A : Vals} {E : RowEncoder} {E2 : RowEncoder420} (md : Mode)
    (s : Sampling) (i : Planar) (rgba : Buf) (stride : Nat) (rg : YuvRange) (m : Matrix) (D : Nat)
    (h1 : E.Ok 256 ch.count i.width (hdiv s) (vecRel (valsFun A s))) (f1 : Finishes E i.width)
    (h2 : E2.Ok 256 ch.count i.width (vecRel (valsFun A .yuv420))) (f2 : Finishes2 E2 i.width)
    (hi : GoodPlanar i s D)
    (hsrc : GoodDst rgba.length stride i.width i.height ch.count) (hb : Bytes rgba) :
    ∃ out, rgbxToYuv x64 md ch s E E2 i rgba stride rg m = .ok out ∧
      EncodedBy A.y (A.cb s) (A.cr s) ch.count s rgba stride i out := by
  have hr := hi.rows
  have hcn := count_pos ch
  have fin : ∀ o : Outcome (Buf × Buf × Buf),
      Encoded (valsFun A s) (vecRel (valsFun A s)) s ch.count i rgba stride o →
      ∃ out, (o >>= fun x => pure { i with y := x.1, u := x.2.1, v := x.2.2 }) = Outcome.ok out ∧
      EncodedBy A.y (A.cb s) (A.cr s) ch.count s rgba stride i out := by
    intro o ⟨y, u, v, e, ly, lu, lv⟩
    refine ⟨{ i with y, u, v }, by rw [e]; rfl, ⟨rfl, rfl, rfl, rfl, rfl⟩, ?_, ?_, ?_⟩
    · refine frame_samples hi.y.full hi.y.cols_le ⟨ly.1, fun x y hx hy => ?_, ly.2.2⟩
      have ey : (valsFun A s).lumaAt s rgba stride ch.count x y
          = A.y (pixelAt rgba stride ch.count x y) := by
        unfold EncFun.lumaAt; split <;> rfl
      rcases ly.2.1 x y hx hy with h | h
      · exact .inl (by rw [h, ey])
      · exact .inr h
    · refine frame_samples hi.u.full hi.u.cols_le ?_
      rw [cover_hdiv hi.wpos, cover_vdiv hi.hpos]
      exact ⟨lu.1, fun x y hx hy => lu.2.1 x y hx hy, lu.2.2⟩
    · refine frame_samples hi.v.full hi.v.cols_le ?_
      rw [cover_hdiv hi.wpos, cover_vdiv hi.hpos]
      exact ⟨lv.1, fun x y hx hy => lv.2.1 x y hx hy, lv.2.2⟩
  have hE := vecBlocks_ok 256 ch.count (valsFun A s)
  unfold rgbxToYuv rgbxToYuvImpl
  rw [hsrc.accepted hi.wpos hi.hpos hi.w32 hi.h32 hcn (count_le ch), hi.accepted]
  simp only [Outcome.bind_ok]
  cases s with
  | yuv444 =>
    rw [encode444_fin _ (vecBlocks ch.count (valsFun A .yuv444)) f1]
    exact fin _ (encode444_ok hcn hE h1 hr hsrc.full hsrc.cols_le hb)
  | yuv422 =>
    rw [encode422_fin _ (vecBlocks ch.count (valsFun A .yuv422)) f1]
    exact fin _ (encode422_ok hcn hE h1 hr hsrc.full hsrc.cols_le hb (Or.inl rfl))
  | yuv420 =>
    rw [encode420_fin _ (vecBlocks ch.count (valsFun A .yuv420)) f1 f2]
    exact fin _ (encode420_ok hcn hE h1 h2 hr hsrc.full hsrc.cols_le hb)

theorem rows_nv_encode {ch : Channels} {A : Vals} {E : RowEncoderNV} {E2 : RowEncoderNV420} (md : Mode)
    (o : NVOrder) (s : Sampling) (i : BiPlanar)
    (rgba : Buf) (stride : Nat) (rg : YuvRange) (m : Matrix) (D : Nat)
    (h1 : E.Ok 256 ch.count i.width (hdiv s) o.uPos o.vPos (vecRel (valsFun A s)))
    (f1 : FinishesNv E i.width)
    (h2 : s = .yuv420 → E2.Ok 256 ch.count i.width o.uPos o.vPos (vecRel (valsFun A .yuv420)))
    (f2 : FinishesNv2 E2 i.width) (hi : GoodBiPlanar i s D)
    (hsrc : GoodDst rgba.length stride i.width i.height ch.count) (hb : Bytes rgba) :
    ∃ out, rgbxToNv x64 md o ch s E E2 i rgba stride rg m = .ok out ∧
      NvEncodedBy A.y (A.cb s) (A.cr s) o ch.count s rgba stride i out := by
  have hr := hi.rows
  have hcn := count_pos ch
  have fin : ∀ oc : Outcome (Buf × Buf),
      NvEncoded (valsFun A s) (vecRel (valsFun A s)) o s ch.count i rgba stride oc →
      ∃ out, (oc >>= fun x => pure { i with y := x.1, uv := x.2 }) = Outcome.ok out ∧
      NvEncodedBy A.y (A.cb s) (A.cr s) o ch.count s rgba stride i out := by
    intro oc ⟨y, uv, e, ly, luv⟩
    refine ⟨{ i with y, uv }, by rw [e]; rfl, ⟨rfl, rfl, rfl, rfl⟩, ?_, frameRel_eq ?_⟩
    · refine frame_samples hi.y.full hi.y.cols_le ⟨ly.1, fun x y hx hy => ?_, ly.2.2⟩
      have ey : (valsFun A s).lumaAt s rgba stride ch.count x y
          = A.y (pixelAt rgba stride ch.count x y) := by
        unfold EncFun.lumaAt; split <;> rfl
      rcases ly.2.1 x y hx hy with h | h
      · exact .inl (by rw [h, ey])
      · exact .inr h
    · rw [cover_hdiv hi.wpos, cover_vdiv hi.hpos]
      refine ⟨luv.1, fun x y hx hy => ?_, luv.2.2⟩
      rcases luv.2.1 x y hx hy with h | ⟨h1, h2⟩
      · rw [h]; exact pairOf_eq ..
      · refine pairOf_of_parts ?_ h1 h2
        have l1 := hi.uvLen
        have l2 := hi.uvStride
        rw [cover_hdiv hi.wpos] at l2
        rw [cover_vdiv hi.hpos] at l1
        have l3 : y * i.uvStride + i.uvStride ≤ i.uv.length := by
          rw [l1, ← Nat.succ_mul, Nat.mul_comm]
          exact Nat.mul_le_mul_left _ hy
        have l4 := luv.1
        unfold pixelAt
        rw [List.length_take, List.length_drop, l4]
        have : y * i.uvStride = i.uvStride * y := Nat.mul_comm ..
        omega
  have hE := vecBlocks_ok 256 ch.count (valsFun A s)
  unfold rgbxToNv rgbxToNvImpl
  rw [hsrc.accepted hi.wpos hi.hpos hi.w32 hi.h32 hcn (count_le ch), hi.accepted]
  simp only [Outcome.bind_ok]
  cases s with
  | yuv444 =>
    rw [nvEncode444_fin _ (vecBlocks ch.count (valsFun A .yuv444)) f1]
    exact fin _ (nvEncode444_ok hcn hE h1 hr hsrc.full hsrc.cols_le hb)
  | yuv422 =>
    rw [nvEncode422_fin _ (vecBlocks ch.count (valsFun A .yuv422)) f1]
    exact fin _ (nvEncode422_ok hcn hE h1 hr hsrc.full hsrc.cols_le hb)
  | yuv420 =>
    rw [nvEncode420_fin _ (vecBlocks ch.count (valsFun A .yuv420)) _ f1 f2]
    exact fin _ (nvEncode420_ok hcn hE h1 (h2 rfl) hr hsrc.full hsrc.cols_le hb (Or.inl rfl))

end Verif.Neon
