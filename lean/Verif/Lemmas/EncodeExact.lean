import Verif.Lemmas.EncodeFrames
/-! # The loops of the planar encoders, with rows that are known exactly -/
namespace Verif
open Spec

/-- The three planes hold `fY`, `fU` and `fV`; nothing else is changed. -/
def ExactPlanes (s : Sampling) (i : Planar) (fY fU fV : Nat → Nat → Nat) (o : Outcome (Buf × Buf × Buf)) :
    Prop :=
  ∃ y u v, o = .ok (y, u, v) ∧
    FrameRel y i.y i.yStride i.width i.height 1 (fun x y p => p = [fY x y]) ∧
    FrameRel u i.u i.uStride (s.chromaWidth i.width) (s.chromaHeight i.height) 1
      (fun x y p => p = [fU x y]) ∧
    FrameRel v i.v i.vStride (s.chromaWidth i.width) (s.chromaHeight i.height) 1
      (fun x y p => p = [fV x y])

theorem frame_of_rows {st n h : Nat} {l : Buf} {F f : Nat → Nat → Nat} (hst : 0 < st) (hn : n ≤ st)
    (hl : FullRows l.length st h) (hF : ∀ y, y < h → ∀ x, x < n → F y x = f x y) :
    FrameRel (fillRows st n F h l) l st n h 1 (fun x y p => p = [f x y]) := by
  have := fillRows_frameRel (w := n) (h := h) (cn := 1) (F := F) (l := l)
    (st := st) hst (by omega) (by rw [Nat.mul_comm]; exact hl.1)
    (R := fun x y p => p = [f x y]) (by
      intro x y hx hy
      rw [fillPix_one]
      simp only [List.cons.injEq, and_true]
      exact hF y hy x hx)
  rw [Nat.mul_one] at this; exact this

section
variable {E : PixelBlocks} {hd : RowEncoder} {hd2 : RowEncoder420} {i : Planar} {rgba : Buf}
  {stride cn D : Nat} {fY fU fV : Nat → Nat → Nat}

theorem encode444_exact (hst : 0 < stride) (hp : PlanarRows i .yuv444 D)
    (hs : FullRows rgba.length stride i.height)
    (hrow : ∀ r, r < i.height → ∀ y u v, y.length = i.width → i.width ≤ u.length → i.width ≤ v.length →
      encFullRow i.width cn E hd y u v (chunk stride rgba r) = .ok (fillTo (fun x => fY x r) i.width y,
        fillTo (fun x => fU x r) i.width u, fillTo (fun x => fV x r) i.width v)) :
    ExactPlanes .yuv444 i fY fU fV (encode444 cn E hd i rgba stride) := by
  have hwp := hp.wpos
  have hyw := hp.yw; have huw := hp.uw; have hvw := hp.vw
  simp only [Sampling.chromaWidth] at huw hvw
  have hur := hp.ur; have hvr := hp.vr
  simp only [Sampling.chromaHeight] at hur hvr
  unfold encode444
  rw [if_neg (by omega), fullRows_div hp.yr, fullRows_div hur, fullRows_div hvr, fullRows_div hs,
    Nat.min_self, Nat.min_self, Nat.min_self]
  obtain ⟨Fy, Fu, Fv, e, hF⟩ := rows3_fill (k := i.height) (wy := i.width) (wu := i.width)
    (wv := i.width) (y := i.y) (u := i.u) (v := i.v)
    (P := fun r fy fu fv => (∀ x, x < i.width → fy x = fY x r) ∧ (∀ x, x < i.width → fu x = fU x r) ∧
      (∀ x, x < i.width → fv x = fV x r))
    (ny := i.yStride) (nu := i.uStride) (nv := i.vStride)
    (by omega) (by omega) (by omega) hyw huw hvw
    (by rw [Nat.mul_comm]; exact hp.yr.1) (by rw [Nat.mul_comm]; exact hur.1)
    (by rw [Nat.mul_comm]; exact hvr.1)
    (g := fun r y u v => do
      let ys ← slice y 0 i.width
      let (a, b, c) ← encFullRow i.width cn E hd ys u v (chunk stride rgba r)
      return (a ++ y.drop i.width, b, c)) (by
    intro r hr
    have cy := chunk_length (fullRows_row hp.yr hr)
    have cu := chunk_length (fullRows_row hur hr)
    have cv := chunk_length (fullRows_row hvr hr)
    have e := hrow r hr ((chunk i.yStride i.y r).take i.width) (chunk i.uStride i.u r)
      (chunk i.vStride i.v r) (by rw [List.length_take]; omega) (by omega) (by omega)
    refine ⟨fun x => fY x r, fun x => fU x r, fun x => fV x r, ?_, fun _ _ => rfl, fun _ _ => rfl,
      fun _ _ => rfl⟩
    rw [slice_take (by omega)]
    simp only [Outcome.bind_ok]
    rw [e]
    simp only [Outcome.bind_ok, Outcome.pure_eq]
    rw [fillTo_append (by omega)])
  exact ⟨_, _, _, e, frame_of_rows (by omega) hyw hp.yr (fun y hy => (hF y hy).1),
    frame_of_rows (by omega) huw hur (fun y hy => (hF y hy).2.1),
    frame_of_rows (by omega) hvw hvr (fun y hy => (hF y hy).2.2)⟩

/-- 4:2:2 with whole rows. -/
theorem encode422_exact (hst : 0 < stride) (hp : PlanarRows i .yuv422 D)
    (hs : FullRows rgba.length stride i.height)
    (hrow : ∀ r, r < i.height → ∀ y u v, i.width ≤ y.length → ceil2 i.width ≤ u.length →
      ceil2 i.width ≤ v.length →
      encHalvedRow i.width cn E hd y u v (chunk stride rgba r) = .ok (fillTo (fun x => fY x r) i.width y,
        fillTo (fun x => fU x r) (ceil2 i.width) u, fillTo (fun x => fV x r) (ceil2 i.width) v)) :
    ExactPlanes .yuv422 i fY fU fV (encode422 false cn E hd i rgba stride) := by
  have hwp := hp.wpos
  have hcp : 0 < ceil2 i.width := ceil2_pos hwp
  have hyw := hp.yw; have huw := hp.uw; have hvw := hp.vw
  simp only [Sampling.chromaWidth] at huw hvw
  have hur := hp.ur; have hvr := hp.vr
  simp only [Sampling.chromaHeight] at hur hvr
  unfold encode422
  rw [if_neg (by omega), fullRows_div hp.yr, fullRows_div hur, fullRows_div hvr, fullRows_div hs,
    Nat.min_self, Nat.min_self, Nat.min_self]
  obtain ⟨Fy, Fu, Fv, e, hF⟩ := rows3_fill (k := i.height) (wy := i.width) (wu := ceil2 i.width)
    (wv := ceil2 i.width) (y := i.y) (u := i.u) (v := i.v)
    (P := fun r fy fu fv => (∀ x, x < i.width → fy x = fY x r) ∧
      (∀ x, x < ceil2 i.width → fu x = fU x r) ∧ (∀ x, x < ceil2 i.width → fv x = fV x r))
    (ny := i.yStride) (nu := i.uStride) (nv := i.vStride)
    (by omega) (by omega) (by omega) hyw huw hvw
    (by rw [Nat.mul_comm]; exact hp.yr.1) (by rw [Nat.mul_comm]; exact hur.1)
    (by rw [Nat.mul_comm]; exact hvr.1)
    (g := fun r y u v =>
      if false = true then
        onRow3 i.width (ceil2 i.width) cn (encHalvedRow i.width cn E hd) y u v
          (chunk stride rgba r)
      else encHalvedRow i.width cn E hd y u v (chunk stride rgba r)) (by
    intro r hr
    have cy := chunk_length (fullRows_row hp.yr hr)
    have cu := chunk_length (fullRows_row hur hr)
    have cv := chunk_length (fullRows_row hvr hr)
    have e := hrow r hr (chunk i.yStride i.y r) (chunk i.uStride i.u r)
      (chunk i.vStride i.v r) (by omega) (by omega) (by omega)
    refine ⟨fun x => fY x r, fun x => fU x r, fun x => fV x r, ?_, fun _ _ => rfl, fun _ _ => rfl,
      fun _ _ => rfl⟩
    rw [if_neg (by decide), e])
  exact ⟨_, _, _, e, frame_of_rows (by omega) hyw hp.yr (fun y hy => (hF y hy).1),
    frame_of_rows (by omega) huw hur (fun y hy => (hF y hy).2.1),
    frame_of_rows (by omega) hvw hvr (fun y hy => (hF y hy).2.2)⟩

theorem encode420_exact (hcn : 0 < cn) {skip : Bool} (hp : PlanarRows i .yuv420 D)
    (hs : FullRows rgba.length stride i.height) (hw : i.width * cn ≤ stride)
    (hrow2 : ∀ r, r < i.height / 2 → ∀ y0 y1 u v, y0.length = i.width → y1.length = i.width →
      u.length = ceil2 i.width → v.length = ceil2 i.width →
      encDoubledRow skip i.width cn E hd2 y0 y1 u v ((chunk stride rgba (2 * r)).take (i.width * cn))
        ((chunk stride rgba (2 * r + 1)).take (i.width * cn))
        = .ok (fillTo (fun x => fY x (2 * r)) i.width y0, fillTo (fun x => fY x (2 * r + 1)) i.width y1,
          fillTo (fun x => fU x r) (ceil2 i.width) u, fillTo (fun x => fV x r) (ceil2 i.width) v))
    (hrow : i.height % 2 = 1 → ∀ y u v, y.length = i.width → u.length = ceil2 i.width →
      v.length = ceil2 i.width →
      encHalvedRow i.width cn E hd y u v ((remainder (stride * 2) rgba).take (i.width * cn))
        = .ok (fillTo (fun x => fY x (i.height - 1)) i.width y,
        fillTo (fun x => fU x (i.height / 2)) (ceil2 i.width) u,
        fillTo (fun x => fV x (i.height / 2)) (ceil2 i.width) v)) :
    ExactPlanes .yuv420 i fY fU fV (encode420 skip cn E hd hd2 i rgba stride) := by
  have hwp := hp.wpos
  have hhp := hp.hpos
  have hst : 0 < stride := by
    have := Nat.mul_pos hwp hcn; omega
  have hcp : 0 < ceil2 i.width := ceil2_pos hwp
  have hyw := hp.yw; have huw := hp.uw; have hvw := hp.vw
  simp only [Sampling.chromaWidth] at huw hvw
  have hyr := hp.yr; have hur := hp.ur; have hvr := hp.vr
  simp only [Sampling.chromaHeight] at hur hvr
  have hk : min (min (min (i.y.length / (i.yStride * 2)) (i.u.length / i.uStride))
      (i.v.length / i.vStride)) (rgba.length / (stride * 2)) = i.height / 2 := by
    rw [fullRows_div2 hyr, fullRows_div hur, fullRows_div hvr, fullRows_div2 hs]
    unfold ceil2; omega
  obtain ⟨Fy, Fu, Fv, e, hF⟩ := rows3_fill2 (k := i.height / 2) (wy := i.width) (wu := ceil2 i.width)
    (wv := ceil2 i.width) (y := i.y) (u := i.u) (v := i.v)
    (P := fun r fa fb fu fv => (∀ x, x < i.width → fa x = fY x (2 * r)) ∧
      (∀ x, x < i.width → fb x = fY x (2 * r + 1)) ∧ (∀ x, x < ceil2 i.width → fu x = fU x r) ∧
      (∀ x, x < ceil2 i.width → fv x = fV x r))
    (ny := i.yStride) (nu := i.uStride) (nv := i.vStride)
    (by omega) (by omega) (by omega) hyw huw hvw
    (by
      have h1 := hyr.1
      have h2 : i.height / 2 * (i.yStride * 2) ≤ i.yStride * i.height := by
        rw [Nat.mul_comm i.yStride 2, ← Nat.mul_assoc, Nat.mul_comm i.yStride]
        exact Nat.mul_le_mul_right _ (by omega)
      omega)
    (by
      have h1 := hur.1
      have h2 : i.height / 2 * i.uStride ≤ i.uStride * ceil2 i.height := by
        rw [Nat.mul_comm i.uStride]; exact Nat.mul_le_mul_right _ (by unfold ceil2; omega)
      omega)
    (by
      have h1 := hvr.1
      have h2 : i.height / 2 * i.vStride ≤ i.vStride * ceil2 i.height := by
        rw [Nat.mul_comm i.vStride]; exact Nat.mul_le_mul_right _ (by unfold ceil2; omega)
      omega)
    (g := fun r y u v => do
        let y0 := y.take i.yStride
        let y1 := y.drop i.yStride
        let src := chunk (stride * 2) rgba r
        let ys0 ← slice y0 0 i.width
        let ys1 ← slice y1 0 i.width
        let us ← slice u 0 (ceil2 i.width)
        let vs ← slice v 0 (ceil2 i.width)
        let rs0 ← slice (src.take stride) 0 (i.width * cn)
        let rs1 ← slice (src.drop stride) 0 (i.width * cn)
        let (a, b, c, d) ← encDoubledRow skip i.width cn E hd2 ys0 ys1 us vs rs0 rs1
        return ((a ++ y0.drop i.width) ++ (b ++ y1.drop i.width), c ++ u.drop (ceil2 i.width),
          d ++ v.drop (ceil2 i.width))) (by
    intro r hr
    have hrc : r < ceil2 i.height := by unfold ceil2; omega
    have cy0 := chunk_length (fullRows_row hyr (show 2 * r < i.height by omega))
    have cy1 := chunk_length (fullRows_row hyr (show 2 * r + 1 < i.height by omega))
    have cu := chunk_length (fullRows_row hur hrc)
    have cv := chunk_length (fullRows_row hvr hrc)
    have cr0 := chunk_length (fullRows_row hs (show 2 * r < i.height by omega))
    have cr1 := chunk_length (fullRows_row hs (show 2 * r + 1 < i.height by omega))
    have e := hrow2 r hr ((chunk i.yStride i.y (2 * r)).take i.width)
      ((chunk i.yStride i.y (2 * r + 1)).take i.width)
      ((chunk i.uStride i.u r).take (ceil2 i.width))
      ((chunk i.vStride i.v r).take (ceil2 i.width))
      (by rw [List.length_take]; omega) (by rw [List.length_take]; omega)
      (by rw [List.length_take]; omega) (by rw [List.length_take]; omega)
    refine ⟨fun x => fY x (2 * r), fun x => fY x (2 * r + 1), fun x => fU x r, fun x => fV x r, ?_,
      fun _ _ => rfl, fun _ _ => rfl, fun _ _ => rfl, fun _ _ => rfl⟩
    simp only [chunk2_take_chunk, chunk2_drop_chunk]
    rw [slice_take (by omega), slice_take (by omega), slice_take (by omega), slice_take (by omega),
      slice_take (by omega), slice_take (by omega)]
    simp only [Outcome.bind_ok]
    rw [e]
    simp only [Outcome.bind_ok, Outcome.pure_eq]
    rw [fillTo_append (by omega), fillTo_append (by omega), fillTo_append (by omega),
      fillTo_append (by omega)])
  have lum : ∀ y, y < 2 * (i.height / 2) → ∀ x, x < i.width → Fy y x = fY x y := by
    intro y hy
    obtain ⟨a, b, _⟩ := hF (y / 2) (by omega)
    by_cases h2 : y % 2 = 0
    · rw [show 2 * (y / 2) = y by omega] at a; exact a
    · rw [show 2 * (y / 2) + 1 = y by omega] at b; exact b
  unfold encode420
  rw [if_neg (by omega), hk]
  simp only
  rw [e]
  simp only [Outcome.bind_ok]
  by_cases hev : i.height % 2 = 0
  · have hce : ceil2 i.height = i.height / 2 := by unfold ceil2; omega
    rw [if_pos hev]
    refine ⟨_, _, _, rfl, ?_, ?_, ?_⟩
    · rw [show 2 * (i.height / 2) = i.height by omega] at lum ⊢
      exact frame_of_rows (by omega) hyw hp.yr lum
    · rw [← hce] at hF ⊢
      exact frame_of_rows (by omega) huw hur (fun y hy => (hF y hy).2.2.1)
    · rw [← hce] at hF ⊢
      exact frame_of_rows (by omega) hvw hvr (fun y hy => (hF y hy).2.2.2)
  · have hce : ceil2 i.height = i.height / 2 + 1 := by unfold ceil2; omega
    have hodd : i.height % 2 = 1 := by omega
    rw [if_neg hev]
    unfold encLast420
    have lu : (fillRows i.uStride (ceil2 i.width) Fu (i.height / 2) i.u).length / i.uStride
        = i.height / 2 + 1 := by rw [fillRows_length, fullRows_div hur, hce]
    have lv : (fillRows i.vStride (ceil2 i.width) Fv (i.height / 2) i.v).length / i.vStride
        = i.height / 2 + 1 := by rw [fillRows_length, fullRows_div hvr, hce]
    obtain ⟨hrl, px⟩ := pxRow_remainder hs hw hodd
    have hyl := (remainder_take hyr hodd hyw).1
    have hur' := fullRows_row hur (show i.height / 2 < ceil2 i.height by omega)
    have hvr' := fullRows_row hvr (show i.height / 2 < ceil2 i.height by omega)
    have cu := chunk_length hur'
    have cv := chunk_length hvr'
    rw [lu, lv, if_neg (by omega)]
    simp only [Nat.add_sub_cancel]
    rw [remainder_fillRows (by omega) (fullRows_div hyr),
      show chunk i.uStride (fillRows i.uStride (ceil2 i.width) Fu (i.height / 2) i.u) (i.height / 2)
        = chunk i.uStride i.u (i.height / 2) from chunk_fillRows (by omega) (Nat.le_refl _),
      show chunk i.vStride (fillRows i.vStride (ceil2 i.width) Fv (i.height / 2) i.v) (i.height / 2)
        = chunk i.vStride i.v (i.height / 2) from chunk_fillRows (by omega) (Nat.le_refl _)]
    have e2 := hrow hodd ((remainder (i.yStride * 2) i.y).take i.width)
      ((chunk i.uStride i.u (i.height / 2)).take (ceil2 i.width))
      ((chunk i.vStride i.v (i.height / 2)).take (ceil2 i.width))
      (by rw [List.length_take]; omega) (by rw [List.length_take]; omega)
      (by rw [List.length_take]; omega)
    unfold onRow3
    rw [slice_take hyl, slice_take (by omega), slice_take (by omega), slice_take hrl]
    simp only [Outcome.bind_ok]
    rw [e2]
    simp only [Outcome.bind_ok, Outcome.pure_eq]
    rw [fillTo_append hyl, fillTo_append (by omega), fillTo_append (by omega)]
    rw [fillRows_length, remainder_thenRow (by omega) hyw (fullRows_div hyr) hodd,
      setChunk_thenRow (by omega) huw hur', setChunk_thenRow (by omega) hvw hvr']
    refine ⟨_, _, _, rfl, frame_of_rows (by omega) hyw hyr ?_, ?_, ?_⟩
    · intro y hy
      by_cases hy2 : y < 2 * (i.height / 2)
      · rw [thenRow_lt hy2]; exact lum y hy2
      · rw [thenRow_ge hy2, show y = i.height - 1 by omega]
        exact fun _ _ => rfl
    · rw [← hce]
      refine frame_of_rows (by omega) huw hur ?_
      intro y hy
      by_cases hy2 : y < i.height / 2
      · rw [thenRow_lt hy2]; exact (hF y hy2).2.2.1
      · rw [thenRow_ge hy2, show y = i.height / 2 by omega]
        exact fun _ _ => rfl
    · rw [← hce]
      refine frame_of_rows (by omega) hvw hvr ?_
      intro y hy
      by_cases hy2 : y < i.height / 2
      · rw [thenRow_lt hy2]; exact (hF y hy2).2.2.2
      · rw [thenRow_ge hy2, show y = i.height / 2 by omega]
        exact fun _ _ => rfl
end
end Verif
