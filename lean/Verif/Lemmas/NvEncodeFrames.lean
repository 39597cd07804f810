import Verif.Lemmas.EncodeFrames
import Verif.Lemmas.NvDecode
/-! # The loops of the semi-planar encoders -/
namespace Verif
open Spec

/-- The interleaved chroma plane is encoded. -/
def PairsOk (F : EncFun) (R : EncRel) (o : NVOrder) (s : Sampling) (cn w h : Nat) (rgba : Buf)
    (stride st : Nat) (dst out : Buf) : Prop :=
  FrameRel out dst st (s.chromaWidth w) (s.chromaHeight h) 2 fun cx cy p =>
    PairIs R o.uPos o.vPos (lastCol w h s cx cy) (blk rgba stride cn w h s cx cy)
      (F.uv o (lastCol w h s cx cy) (blk rgba stride cn w h s cx cy)) p

/-- What row `cy` of the interleaved plane holds. -/
def PairRow (F : EncFun) (R : EncRel) (o : NVOrder) (s : Sampling) (cn w h : Nat) (rgba : Buf)
    (stride cy : Nat) (f : Nat → Nat) : Prop :=
  ∀ cx, cx < s.chromaWidth w → PairIs R o.uPos o.vPos (lastCol w h s cx cy) (blk rgba stride cn w h s cx cy)
      (F.uv o (lastCol w h s cx cy) (blk rgba stride cn w h s cx cy)) (fillPix 2 f cx)

theorem pairsOk_of_rows {F : EncFun} {R : EncRel} {o : NVOrder} {s : Sampling}
    {cn w h : Nat} {rgba : Buf} {stride st : Nat} {l : Buf} {Fc : Nat → Nat → Nat} (hst : 0 < st)
    (hw : s.chromaWidth w * 2 ≤ st) (hl : FullRows l.length st (s.chromaHeight h))
    (hF : ∀ cy, cy < s.chromaHeight h → PairRow F R o s cn w h rgba stride cy (Fc cy)) :
    PairsOk F R o s cn w h rgba stride st l
      (fillRows st (s.chromaWidth w * 2) Fc (s.chromaHeight h) l) :=
  fillRows_frameRel hst hw (by rw [Nat.mul_comm]; exact hl.1) (fun x y hx hy => hF y hy x hx)

section
variable {F : EncFun} {R : EncRel} {o : NVOrder} {s : Sampling} {row rgba : Buf}
  {stride cn w h r : Nat}

theorem pairRow_one (hv : vdiv s = 1) (px : PxRow row rgba stride cn w r) (hr : r < h)
    {f : Nat → Nat}
    (hf : ∀ c, c < s.chromaWidth w → PairIs R o.uPos o.vPos false (rowBlock row cn w (hdiv s) c)
      (F.uv o false (rowBlock row cn w (hdiv s) c)) (fillPix 2 f c)) :
    PairRow F R o s cn w h rgba stride r f := by
  intro c hc
  have e : blk rgba stride cn w h s c r = rowBlock row cn w (hdiv s) c := by
    unfold blk; rw [hv]; exact (px.block1 hr).symm
  rw [lastCol_false (by omega), e]
  exact hf c hc

theorem pairRow_last (px : PxRow row rgba stride cn w (h - 1)) (hh : h % 2 = 1) {f : Nat → Nat}
    (hf : ∀ c, c < ceil2 w → PairIs R o.uPos o.vPos false (rowBlock row cn w 2 c)
      (F.uv o false (rowBlock row cn w 2 c)) (fillPix 2 f c)) :
    PairRow F R o .yuv420 cn w h rgba stride (h / 2) f := by
  intro c hc
  have e : blk rgba stride cn w h .yuv420 c (h / 2) = rowBlock row cn w 2 c := by
    rw [show h - 1 = 2 * (h / 2) by omega] at px
    exact (px.blockLast (by omega)).symm
  rw [lastCol_false (by omega), e]
  exact hf c hc

theorem pairRow_pair {q : Nat} {row0 : Buf} (px0 : PxRow row0 rgba stride cn w (2 * q))
    (px : PxRow row rgba stride cn w (2 * q + 1)) (hq : 2 * q + 1 < h) {f : Nat → Nat}
    (hf : ∀ c, c < ceil2 w → PairIs R o.uPos o.vPos (decide (2 * c + 1 = w)) (rowBlock row0 cn w 2 c ++ rowBlock row cn w 2 c)
      (F.uv o (decide (2 * c + 1 = w)) (rowBlock row0 cn w 2 c ++ rowBlock row cn w 2 c))
      (fillPix 2 f c)) :
    PairRow F R o .yuv420 cn w h rgba stride q f := by
  intro c hc
  have e : blk rgba stride cn w h .yuv420 c q = rowBlock row0 cn w 2 c ++ rowBlock row cn w 2 c :=
    (px0.block2 px hq).symm
  have e2 : lastCol w h .yuv420 c q = decide (2 * c + 1 = w) := by
    unfold lastCol lastColumn
    apply decide_eq_decide.2
    exact ⟨fun a => a.2.2.1, fun a => ⟨rfl, rfl, a, hq⟩⟩
  rw [e, e2]
  exact hf c hc
end

/-- Both planes are encoded. -/
def NvEncoded (F : EncFun) (R : EncRel) (o : NVOrder) (s : Sampling) (cn : Nat) (i : BiPlanar)
    (rgba : Buf) (stride : Nat) (out : Outcome (Buf × Buf)) : Prop :=
  ∃ y uv, out = .ok (y, uv) ∧
    LumaOk F R s cn i.width i.height rgba stride i.yStride i.y y ∧
    PairsOk F R o s cn i.width i.height rgba stride i.uvStride i.uv uv

section
variable {E : PixelBlocks} {F : EncFun} {R : EncRel} {o : NVOrder} {hd : RowEncoderNV}
  {hd2 : RowEncoderNV420} {i : BiPlanar} {rgba : Buf} {stride cn B D : Nat}

theorem nvEncode444_ok (hcn : 0 < cn) (hE : BlocksOk E B cn F)
    (hH : hd.Ok B cn i.width 1 o.uPos o.vPos R)
    (hp : BiRows i .yuv444 D) (hs : FullRows rgba.length stride i.height)
    (hw : i.width * cn ≤ stride) (hB : ∀ a ∈ rgba, a < B) :
    NvEncoded F R o .yuv444 cn i rgba stride (nvEncode444 cn o E hd i rgba stride) := by
  have hwp := hp.wpos
  have hst : 0 < stride := by
    have := Nat.mul_pos hwp hcn; omega
  have hyw := hp.yw; have huw := hp.uw
  simp only [Sampling.chromaWidth] at huw
  have hur := hp.ur
  simp only [Sampling.chromaHeight] at hur
  unfold nvEncode444
  rw [if_neg (by omega), fullRows_div hp.yr, fullRows_div hur, fullRows_div hs,
    Nat.min_self, Nat.min_self]
  obtain ⟨Fy, Fc, e, hF⟩ := rows2_fill (k := i.height) (wy := i.width) (wc := i.width * 2)
    (y := i.y) (c := i.uv)
    (P := fun r fy fc => LumaRow F R .yuv444 cn i.width rgba stride r fy ∧
      PairRow F R o .yuv444 cn i.width i.height rgba stride r fc)
    (ny := i.yStride) (nc := i.uvStride)
    (by omega) (by omega) hyw huw
    (by rw [Nat.mul_comm]; exact hp.yr.1) (by rw [Nat.mul_comm]; exact hur.1)
    (g := fun r y uv => do
      let ys ← slice y 0 i.width
      let (a, b) ← nvEncFullRow i.width cn o E hd ys uv (chunk stride rgba r)
      return (a ++ y.drop i.width, b)) (by
    intro r hr
    have cy := chunk_length (fullRows_row hp.yr hr)
    have cu := chunk_length (fullRows_row hur hr)
    have cr := chunk_length (fullRows_row hs hr)
    have px := pxRow_chunk (rgba := rgba) (r := r) hw
    obtain ⟨fy, fc, e, h1, h2⟩ := nvEncFullRow_rel hcn hwp hE hH
      (y := (chunk i.yStride i.y r).take i.width) (uv := chunk i.uvStride i.uv r)
      (rgba := chunk stride rgba r)
      (by rw [List.length_take]; omega) (by omega) (by omega) (bnd_chunk hB)
    refine ⟨fy, fc, ?_, lumaRow_one rfl px h1, pairRow_one rfl px hr h2⟩
    rw [slice_take (by omega)]
    simp only [Outcome.bind_ok]
    rw [e]
    simp only [Outcome.bind_ok, Outcome.pure_eq]
    rw [fillTo_append (by omega)])
  exact ⟨_, _, e, lumaOk_of_rows (by omega) hyw hp.yr (fun y hy => (hF y hy).1),
    pairsOk_of_rows (by omega) hp.uw hp.ur (fun y hy => (hF y hy).2)⟩

theorem onRow2_rel (hcn : 0 < cn) {w : Nat} (hw : 0 < w) (hE : BlocksOk E B cn F)
    (hH : hd.Ok B cn w 2 o.uPos o.vPos R) {y uv row : Buf} (hy : w ≤ y.length)
    (hu : ceil2 w * 2 ≤ uv.length) (hr : w * cn ≤ row.length) (hB : ∀ a ∈ row, a < B) :
    ∃ fy fc, onRow2 w (ceil2 w * 2) cn (nvEncHalvedRow w cn o E hd) y uv row
        = .ok (fillTo fy w y, fillTo fc (ceil2 w * 2) uv) ∧
      (∀ x, x < w → fy x = F.y (rowPx (row.take (w * cn)) cn x) ∨
        R.y (rowPx (row.take (w * cn)) cn x) (fy x)) ∧
      (∀ c, c < ceil2 w → PairIs R o.uPos o.vPos false (rowBlock (row.take (w * cn)) cn w 2 c)
        (F.uv o false (rowBlock (row.take (w * cn)) cn w 2 c)) (fillPix 2 fc c)) := by
  obtain ⟨fy, fc, e, h⟩ := nvEncHalvedRow_rel hcn hw hE hH (y := y.take w)
    (uv := uv.take (ceil2 w * 2)) (rgba := row.take (w * cn)) (by rw [List.length_take]; omega)
    (by rw [List.length_take]; omega) (by rw [List.length_take]; omega) (bnd_take hB)
  refine ⟨fy, fc, ?_, h⟩
  unfold onRow2
  rw [slice_take hy, slice_take hu, slice_take hr]
  simp only [Outcome.bind_ok]
  rw [e]
  simp only [Outcome.bind_ok, Outcome.pure_eq]
  rw [fillTo_append hy, fillTo_append hu]

theorem nvEncode422_ok (hcn : 0 < cn) (hE : BlocksOk E B cn F)
    (hH : hd.Ok B cn i.width 2 o.uPos o.vPos R)
    (hp : BiRows i .yuv422 D) (hs : FullRows rgba.length stride i.height)
    (hw : i.width * cn ≤ stride) (hB : ∀ a ∈ rgba, a < B) :
    NvEncoded F R o .yuv422 cn i rgba stride (nvEncode422 cn o E hd i rgba stride) := by
  have hwp := hp.wpos
  have hst : 0 < stride := by
    have := Nat.mul_pos hwp hcn; omega
  have hcp : 0 < ceil2 i.width := ceil2_pos hwp
  have hyw := hp.yw; have huw := hp.uw
  simp only [Sampling.chromaWidth] at huw
  have hur := hp.ur
  simp only [Sampling.chromaHeight] at hur
  unfold nvEncode422
  rw [if_neg (by omega), fullRows_div hp.yr, fullRows_div hur, fullRows_div hs,
    Nat.min_self, Nat.min_self]
  obtain ⟨Fy, Fc, e, hF⟩ := rows2_fill (k := i.height) (wy := i.width) (wc := ceil2 i.width * 2)
    (y := i.y) (c := i.uv)
    (P := fun r fy fc => LumaRow F R .yuv422 cn i.width rgba stride r fy ∧
      PairRow F R o .yuv422 cn i.width i.height rgba stride r fc)
    (ny := i.yStride) (nc := i.uvStride)
    (by omega) (by omega) hyw huw
    (by rw [Nat.mul_comm]; exact hp.yr.1) (by rw [Nat.mul_comm]; exact hur.1)
    (g := fun r y uv => onRow2 i.width (ceil2 i.width * 2) cn (nvEncHalvedRow i.width cn o E hd) y uv
      (chunk stride rgba r)) (by
    intro r hr
    have cy := chunk_length (fullRows_row hp.yr hr)
    have cu := chunk_length (fullRows_row hur hr)
    have cr := chunk_length (fullRows_row hs hr)
    have px := pxRow_chunk (rgba := rgba) (r := r) hw
    obtain ⟨fy, fc, e, h1, h2⟩ := onRow2_rel hcn hwp hE hH
      (y := chunk i.yStride i.y r) (uv := chunk i.uvStride i.uv r) (row := chunk stride rgba r)
      (by omega) (by omega) (by omega) (bnd_chunk hB)
    exact ⟨fy, fc, e, lumaRow_one rfl px.take h1, pairRow_one rfl px.take hr h2⟩)
  exact ⟨_, _, e, lumaOk_of_rows (by omega) hyw hp.yr (fun y hy => (hF y hy).1),
    pairsOk_of_rows (by omega) hp.uw hp.ur (fun y hy => (hF y hy).2)⟩

theorem nvEncode420_ok (hcn : 0 < cn) (hE : BlocksOk E B cn F)
    (hH : hd.Ok B cn i.width 2 o.uPos o.vPos R) (hH2 : hd2.Ok B cn i.width o.uPos o.vPos R)
    (hp : BiRows i .yuv420 D) (hs : FullRows rgba.length stride i.height)
    (hw : i.width * cn ≤ stride) (hB : ∀ a ∈ rgba, a < B) {first : Bool}
    (hf : first = false ∨ i.width % 2 = 0 ∨ i.width = 1) :
    NvEncoded F R o .yuv420 cn i rgba stride (nvEncode420 first cn o E hd hd2 i rgba stride) := by
  have hwp := hp.wpos
  have hhp := hp.hpos
  have hst : 0 < stride := by
    have := Nat.mul_pos hwp hcn; omega
  have hcp : 0 < ceil2 i.width := ceil2_pos hwp
  have hyw := hp.yw; have huw := hp.uw
  simp only [Sampling.chromaWidth] at huw
  have hyr := hp.yr; have hur := hp.ur
  simp only [Sampling.chromaHeight] at hur
  have hk : min (min (i.y.length / (i.yStride * 2)) (i.uv.length / i.uvStride))
      (rgba.length / (stride * 2)) = i.height / 2 := by
    rw [fullRows_div2 hyr, fullRows_div hur, fullRows_div2 hs]
    unfold ceil2; omega
  obtain ⟨Fy, Fc, e, hF⟩ := rows2_fill2 (k := i.height / 2) (wy := i.width) (wc := ceil2 i.width * 2)
    (y := i.y) (c := i.uv)
    (P := fun r fa fb fc => LumaRow F R .yuv420 cn i.width rgba stride (2 * r) fa ∧
      LumaRow F R .yuv420 cn i.width rgba stride (2 * r + 1) fb ∧
      PairRow F R o .yuv420 cn i.width i.height rgba stride r fc)
    (ny := i.yStride) (nc := i.uvStride)
    (by omega) (by omega) hyw huw
    (by
      have h1 := hyr.1
      have h2 : i.height / 2 * (i.yStride * 2) ≤ i.yStride * i.height := by
        rw [Nat.mul_comm i.yStride 2, ← Nat.mul_assoc, Nat.mul_comm i.yStride]
        exact Nat.mul_le_mul_right _ (by omega)
      omega)
    (by
      have h1 := hur.1
      have h2 : i.height / 2 * i.uvStride ≤ i.uvStride * ceil2 i.height := by
        rw [Nat.mul_comm i.uvStride]; exact Nat.mul_le_mul_right _ (by unfold ceil2; omega)
      omega)
    (g := fun r y uv => do
        let y0 := y.take i.yStride
        let y1 := y.drop i.yStride
        let src := chunk (stride * 2) rgba r
        let ys0 ← slice y0 0 i.width
        let ys1 ← slice y1 0 i.width
        let us ← slice uv 0 (ceil2 i.width * 2)
        let rs0 ← slice (src.take stride) 0 (i.width * cn)
        let rs1 ← slice (src.drop stride) 0 (i.width * cn)
        let (a, b, c) ← nvEncDoubledRow first i.width cn o E hd2 ys0 ys1 us rs0 rs1
        return ((a ++ y0.drop i.width) ++ (b ++ y1.drop i.width), c ++ uv.drop (ceil2 i.width * 2)))
    (by
    intro r hr
    have hrc : r < ceil2 i.height := by unfold ceil2; omega
    have cy0 := chunk_length (fullRows_row hyr (show 2 * r < i.height by omega))
    have cy1 := chunk_length (fullRows_row hyr (show 2 * r + 1 < i.height by omega))
    have cu := chunk_length (fullRows_row hur hrc)
    have cr0 := chunk_length (fullRows_row hs (show 2 * r < i.height by omega))
    have cr1 := chunk_length (fullRows_row hs (show 2 * r + 1 < i.height by omega))
    have px0 := (pxRow_chunk (rgba := rgba) (r := 2 * r) hw).take
    have px1 := (pxRow_chunk (rgba := rgba) (r := 2 * r + 1) hw).take
    obtain ⟨fa, fb, fc, e, h0, h1, h2⟩ := nvEncDoubledRow_rel hcn hwp hf hE hH2
      (y0 := (chunk i.yStride i.y (2 * r)).take i.width)
      (y1 := (chunk i.yStride i.y (2 * r + 1)).take i.width)
      (uv := (chunk i.uvStride i.uv r).take (ceil2 i.width * 2))
      (r0 := (chunk stride rgba (2 * r)).take (i.width * cn))
      (r1 := (chunk stride rgba (2 * r + 1)).take (i.width * cn))
      (by rw [List.length_take]; omega) (by rw [List.length_take]; omega)
      (by rw [List.length_take]; omega)
      (by rw [List.length_take]; omega) (by rw [List.length_take]; omega)
      (bnd_take (bnd_chunk hB)) (bnd_take (bnd_chunk hB))
    refine ⟨fa, fb, fc, ?_, lumaRow_even px0 h0, lumaRow_odd px0 px1 h1,
      pairRow_pair px0 px1 (by omega) h2⟩
    simp only [chunk2_take_chunk, chunk2_drop_chunk]
    rw [slice_take (by omega), slice_take (by omega), slice_take (by omega),
      slice_take (by omega), slice_take (by omega)]
    simp only [Outcome.bind_ok]
    rw [e]
    simp only [Outcome.bind_ok, Outcome.pure_eq]
    rw [fillTo_append (by omega), fillTo_append (by omega), fillTo_append (by omega)])
  have lum : ∀ y, y < 2 * (i.height / 2) → LumaRow F R .yuv420 cn i.width rgba stride y (Fy y) := by
    intro y hy
    obtain ⟨a, b, _⟩ := hF (y / 2) (by omega)
    by_cases h2 : y % 2 = 0
    · rw [show 2 * (y / 2) = y by omega] at a; exact a
    · rw [show 2 * (y / 2) + 1 = y by omega] at b; exact b
  unfold nvEncode420
  rw [if_neg (by omega), hk]
  simp only
  rw [e]
  simp only [Outcome.bind_ok]
  by_cases hev : i.height % 2 = 0
  · have hce : ceil2 i.height = i.height / 2 := by unfold ceil2; omega
    rw [if_pos hev]
    refine ⟨_, _, rfl, ?_, ?_⟩
    · rw [show 2 * (i.height / 2) = i.height by omega] at lum ⊢
      exact lumaOk_of_rows (by omega) hyw hp.yr lum
    · rw [← hce] at hF ⊢
      exact pairsOk_of_rows (s := .yuv420) (by omega) hp.uw hp.ur (fun y hy => (hF y hy).2.2)
  · have hce : ceil2 i.height = i.height / 2 + 1 := by unfold ceil2; omega
    have hodd : i.height % 2 = 1 := by omega
    rw [if_neg hev]
    unfold nvEncLast420
    have lu : (fillRows i.uvStride (ceil2 i.width * 2) Fc (i.height / 2) i.uv).length / i.uvStride
        = i.height / 2 + 1 := by rw [fillRows_length, fullRows_div hur, hce]
    obtain ⟨hrl, px⟩ := pxRow_remainder hs hw hodd
    have hyl := (remainder_take hyr hodd hyw).1
    have hur' := fullRows_row hur (show i.height / 2 < ceil2 i.height by omega)
    have cu := chunk_length hur'
    rw [lu, if_neg (by omega)]
    simp only [Nat.add_sub_cancel]
    rw [remainder_fillRows (by omega) (fullRows_div hyr),
      show chunk i.uvStride (fillRows i.uvStride (ceil2 i.width * 2) Fc (i.height / 2) i.uv)
        (i.height / 2) = chunk i.uvStride i.uv (i.height / 2) from
        chunk_fillRows (by omega) (Nat.le_refl _)]
    obtain ⟨fy, fc, e2, h1, h2⟩ := onRow2_rel hcn hwp hE hH
      (y := remainder (i.yStride * 2) i.y) (uv := chunk i.uvStride i.uv (i.height / 2))
      (row := remainder (stride * 2) rgba) hyl (by omega) hrl (bnd_remainder hB)
    rw [e2]
    simp only [Outcome.bind_ok, Outcome.pure_eq]
    rw [fillRows_length, remainder_thenRow (by omega) hyw (fullRows_div hyr) hodd,
      setChunk_thenRow (by omega) huw hur']
    refine ⟨_, _, rfl, lumaOk_of_rows (by omega) hyw hyr ?_, ?_⟩
    · intro y hy
      by_cases hy2 : y < 2 * (i.height / 2)
      · rw [thenRow_lt hy2]; exact lum y hy2
      · rw [thenRow_ge hy2, show y = i.height - 1 by omega]
        exact lumaRow_last px hodd h1
    · rw [← hce]
      refine pairsOk_of_rows (s := .yuv420) (by omega) hp.uw hp.ur ?_
      intro y hy
      simp only [Sampling.chromaHeight] at hy
      by_cases hy2 : y < i.height / 2
      · rw [thenRow_lt hy2]; exact (hF y hy2).2.2
      · rw [thenRow_ge hy2, show y = i.height / 2 by omega]
        exact pairRow_last px hodd h2
end
end Verif
