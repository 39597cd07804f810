import Verif.Model.DeepToRgba
import Verif.Lemmas.Good
import Verif.Lemmas.NvDecode
/-! # The loops of the high-bit-depth decoders -/
namespace Verif
open Spec

/-- Two rows treated one after the other. -/
theorem pairOk_rows {stride cn w : Nat} (hst : 0 < stride) {R0 R1 : Nat → Buf → Prop}
    {g : Nat → Buf → Outcome Buf} {rows : Buf} (hl : rows.length = 2 * stride)
    (h0 : ∀ c, c.length = stride → RowOk cn w R0 c (g 0 c))
    (h1 : ∀ c, c.length = stride → RowOk cn w R1 c (g 1 c)) :
    PairOk stride cn w R0 R1 rows (eachChunk stride 0 2 g rows) := by
  obtain ⟨p0, a1, a2, a3⟩ := h0 (rows.take stride) (by rw [List.length_take]; omega)
  obtain ⟨p1, b1, b2, b3⟩ := h1 (rows.drop stride) (by rw [List.length_drop]; omega)
  refine ⟨p0, p1, a1, b1, a2, b2, ?_⟩
  have e1 : (rows.drop stride).take stride = rows.drop stride :=
    List.take_of_length_le (by rw [List.length_drop]; omega)
  have e2 : (rows.drop stride).drop stride = [] :=
    List.drop_of_length_le (by rw [List.length_drop]; omega)
  simp only [eachChunk, Nat.ne_of_gt hst, if_false, Nat.zero_mul, List.drop_zero, List.take_zero,
    forChunks, a3, Outcome.bind_ok, Nat.zero_add, e1, b3, e2, Outcome.pure_eq, List.append_nil,
    List.nil_append]

theorem chunk2_0 {l : Buf} {n r : Nat} : chunk n (chunk (n * 2) l r) 0 = chunk n l (2 * r) := by
  rw [← chunk2_take]; simp [chunk]
theorem chunk2_1 {l : Buf} {n r : Nat} : chunk n (chunk (n * 2) l r) 1 = chunk n l (2 * r + 1) := by
  rw [← chunk2_drop]
  simp only [chunk, Nat.one_mul, List.drop_take, List.take_take]
  congr 1; omega

theorem two_rows {n k m : Nat} (hn : 0 < n) (hm : 0 < m) (hk : k = n * 2) {j : Nat} (hj : j = m * 2) :
    min (k / n) (j / m) = 2 := by
  rw [hk, hj, Nat.mul_comm n, Nat.mul_comm m, Nat.mul_div_cancel _ hn, Nat.mul_div_cancel _ hm]; rfl

theorem chunk2_length {l : Buf} {stride h r : Nat} (hl : FullRows l.length stride h)
    (hr : r < h / 2) : (chunk (stride * 2) l r).length = stride * 2 := by
  apply chunk_length
  have e1 : r * (stride * 2) + stride * 2 = stride * (2 * r + 2) := by
    rw [Nat.mul_add, ← Nat.mul_assoc, Nat.mul_right_comm, Nat.mul_comm (r * 2), Nat.mul_comm r 2]
  rw [e1]
  exact Nat.le_trans (Nat.mul_le_mul_left _ (by omega)) hl.1

section
variable {guard : Bool} {i : Planar} {B cn stride : Nat} {rgba : Buf}
  {put : Nat → Nat → Nat → Buf → Outcome Buf} {px : Nat → Nat → Nat → Buf}
  {R : Nat → Nat → Nat → Buf → Prop} {hd : RowHandler}

theorem decode420Halved_q (hp : PlanarRows i .yuv420 B) (hcn : 0 < cn) (hput : PutOk B cn put px)
    {Q : Nat → Nat → Nat → Nat → Buf → Prop} (hhd : hd.Fills guard B cn i.width 2 px Q) (hw : i.width * cn ≤ stride)
    (hd' : FullRows rgba.length stride i.height) :
    FrameOk stride i.height cn i.width (PixQ i .yuv420 Q) rgba
      (decode420Halved guard cn put hd i rgba stride) := by
  have hst : 0 < stride := Nat.lt_of_lt_of_le (Nat.mul_pos hp.wpos hcn) hw
  have hyw := hp.yw
  have huw := hp.uw
  have hvw := hp.vw
  simp only [Sampling.chromaWidth] at huw hvw
  have hwp := hp.wpos
  have hhp := hp.hpos
  unfold decode420Halved
  have hk : min4 (rgba.length / (stride * 2)) (i.y.length / (i.yStride * 2))
      (i.u.length / i.uStride) (i.v.length / i.vStride) = i.height / 2 := by
    rw [fullRows_div2 hd', fullRows_div2 hp.yr, fullRows_div hp.ur, fullRows_div hp.vr]
    simp only [min4, Sampling.chromaHeight, ceil2]; omega
  have hcp := chromaHeight_pos (s := .yuv420) hhp
  have hcw : 0 < ceil2 i.width := ceil2_pos hwp
  rw [hk, Nat.mul_comm stride 2, lastChunk_rows (by omega) hcp hp.ur,
    lastChunk_rows (by omega) hcp hp.vr, lastChunk_rows (by omega) hhp hp.yr]
  simp only [Outcome.bind_ok]
  refine frame420_last hst hw hd' ?_ ?_
  · intro r rows hr hrows
    rw [two_rows hst (by omega) (by omega) (chunk2_length hp.yr hr)]
    refine pairOk_rows hst hrows ?_ ?_
    · intro c hc
      rw [chunk2_0]
      exact halvedSlice_q rfl hp hcn hput hhd hw (by omega) (by simp only [vdiv]; omega) hc
    · intro c hc
      rw [chunk2_1]
      exact halvedSlice_q rfl hp hcn hput hhd hw (by omega) (by simp only [vdiv]; omega) hc
  · intro hodd c hc
    have e2 : ceil2 i.height - 1 = (i.height - 1) / 2 := by unfold ceil2; omega
    exact halvedSlice_q rfl hp hcn hput hhd hw (by omega)
      (by simp only [Sampling.chromaHeight, vdiv]; exact e2) hc

theorem decode420Halved_rel (hp : PlanarRows i .yuv420 B) (hcn : 0 < cn) (hput : PutOk B cn put px)
    (hhd : hd.Ok B cn i.width 2 R) (hw : i.width * cn ≤ stride)
    (hd' : FullRows rgba.length stride i.height) :
    FrameOk stride i.height cn i.width (PixRel i .yuv420 px R) rgba
      (decode420Halved guard cn put hd i rgba stride) :=
  decode420Halved_q hp hcn hput (hhd.fills guard px) hw hd'

/-- With the relation of the finished rows. -/
theorem deepFrame_q {s : Sampling} (hp : PlanarRows i s B) (hcn : 0 < cn)
    (hput : PutOk B cn put px) {Q : Nat → Nat → Nat → Nat → Buf → Prop}
    (hhd : hd.Fills guard B cn i.width (hdiv s) px Q) (hw : i.width * cn ≤ stride)
    (hd' : FullRows rgba.length stride i.height) :
    FrameOk stride i.height cn i.width (PixQ i s Q) rgba
      (deepFrame guard cn put hd s i rgba stride) := by
  cases s with
  | yuv444 => exact decode444_q hp hcn hput hhd.guarded hw hd'
  | yuv422 => exact decode422_q hp hcn hput hhd hw hd'
  | yuv420 => exact decode420Halved_q hp hcn hput hhd hw hd'

theorem deepFrame_rel {s : Sampling} (hp : PlanarRows i s B) (hcn : 0 < cn)
    (hput : PutOk B cn put px)
    (hhd : hd.Ok B cn i.width (hdiv s) R) (hw : i.width * cn ≤ stride)
    (hd' : FullRows rgba.length stride i.height) :
    FrameOk stride i.height cn i.width (PixRel i s px R) rgba
      (deepFrame guard cn put hd s i rgba stride) := by
  cases s with
  | yuv444 => exact decode444_rel hp hcn hput hhd hw hd'
  | yuv422 => exact decode422_rel hp hcn hput hhd hw hd'
  | yuv420 => exact decode420Halved_rel hp hcn hput hhd hw hd'
end

section
variable {guard : Bool} {B cn stride : Nat} {o : NVOrder} {i : BiPlanar} {rgba : Buf}
  {put : Nat → Nat → Nat → Buf → Outcome Buf} {px : Nat → Nat → Nat → Buf}
  {R : Nat → Nat → Nat → Buf → Prop} {hd : RowHandlerNV}

theorem nvDecode420Halved_q (hp : BiRows i .yuv420 B) (hcn : 0 < cn)
    (hput : PutOk B cn put px) {Q : Nat → Nat → Nat → Nat → Buf → Prop}
    (hhd : hd.Fills guard B cn i.width 2 o.uPos o.vPos px Q)
    (hw : i.width * cn ≤ stride) (hd' : FullRows rgba.length stride i.height) :
    FrameOk stride i.height cn i.width (NvQ i .yuv420 o Q) rgba
      (nvDecode420Halved guard cn o put hd i rgba stride) := by
  have hst : 0 < stride := Nat.lt_of_lt_of_le (Nat.mul_pos hp.wpos hcn) hw
  have hyw := hp.yw
  have huw := hp.uw
  simp only [Sampling.chromaWidth] at huw
  have hwp := hp.wpos
  have hhp := hp.hpos
  unfold nvDecode420Halved
  have hk : min3 (rgba.length / (stride * 2)) (i.y.length / (i.yStride * 2))
      (i.uv.length / i.uvStride) = i.height / 2 := by
    rw [fullRows_div2 hd', fullRows_div2 hp.yr, fullRows_div hp.ur]
    simp only [min3, Sampling.chromaHeight, ceil2]; omega
  have hcp := chromaHeight_pos (s := .yuv420) hhp
  have hcw : 0 < ceil2 i.width := ceil2_pos hwp
  have hcl : ceil2 i.width = (i.width + 1) / 2 := rfl
  rw [hk, Nat.mul_comm stride 2, lastChunk_rows (by omega) hcp hp.ur]
  simp only [Outcome.bind_ok]
  have hlast : i.height % 2 = 1 → ∀ d : Buf,
      onRemainder (2 * stride) (nvHalvedSlice guard i.width cn o put hd
        (remainder (i.yStride * 2) i.y)
        (chunk i.uvStride i.uv (Sampling.yuv420.chromaHeight i.height - 1))) d
      = onRemainder (2 * stride) (fun r => onPrefix r (i.width * cn)
          (nvHalvedRow guard i.width cn o put hd ((chunk i.yStride i.y (i.height - 1)).take i.width)
        ((chunk i.uvStride i.uv (Sampling.yuv420.chromaHeight i.height - 1)).take
          (ceil2 i.width * 2)))) d := by
    intro hodd d
    congr 1
    funext r
    obtain ⟨q1, q2⟩ := remainder_take hp.yr hodd hyw
    have cu := chunk_length (fullRows_row hp.ur
      (show Sampling.yuv420.chromaHeight i.height - 1 < _ by omega))
    unfold nvHalvedSlice
    rw [slice_take q1, q2, slice_take (by omega)]
    rfl
  have hbody : (fun d => if i.height % 2 = 0 then pure d else
      onRemainder (2 * stride) (nvHalvedSlice guard i.width cn o put hd
        (remainder (i.yStride * 2) i.y)
        (chunk i.uvStride i.uv (Sampling.yuv420.chromaHeight i.height - 1))) d)
      = (fun d => if i.height % 2 = 0 then (pure d : Outcome Buf) else
        onRemainder (2 * stride) (fun r => onPrefix r (i.width * cn)
          (nvHalvedRow guard i.width cn o put hd ((chunk i.yStride i.y (i.height - 1)).take i.width)
        ((chunk i.uvStride i.uv (Sampling.yuv420.chromaHeight i.height - 1)).take
          (ceil2 i.width * 2)))) d) := by
    funext d
    split
    · rfl
    · exact hlast (by omega) d
  rw [hbody]
  refine frame420_rem hst hw hd' ?_ ?_
  · intro r rows hr hrows
    rw [two_rows hst (by omega) (by omega) (chunk2_length hp.yr hr)]
    refine pairOk_rows hst hrows ?_ ?_
    · intro c hc
      rw [chunk2_0]
      exact nvHalvedSlice_q rfl hp hcn hput hhd hw (by omega) (by simp only [vdiv]; omega) hc
    · intro c hc
      rw [chunk2_1]
      exact nvHalvedSlice_q rfl hp hcn hput hhd hw (by omega) (by simp only [vdiv]; omega) hc
  · intro hodd c hc
    have e2 : ceil2 i.height - 1 = (i.height - 1) / 2 := by unfold ceil2; omega
    exact nvHalved_sliced rfl hp hcn hput hhd (by omega)
      (by simp only [Sampling.chromaHeight, vdiv]; exact e2) hc

theorem nvDecode420Halved_rel (hp : BiRows i .yuv420 B) (hcn : 0 < cn)
    (hput : PutOk B cn put px) (hhd : hd.Ok B cn i.width 2 o.uPos o.vPos R)
    (hw : i.width * cn ≤ stride) (hd' : FullRows rgba.length stride i.height) :
    FrameOk stride i.height cn i.width (NvRel i .yuv420 o px R) rgba
      (nvDecode420Halved guard cn o put hd i rgba stride) :=
  nvDecode420Halved_q hp hcn hput (hhd.fills _ px) hw hd'

/-- With the relation of the finished rows. -/
theorem nvDeepFrame_q {s : Sampling} (hp : BiRows i s B) (hcn : 0 < cn)
    (hput : PutOk B cn put px) {Q : Nat → Nat → Nat → Nat → Buf → Prop}
    (hhd : hd.Fills guard B cn i.width (hdiv s) o.uPos o.vPos px Q) (hw : i.width * cn ≤ stride)
    (hd' : FullRows rgba.length stride i.height) :
    FrameOk stride i.height cn i.width (NvQ i s o Q) rgba
      (nvDeepFrame guard cn o put hd s i rgba stride) := by
  cases s with
  | yuv444 => exact nvDecode444_q hp hcn hput hhd.guarded hw hd'
  | yuv422 => exact nvDecode422_q hp hcn hput hhd hw hd'
  | yuv420 => exact nvDecode420Halved_q hp hcn hput hhd hw hd'

theorem nvDeepFrame_rel {s : Sampling} (hp : BiRows i s B) (hcn : 0 < cn)
    (hput : PutOk B cn put px)
    (hhd : hd.Ok B cn i.width (hdiv s) o.uPos o.vPos R) (hw : i.width * cn ≤ stride)
    (hd' : FullRows rgba.length stride i.height) :
    FrameOk stride i.height cn i.width (NvRel i s o px R) rgba
      (nvDeepFrame guard cn o put hd s i rgba stride) := by
  cases s with
  | yuv444 => exact nvDecode444_rel hp hcn hput hhd hw hd'
  | yuv422 => exact nvDecode422_rel hp hcn hput hhd hw hd'
  | yuv420 => exact nvDecode420Halved_rel hp hcn hput hhd hw hd'
end

/-! ## Pixels -/

theorem putDeep_ok {q : Int → Outcome Int} {qp : Int → Int} {cast : Int → Nat} {ne : Nat → Nat}
    {t : InvCoef} {c : ChromaRange} {my mc sl : Int} {B : Nat} (hq : QOk q qp sl)
    (hf : Fits t my mc sl)
    (hn : ∀ y u v, y < B → u < B → v < B → Near (ne y) (ne u) (ne v) c.biasY c.biasUv my mc)
    (ch : Channels) (a : Nat) :
    PutOk B ch.count (putDeep q cast ne t c ch a) (fun y u v =>
      layout ch (cast (qp (sumR t c.biasY c.biasUv (ne y) (ne v))))
        (cast (qp (sumG t c.biasY c.biasUv (ne y) (ne u) (ne v))))
        (cast (qp (sumB t c.biasY c.biasUv (ne y) (ne u)))) a) := by
  refine ⟨fun y u v b hy hu hv hb => ?_, fun _ _ _ => layout_length ..⟩
  unfold putDeep
  rw [decodeRow_ok hq hf (hn y u v hy hu hv)]
  simp only [Outcome.bind_ok, decodePure]
  rw [storePix_ok hb]

theorem swap16_lt {v : Nat} : swap16 v < 65536 := by unfold swap16; omega
theorem toNe_lt (e : Endianness) (bp : BytesPacking) {v msb : Nat} (h : v < 65536) :
    toNe e bp v msb < 65536 := by
  have : fromEndian e v < 65536 := by cases e <;> simp only [fromEndian] <;> first | exact swap16_lt | exact h
  cases bp <;> simp only [toNe]
  · exact Nat.lt_of_le_of_lt (Nat.div_le_self ..) this
  · exact this

theorem near_u16 {d : Nat} (hd : Depth d) (rg : YuvRange) {y u v : Nat} (hy : y < 65536)
    (hu : u < 65536) (hv : v < 65536) :
    Near y u v (getYuvRange d rg).biasY (getYuvRange d rg).biasUv 65536 65536 := by
  rcases hd with rfl | rfl | rfl | rfl | rfl <;> cases rg <;> simp only [getYuvRange] <;>
    constructor <;> omega

end Verif
