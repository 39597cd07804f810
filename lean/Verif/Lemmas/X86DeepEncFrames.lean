import Verif.Lemmas.X86DeepEncBodies
import Verif.Lemmas.X86EncHandlers
import Verif.Lemmas.EncodeExact
import Verif.Lemmas.DeepEncode
import Verif.Lemmas.X86Wide
/-! # The x86 encoders of 10- to 16-bit images: rows and frames -/
namespace Verif.X86
open Spec

theorem painted_fill (f : Nat → Nat) (n : Nat) (l : Buf) : painted 1 (fun x => [f x]) n l = fillTo f n l := by
  unfold painted fillTo
  rw [← List.map_eq_flatMap, Nat.mul_one]

/-! ## Blocks -/

/-- Stored chroma of the pixels it covers. -/
def deepBlk (q : DeepConf) (k : Int × Int × Int) (blk : List Buf) : Nat :=
  wordOf q.e q.bp q.d (sumWord q.rg.biasUv k (vecMean (blk.map (red q.ch)))
    (vecMean (blk.map (green q.ch))) (vecMean (blk.map (blue q.ch))))

theorem midWord_row {s : Sampling} {w : Nat} {rgba : Buf} {cn c : Nat} (hc : c < (w - 1) / hdiv s + 1)
    (hw : 0 < w) (f : Buf → Nat) :
    midWord s (fun x => f (extPx w cn rgba x)) c = vecMean ((rowBlock rgba cn w (hdiv s) c).map f) := by
  have sub : ∀ s, s ≠ .yuv444 → c < (w - 1) / 2 + 1 →
      midWord s (fun x => f (extPx w cn rgba x)) c = vecMean ((rowBlock rgba cn w 2 c).map f) := by
    intro s hs hc
    rw [midWord_sub hs]
    by_cases h : 2 * c + 1 < w
    · rw [rowBlock_two h, extPx_lt (by omega), extPx_lt h]
      rfl
    · have h' : 2 * c + 1 = w := by omega
      have e : extPx w cn rgba (2 * c + 1) = extPx w cn rgba (2 * c) := by
        unfold extPx; congr 1; omega
      rw [rowBlock_last h', e, extPx_lt (by omega)]
      simp only [List.map_cons, List.map_nil, vecMean]
      omega
  cases s
  · exact sub .yuv420 (by decide) hc
  · exact sub .yuv422 (by decide) hc
  · simp only [hdiv, Nat.div_one] at hc ⊢
    rw [rowBlock_one (by omega)]
    simp only [midWord, if_true, List.map_cons, List.map_nil, vecMean]
    rw [extPx_lt (by omega)]

theorem midWord_rows {w : Nat} {rgba0 rgba1 : Buf} {cn c : Nat} (hc : c < (w - 1) / 2 + 1)
    (hw : 0 < w) (f : Buf → Nat) :
    midWord .yuv420 (midRow f (extPx w cn rgba0) (extPx w cn rgba1)) c
      = vecMean ((rowBlock rgba0 cn w 2 c ++ rowBlock rgba1 cn w 2 c).map f) := by
  rw [midWord_sub (by decide)]
  simp only [midRow]
  by_cases h : 2 * c + 1 < w
  · rw [rowBlock_two h, rowBlock_two h, extPx_lt (by omega), extPx_lt h, extPx_lt (by omega),
      extPx_lt h]
    simp only [List.cons_append, List.nil_append, List.map_cons, List.map_nil, vecMean]
  · have h' : 2 * c + 1 = w := by omega
    have e : ∀ rgba, extPx w cn rgba (2 * c + 1) = extPx w cn rgba (2 * c) := by
      intro rgba; unfold extPx; congr 1; omega
    rw [rowBlock_last h', rowBlock_last h', e, e, extPx_lt (by omega), extPx_lt (by omega)]
    simp only [List.cons_append, List.nil_append, List.map_cons, List.map_nil, vecMean]
    omega

theorem deepC1_row {s : Sampling} {q : DeepConf} {k : Int × Int × Int} {w : Nat} {rgba : Buf} {c : Nat}
    (hc : c < chromaDone (hdiv s) w) (hw : 0 < w) :
    deepC1 s q k (extPx w q.ch.count rgba) c = deepBlk q k (rowBlock rgba q.ch.count w (hdiv s) c) := by
  have h := chromaDone_le (hdiv_pos s) hw hc
  rw [deepC1, midWord_row h hw, midWord_row h hw, midWord_row h hw, deepBlk]

theorem deepC2_rows {q : DeepConf} {k : Int × Int × Int} {w : Nat} {rgba0 rgba1 : Buf} {c : Nat}
    (hc : c < chromaDone 2 w) (hw : 0 < w) :
    deepC2 q k (extPx w q.ch.count rgba0) (extPx w q.ch.count rgba1) c
      = deepBlk q k (rowBlock rgba0 q.ch.count w 2 c ++ rowBlock rgba1 q.ch.count w 2 c) := by
  have h := chromaDone_le (by decide) hw hc
  rw [deepC2, midWord_rows h hw, midWord_rows h hw, midWord_rows h hw, deepBlk]

/-! ## Row encoders -/

/-- The encoder finishes every row with these values. -/
def RowIs (f : RowEncoder) (s : Sampling) (q : DeepConf) (B w : Nat) : Prop :=
  ∀ y u v rgba, (∀ b ∈ rgba, b < B) → w ≤ y.length → chromaDone (hdiv s) w ≤ u.length →
    chromaDone (hdiv s) w ≤ v.length → w * q.ch.count ≤ rgba.length →
    f y u v rgba = .ok (fillTo (fun x => deepL q (rowPx rgba q.ch.count x)) w y,
      fillTo (fun c => deepBlk q (kCb q.t) (rowBlock rgba q.ch.count w (hdiv s) c)) (chromaDone (hdiv s) w) u,
      fillTo (fun c => deepBlk q (kCr q.t) (rowBlock rgba q.ch.count w (hdiv s) c)) (chromaDone (hdiv s) w) v,
      w)

/-- The same for two rows. -/
def Row2Is (f : RowEncoder420) (mix : Bool) (q : DeepConf) (B w : Nat) : Prop :=
  ∀ y0 y1 u v r0 r1, (∀ b ∈ r0, b < B) → (∀ b ∈ r1, b < B) → w ≤ y0.length → w ≤ y1.length →
    chromaDone 2 w ≤ u.length → chromaDone 2 w ≤ v.length → w * q.ch.count ≤ r0.length →
    w * q.ch.count ≤ r1.length →
    f y0 y1 u v r0 r1 = .ok (fillTo (fun x => deepL q (rowPx r0 q.ch.count x)) w y0,
      fillTo (fun x => deepL1 mix q (rowPx r0 q.ch.count x) (rowPx r1 q.ch.count x)) w y1,
      fillTo (fun c => deepBlk q (kCb q.t) (rowBlock r0 q.ch.count w 2 c ++ rowBlock r1 q.ch.count w 2 c))
        (chromaDone 2 w) u,
      fillTo (fun c => deepBlk q (kCr q.t) (rowBlock r0 q.ch.count w 2 c ++ rowBlock r1 q.ch.count w 2 c))
        (chromaDone 2 w) v, w)

variable {K : DeepKernel} {B : Nat} {P : Nat → Int × Int × Int → Prop} {q : DeepConf}

theorem chromaDone_cover {hd w : Nat} (h : 0 < hd) (hw : 0 < w) : chromaDone hd w = (w - 1) / hd + 1 := by
  unfold chromaDone
  rw [show w + (hd - 1) = w - 1 + hd by omega, Nat.add_div_right _ h]

theorem deepRow_is (hK : KernelOk K B P) (hq : ConfOk q B P) (s : Sampling) {w : Nat} (hw : 0 < w) :
    RowIs (deepRow K s q w) s q B w := by
  intro y u v rgba hB ly lu lv hr
  have ec := chromaDone_cover (hdiv_pos s) hw
  obtain ⟨ux, e⟩ := deepEncRow_ok hK hq s hw (o := (y, u, v)) hB hr ly (by rw [← ec]; exact lu)
    (by rw [← ec]; exact lv)
  simp only [deepRow, e, Outcome.bind_ok, encSt, valL, valC, painted_fill, Outcome.pure_eq]
  rw [fillTo_congr (f := fun x => deepC1 s q (kCb q.t) (extPx w q.ch.count rgba) x)
      (fun c hc => deepC1_row hc hw),
    fillTo_congr (f := fun x => deepC1 s q (kCr q.t) (extPx w q.ch.count rgba) x)
      (fun c hc => deepC1_row hc hw)]

theorem deepRow420_is (hK : KernelOk K B P) (hq : ConfOk q B P) {mix : Bool} (h2 : SecondOk K mix)
    {w : Nat} (hw : 0 < w) : Row2Is (deepRow420 K q w) mix q B w := by
  intro y0 y1 u v r0 r1 hB0 hB1 ly0 ly1 lu lv hr0 hr1
  have ec := chromaDone_cover (hd := 2) (by decide) hw
  obtain ⟨ux, e⟩ := deepEncRow420_ok hK hq h2 hw (o := (y0, y1, u, v)) hB0 hB1 hr0 hr1 ly0 ly1
    (by rw [← ec]; exact lu) (by rw [← ec]; exact lv)
  simp only [deepRow420, e, Outcome.bind_ok, encSt2, valL2, valC2, painted_fill, Outcome.pure_eq]
  rw [fillTo_congr (f := fun x => deepC2 q (kCb q.t) (extPx w q.ch.count r0) (extPx w q.ch.count r1) x)
      (fun c hc => deepC2_rows hc hw),
    fillTo_congr (f := fun x => deepC2 q (kCr q.t) (extPx w q.ch.count r0) (extPx w q.ch.count r1) x)
      (fun c hc => deepC2_rows hc hw)]

/-! ## Frames -/

/-- Luma at `(x, y)`. -/
def imgL (mix : Bool) (s : Sampling) (q : DeepConf) (w : Nat) (rgba : Buf) (stride x y : Nat) : Nat :=
  if vdiv s = 2 ∧ y % 2 = 1 ∧ ¬ (x + 1 = w ∧ w % 2 = 1) then
    deepL1 mix q (pixelAt rgba stride q.ch.count x (y - 1)) (pixelAt rgba stride q.ch.count x y)
  else deepL q (pixelAt rgba stride q.ch.count x y)
/-- Chroma at `(cx, cy)`. -/
def imgC (s : Sampling) (q : DeepConf) (k : Int × Int × Int) (w h : Nat) (rgba : Buf)
    (stride cx cy : Nat) : Nat := deepBlk q k (blk rgba stride q.ch.count w h s cx cy)

variable {E : PixelBlocks} {hd : RowEncoder} {hd2 : RowEncoder420} {i : Planar} {rgba : Buf}
  {stride D : Nat}

theorem fills3 {fa ga fb gb fc gc : Nat → Nat} {n m : Nat} {a b c : Buf} (ha : ∀ x < n, fa x = ga x)
    (hb : ∀ x < m, fb x = gb x) (hc : ∀ x < m, fc x = gc x) :
    (Outcome.ok (fillTo fa n a, fillTo fb m b, fillTo fc m c) : Outcome (Buf × Buf × Buf))
      = .ok (fillTo ga n a, fillTo gb m b, fillTo gc m c) := by
  rw [fillTo_congr ha, fillTo_congr hb, fillTo_congr hc]

theorem fills4 {fa ga fb gb fc gc fd gd : Nat → Nat} {n m : Nat} {a b c d : Buf}
    (ha : ∀ x < n, fa x = ga x) (hb : ∀ x < n, fb x = gb x) (hc : ∀ x < m, fc x = gc x)
    (hd : ∀ x < m, fd x = gd x) :
    (Outcome.ok (fillTo fa n a, fillTo fb n b, fillTo fc m c, fillTo fd m d) :
      Outcome (Buf × Buf × Buf × Buf))
      = .ok (fillTo ga n a, fillTo gb n b, fillTo gc m c, fillTo gd m d) := by
  rw [fillTo_congr ha, fillTo_congr hb, fillTo_congr hc, fillTo_congr hd]

theorem deep444_exact {mix : Bool} (hH : RowIs hd .yuv444 q B i.width) (hst : 0 < stride)
    (hp : PlanarRows i .yuv444 D) (hs : FullRows rgba.length stride i.height)
    (hw : i.width * q.ch.count ≤ stride) (hB : ∀ a ∈ rgba, a < B) :
    ExactPlanes .yuv444 i (imgL mix .yuv444 q i.width rgba stride)
      (imgC .yuv444 q (kCb q.t) i.width i.height rgba stride)
      (imgC .yuv444 q (kCr q.t) i.width i.height rgba stride)
      (encode444 q.ch.count E hd i rgba stride) := by
  refine encode444_exact hst hp hs fun r hr y u v hy hu hv => ?_
  have cr := chunk_length (fullRows_row hs hr)
  have ed : chromaDone (hdiv .yuv444) i.width = i.width := by simp [chromaDone, hdiv]
  have px := pxRow_chunk (rgba := rgba) (r := r) hw
  have e := hH y u v (chunk stride rgba r) (bnd_chunk hB) (by omega) (by rw [ed]; exact hu)
    (by rw [ed]; exact hv) (by omega)
  rw [ed] at e
  unfold encFullRow
  rw [e]
  simp only [Outcome.bind_ok, if_true, Outcome.pure_eq]
  exact fills3 (fun x hx => by rw [px x hx, imgL, if_neg (by simp [vdiv])])
    (fun c _ => congrArg (deepBlk q (kCb q.t)) (px.block1 hr))
    (fun c _ => congrArg (deepBlk q (kCr q.t)) (px.block1 hr))

theorem chromaDone_two (w : Nat) : chromaDone 2 w = ceil2 w := by unfold chromaDone ceil2; omega

theorem deep422_exact {mix : Bool} (hH : RowIs hd .yuv422 q B i.width) (hst : 0 < stride)
    (hp : PlanarRows i .yuv422 D) (hs : FullRows rgba.length stride i.height)
    (hw : i.width * q.ch.count ≤ stride) (hB : ∀ a ∈ rgba, a < B) :
    ExactPlanes .yuv422 i (imgL mix .yuv422 q i.width rgba stride)
      (imgC .yuv422 q (kCb q.t) i.width i.height rgba stride)
      (imgC .yuv422 q (kCr q.t) i.width i.height rgba stride)
      (encode422 false q.ch.count E hd i rgba stride) := by
  refine encode422_exact hst hp hs fun r hr y u v hy hu hv => ?_
  have cr := chunk_length (fullRows_row hs hr)
  have ed : chromaDone (hdiv .yuv422) i.width = ceil2 i.width := chromaDone_two _
  have px := pxRow_chunk (rgba := rgba) (r := r) hw
  have e := hH y u v (chunk stride rgba r) (bnd_chunk hB) (by omega) (by rw [ed]; exact hu)
    (by rw [ed]; exact hv) (by omega)
  rw [ed] at e
  unfold encHalvedRow
  rw [e]
  simp only [Outcome.bind_ok, if_true, Outcome.pure_eq]
  exact fills3 (fun x hx => by rw [px x hx, imgL, if_neg (by simp [vdiv])])
    (fun c _ => congrArg (deepBlk q (kCb q.t)) (px.block1 hr))
    (fun c _ => congrArg (deepBlk q (kCr q.t)) (px.block1 hr))

/-- The scalar code that redoes the last column of two rows of odd width computes the same values. -/
def TailIs (E : PixelBlocks) (q : DeepConf) (B : Nat) : Prop :=
  ∀ a b : Buf, a.length = q.ch.count → b.length = q.ch.count → (∀ s ∈ a, s < B) → (∀ s ∈ b, s < B) →
    E.tail2 a b = .ok (deepL q a, deepL q b, deepBlk q (kCb q.t) [a, b], deepBlk q (kCr q.t) [a, b])

/-- Two rows. -/
theorem deepDoubled {mix : Bool} {w : Nat} (hw : 0 < w) (hH : Row2Is hd2 mix q B w)
    (hT : w % 2 = 1 → TailIs E q B) {y0 y1 u v r0 r1 : Buf} (hy0 : y0.length = w) (hy1 : y1.length = w)
    (hu : u.length = ceil2 w) (hv : v.length = ceil2 w) (hr0 : r0.length = w * q.ch.count)
    (hr1 : r1.length = w * q.ch.count) (hB0 : ∀ s ∈ r0, s < B) (hB1 : ∀ s ∈ r1, s < B) :
    encDoubledRow false w q.ch.count E hd2 y0 y1 u v r0 r1
      = .ok (fillTo (fun x => deepL q (rowPx r0 q.ch.count x)) w y0,
        fillTo (fun x => if ¬ (x + 1 = w ∧ w % 2 = 1) then
          deepL1 mix q (rowPx r0 q.ch.count x) (rowPx r1 q.ch.count x)
          else deepL q (rowPx r1 q.ch.count x)) w y1,
        fillTo (fun c => deepBlk q (kCb q.t) (rowBlock r0 q.ch.count w 2 c ++ rowBlock r1 q.ch.count w 2 c))
          (ceil2 w) u,
        fillTo (fun c => deepBlk q (kCr q.t) (rowBlock r0 q.ch.count w 2 c ++ rowBlock r1 q.ch.count w 2 c))
          (ceil2 w) v) := by
  have hcn := count_pos q.ch
  have hcd := chromaDone_two w
  have e := hH y0 y1 u v r0 r1 hB0 hB1 (by omega) (by omega) (by omega) (by omega) (by omega) (by omega)
  rw [hcd] at e
  unfold encDoubledRow
  rw [e]
  simp only [Outcome.bind_ok]
  rw [if_neg (by decide), fillTo_length (by omega), fillTo_length (by omega), fillTo_length (by omega),
    fillTo_length (by omega), hy0, hy1, hu, hv, hr0, hr1, div_two_cn hcn,
    show min (min (min (min (min (w / 2) (w / 2)) (ceil2 w)) (ceil2 w)) (w / 2)) (w / 2) = w / 2 by
      unfold ceil2; omega, forRange_empty (Nat.le_refl _)]
  simp only [Outcome.bind_ok]
  by_cases hev : w % 2 = 0
  · rw [if_pos hev, Outcome.pure_eq]
    rw [fillTo_congr (f := fun x => deepL1 mix q (rowPx r0 q.ch.count x) (rowPx r1 q.ch.count x))
      (g := fun x => if ¬ (x + 1 = w ∧ w % 2 = 1) then
          deepL1 mix q (rowPx r0 q.ch.count x) (rowPx r1 q.ch.count x)
          else deepL q (rowPx r1 q.ch.count x)) (fun x hx => by rw [if_pos (by omega)])]
  · have hodd : w % 2 = 1 := by omega
    have hw1 : w - 1 < w := by omega
    have hcw : ceil2 w = w / 2 + 1 := by unfold ceil2; omega
    have hb0 := rowBlock_last (row := r0) (cn := q.ch.count) (w := w) (c := w / 2) (by omega)
    have hb1 := rowBlock_last (row := r1) (cn := q.ch.count) (w := w) (c := w / 2) (by omega)
    rw [show 2 * (w / 2) = w - 1 by omega] at hb0 hb1
    rw [if_neg hev, remainder_px hcn hr0 hodd, remainder_px hcn hr1 hodd,
      hT hodd _ _ (rowPx_length (w := w) (by omega) hw1) (rowPx_length (w := w) (by omega) hw1)
        (bnd_rowPx hB0) (bnd_rowPx hB1)]
    simp only [Outcome.bind_ok]
    rw [setLast_fill (n := w - 1) (g := fun x => deepL q (rowPx r0 q.ch.count x)) (by omega) (by omega)
      (fun _ _ => rfl) rfl]
    simp only [Outcome.bind_ok]
    rw [setLast_fill (n := w - 1) (g := fun x => if ¬ (x + 1 = w ∧ w % 2 = 1) then
          deepL1 mix q (rowPx r0 q.ch.count x) (rowPx r1 q.ch.count x)
          else deepL q (rowPx r1 q.ch.count x)) (by omega) (by omega)
      (fun x hx => by rw [if_pos (by omega)]) (by
        rw [if_neg (by omega)])]
    simp only [Outcome.bind_ok]
    rw [setLast_fill (n := w / 2) (g := fun c => deepBlk q (kCb q.t) (rowBlock r0 q.ch.count w 2 c ++
        rowBlock r1 q.ch.count w 2 c)) (by omega) (by omega) (fun _ _ => rfl) (by
        rw [hb0, hb1]; rfl)]
    simp only [Outcome.bind_ok]
    rw [setLast_fill (n := w / 2) (g := fun c => deepBlk q (kCr q.t) (rowBlock r0 q.ch.count w 2 c ++
        rowBlock r1 q.ch.count w 2 c)) (by omega) (by omega) (fun _ _ => rfl) (by
        rw [hb0, hb1]; rfl)]
    simp only [Outcome.bind_ok, Outcome.pure_eq]
    rw [show w - 1 + 1 = w by omega, hcw]

theorem deep420_exact {mix : Bool} (hH : RowIs hd .yuv420 q B i.width)
    (hH2 : Row2Is hd2 mix q B i.width) (hT : i.width % 2 = 1 → TailIs E q B)
    (hp : PlanarRows i .yuv420 D) (hs : FullRows rgba.length stride i.height)
    (hw : i.width * q.ch.count ≤ stride) (hB : ∀ a ∈ rgba, a < B) :
    ExactPlanes .yuv420 i (imgL mix .yuv420 q i.width rgba stride)
      (imgC .yuv420 q (kCb q.t) i.width i.height rgba stride)
      (imgC .yuv420 q (kCr q.t) i.width i.height rgba stride)
      (encode420 false q.ch.count E hd hd2 i rgba stride) := by
  have hwp := hp.wpos
  have hhp := hp.hpos
  refine encode420_exact (count_pos q.ch) hp hs hw (fun r hr y0 y1 u v hy0 hy1 hu hv => ?_)
    (fun hodd y u v hy hu hv => ?_)
  · have cr0 := chunk_length (fullRows_row hs (show 2 * r < i.height by omega))
    have cr1 := chunk_length (fullRows_row hs (show 2 * r + 1 < i.height by omega))
    have px0 := (pxRow_chunk (rgba := rgba) (r := 2 * r) hw).take
    have px1 := (pxRow_chunk (rgba := rgba) (r := 2 * r + 1) hw).take
    rw [deepDoubled hwp hH2 hT hy0 hy1 hu hv (by rw [List.length_take]; omega)
      (by rw [List.length_take]; omega) (bnd_take (bnd_chunk hB)) (bnd_take (bnd_chunk hB))]
    refine fills4 (fun x hx => by rw [px0 x hx, imgL, if_neg (by omega)]) (fun x hx => ?_)
      (fun c _ => congrArg (deepBlk q (kCb q.t)) (px0.block2 px1 (by omega)))
      (fun c _ => congrArg (deepBlk q (kCr q.t)) (px0.block2 px1 (by omega)))
    rw [px0 x hx, px1 x hx, imgL]
    by_cases h : ¬ (x + 1 = i.width ∧ i.width % 2 = 1)
    · rw [if_pos h, if_pos ⟨rfl, by omega, h⟩]; rfl
    · rw [if_neg h, if_neg (fun hh => h hh.2.2)]
  · obtain ⟨hrl, px⟩ := pxRow_remainder hs hw hodd
    have px2 := px
    rw [show i.height - 1 = 2 * (i.height / 2) by omega] at px2
    have ed : chromaDone (hdiv .yuv420) i.width = ceil2 i.width := chromaDone_two _
    have e := hH y u v ((remainder (stride * 2) rgba).take (i.width * q.ch.count))
      (bnd_take (bnd_remainder hB)) (by omega) (by omega) (by omega)
      (by rw [List.length_take]; omega)
    rw [ed] at e
    unfold encHalvedRow
    rw [e]
    simp only [Outcome.bind_ok, if_true, Outcome.pure_eq]
    exact fills3 (fun x hx => by rw [px x hx, imgL, if_neg (by omega)])
      (fun c _ => congrArg (deepBlk q (kCb q.t)) (px2.blockLast (by omega)))
      (fun c _ => congrArg (deepBlk q (kCr q.t)) (px2.blockLast (by omega)))

/-! ## The weights -/

theorem satU16_id {x : Int} (h1 : 0 ≤ x) (h2 : x < 65536) : ((satU16 x : Nat) : Int) = x := by
  unfold satU16; omega

theorem row_bounds {p d : Nat} {k1 k2 k3 bias : Int} (h : DeepRow p d k1 k2 k3 bias) {r g b : Nat}
    (hr : r < 2 ^ d) (hg : g < 2 ^ d) (hb : b < 2 ^ d) :
    0 ≤ exactSum bias (k1, k2, k3) r g b ∧ exactSum bias (k1, k2, k3) r g b ≤ 2147483647 := by
  have cast : ∀ x : Nat, x < 2 ^ d → (x : Int) ≤ 2 ^ d - 1 := by
    intro x hx; have : (x : Int) < 2 ^ d := by exact_mod_cast hx
    omega
  obtain ⟨a1, a2⟩ := corner (k := k1) (cast r hr)
  obtain ⟨a3, a4⟩ := corner (k := k2) (cast g hg)
  obtain ⟨a5, a6⟩ := corner (k := k3) (cast b hb)
  have h3 := h.hi32; have h4 := h.lo
  have hp : (0 : Int) < 2 ^ p := by positivity
  have h4' : 0 ≤ (2 ^ d - 1) * (min k1 0 + min k2 0 + min k3 0) + bias := by
    by_contra hc
    have := Int.ediv_neg_of_neg_of_pos (by omega :
      (2 ^ d - 1) * (min k1 0 + min k2 0 + min k3 0) + bias < 0) hp
    omega
  rw [Int.mul_add, Int.mul_add] at h3 h4'
  unfold exactSum
  dsimp only
  constructor <;> omega

/-- Where the portable arithmetic is safe the vector code computes the same. -/
theorem sumWord_enc {d : Nat} (hd : d ≤ 16) {k1 k2 k3 : Int} {bias : Nat}
    (h : DeepRow 15 d k1 k2 k3 (encodeBias 15 bias)) {r g b : Nat}
    (hr : r < 2 ^ d) (hg : g < 2 ^ d) (hb : b < 2 ^ d) :
    ((sumWord bias (k1, k2, k3) r g b : Nat) : Int) = encVal 15 k1 k2 k3 bias r g b := by
  have hbias : encodeBias 15 bias = deepBias bias := rfl
  obtain ⟨e1, e2⟩ := row_bounds h hr hg hb
  obtain ⟨-, e3, e4⟩ := deepRow_ok h hr hg hb
  have e5 : encPure 15 k1 k2 k3 (encodeBias 15 bias) r g b
      = exactSum (encodeBias 15 bias) (k1, k2, k3) r g b / 2 ^ 15 := rfl
  have e6 : (2 : Int) ^ d ≤ 2 ^ 16 := by exact_mod_cast Nat.pow_le_pow_right (by decide) hd
  have e7 : encVal 15 k1 k2 k3 bias r g b
      = exactSum (encodeBias 15 bias) (k1, k2, k3) r g b / 2 ^ 15 := rfl
  rw [sumWord_eq, ← hbias, asI32_id (by omega) e2, e7]
  rw [e5] at e3 e4
  exact satU16_id e3 (by omega)

theorem sumWord_lt (bias : Nat) (k : Int × Int × Int) (r g b : Nat) : sumWord bias k r g b < 65536 := by
  rw [sumWord_eq]; unfold satU16; omega

theorem coefs16 {d : Nat} (hd : d = 10 ∨ d = 12 ∨ d = 14) (rg : YuvRange) (m : Matrix) :
    let t := computedForward 15 d rg m
    ∀ c ∈ [t.yr, t.yg, t.yb, t.cbR, t.cbG, t.cbB, t.crR, t.crG, t.crB], -32768 ≤ c ∧ c ≤ 32767 := by
  have h : ∀ d ∈ [10, 12, 14], ∀ m ∈ allMatrix, ∀ rg ∈ allRange,
      let t := computedForward 15 d rg m
      ∀ c ∈ [t.yr, t.yg, t.yb, t.cbR, t.cbG, t.cbB, t.crR, t.crG, t.crB], -32768 ≤ c ∧ c ≤ 32767 := by
    decide +kernel
  exact h d (by rcases hd with rfl | rfl | rfl <;> simp) m (mem_allMatrix m) rg (mem_allRange rg)

/-- What an encoder is asked for. -/
abbrev deepConf (e : Endianness) (bp : BytesPacking) (d : Nat) (ch : Channels) (rg : YuvRange)
    (m : Matrix) : DeepConf := ⟨e, bp, d, ch, getYuvRange d rg, computedForward 15 d rg m⟩

theorem notOver {d : Nat} (hd : d ≠ 16) (rg : YuvRange) (m : Matrix) : ¬ Overflows d rg m :=
  fun h => hd h.1

theorem confOk (e : Endianness) (bp : BytesPacking) {d : Nat} (hd : d = 10 ∨ d = 12 ∨ d = 14)
    (ch : Channels) (rg : YuvRange) (m : Matrix) :
    ConfOk (deepConf e bp d ch rg m) (2 ^ d) fun bias k => SumFits (2 ^ d) (deepBias bias) k := by
  have hD : Verif.Deep d := by unfold Verif.Deep; omega
  obtain ⟨h1, h2, h3⟩ := deepRows hD rg m (notOver (by omega) rg m)
  have hc := coefs16 hd rg m
  have lt : ∀ {k1 k2 k3 : Int} {bias : Nat}, DeepRow 15 d k1 k2 k3 (encodeBias 15 bias) → ∀ r g b,
      r < 2 ^ d → g < 2 ^ d → b < 2 ^ d → sumWord bias (k1, k2, k3) r g b < 2 ^ d := by
    intro k1 k2 k3 bias h r g b hr hg hb
    have e1 := sumWord_enc hD.le16 h hr hg hb
    obtain ⟨-, e3, e4⟩ := deepRow_ok h hr hg hb
    have e5 : encPure 15 k1 k2 k3 (encodeBias 15 bias) r g b = encVal 15 k1 k2 k3 bias r g b := rfl
    rw [e5, ← e1] at e4
    exact_mod_cast e4
  exact {
    deep := hD
    pos := by positivity
    le := Nat.pow_le_pow_right (by decide) hD.le16
    luma := ⟨hc _ (by simp [kLuma]), hc _ (by simp [kLuma]), hc _ (by simp [kLuma]),
      fun r g b hr hg hb => row_bounds h1 hr hg hb⟩
    cb := ⟨hc _ (by simp [kCb]), hc _ (by simp [kCb]), hc _ (by simp [kCb]),
      fun r g b hr hg hb => row_bounds h2 hr hg hb⟩
    cr := ⟨hc _ (by simp [kCr]), hc _ (by simp [kCr]), hc _ (by simp [kCr]),
      fun r g b hr hg hb => row_bounds h3 hr hg hb⟩
    luma_lt := lt h1
    cb_lt := lt h2
    cr_lt := lt h3 }

theorem confOk16 (e : Endianness) (bp : BytesPacking) (ch : Channels) (rg : YuvRange) (m : Matrix) :
    ConfOk (deepConf e bp 16 ch rg m) 65536 fun _ _ => True where
  deep := .inr (.inr (.inr rfl))
  pos := by decide
  le := Nat.le_refl _
  luma := trivial
  cb := trivial
  cr := trivial
  luma_lt _ _ _ _ _ _ := sumWord_lt ..
  cb_lt _ _ _ _ _ _ := sumWord_lt ..
  cr_lt _ _ _ _ _ _ := sumWord_lt ..

/-- The scalar arithmetic of the last column. -/
theorem tailIs (e : Endianness) (bp : BytesPacking) {d : Nat} (hd : Verif.Deep d) (ch : Channels)
    (rg : YuvRange) (m : Matrix) (ho : ¬ Overflows d rg m) :
    TailIs (linBlocks (transformInteger e bp d) 1 true 15 (computedForward 15 d rg m)
      (getYuvRange d rg) ch) (deepConf e bp d ch rg m) (2 ^ d) := by
  intro a b la lb ba bb
  rw [(deep_blocks true e bp hd ch rg m ho).tail2 a b la lb ba bb]
  obtain ⟨h1, h2, h3⟩ := deepRows hd rg m ho
  have es := c06_searchForward 15 d (by unfold Prec; omega) hd.depth rg m
  have p2 : 0 < 2 ^ d := by positivity
  have toN : ∀ {x : Nat} {y : Int}, (x : Int) = y → y.toNat = x := by intro x y h; omega
  have mean : ∀ f : Buf → Nat, avgUp ([a, b].map f) = vecMean ([a, b].map f) := by
    intro f
    simp [avgUp, vecMean]
  have meanlt : ∀ f : Buf → Nat, f a < 2 ^ d → f b < 2 ^ d → vecMean ([a, b].map f) < 2 ^ d := by
    intro f ha hb
    simp only [List.map_cons, List.map_nil, vecMean]; omega
  have ra := red_lt' p2 ch ba; have ga := green_lt' p2 ch ba; have la := blue_lt' p2 ch ba
  have rb := red_lt' p2 ch bb; have gb := green_lt' p2 ch bb; have lb := blue_lt' p2 ch bb
  simp only [linFun, mean, lumaVal, cbVal, crVal, es, deepL, lumaWord, deepBlk, kLuma, kCb, kCr]
  rw [if_neg (by decide)]
  simp only [mean]
  rw [toN (sumWord_enc hd.le16 h1 ra ga la), toN (sumWord_enc hd.le16 h1 rb gb lb),
    toN (sumWord_enc hd.le16 h2 (meanlt _ ra rb) (meanlt _ ga gb) (meanlt _ la lb)),
    toN (sumWord_enc hd.le16 h3 (meanlt _ ra rb) (meanlt _ ga gb) (meanlt _ la lb))]

end Verif.X86
