import Verif.Model.NeonYuyRgb
import Verif.Spec.NeonYuyRgb
import Verif.Lemmas.X86YuyRgbRows
import Verif.Lemmas.NeonYuy2
import Verif.Lemmas.Neon
/-! # The NEON decoders from packed 4:2:2 to RGB -/
namespace Verif.Neon
open Spec X86

/-! ## Arithmetic -/

/-- What becomes of a sum: ties up. -/
def yuyUp (x : Int) : Nat := saturate 8 (roundShift (2 ^ 5) 6 x)

theorem yuyUp_at {s : Reg} {k : Nat} {x : Int} (h : s16 s k = satI16 x) :
    qrshrun6 (max16 s X86.zero) k = yuyUp x := by
  have h0 : s16 X86.zero k = 0 := by
    show asI16 ((0 + 256 * 0 : Nat) : Int) = 0; decide
  unfold qrshrun6 max16 yuyUp
  rw [s16_mk16, h, h0]
  unfold satU8 saturate roundShift satI16
  rw [asI16_id (by omega) (by omega)]
  omega

theorem s16_mull8 {y : Reg} {k Y : Nat} {c : Int} (h : y k = Y) (hY : Y < 256) (hc : 0 ≤ c ∧ c ≤ 80) :
    s16 (mull8 y (asU8 c)) k = (Y : Int) * c := by
  have e : ((asU8 c : Nat) : Int) = c := by unfold asU8; omega
  have b := mulc_bounds (x := (Y : Int)) (M := 255) ⟨by omega, by omega⟩ hc (by omega)
  unfold mull8
  rw [s16_mk16, h]
  push_cast
  rw [e]
  exact asI16_id (by omega) (by omega)

/-- The registers hold the components of pixel `k`. -/
theorem yuyColours_at {rg : ChromaRange} (hb : rg.biasUv = 128) {t : InvCoef} (ht : Coef6 t)
    {y u v : Reg} {k : Nat} {Y U V : Nat} (hY : Y < 256) (hU : U < 256) (hV : V < 256)
    (h1 : y k = Y) (h2 : u k = U) (h3 : v k = V) :
    (yuyColours rg t y u v).1 k = yuyUp (yuyR t Y V) ∧
    (yuyColours rg t y u v).2.1 k = yuyUp (yuyG t Y U V) ∧
    (yuyColours rg t y u v).2.2 k = yuyUp (yuyB t Y U) := by
  obtain ⟨t1, t2, t3, t4, t5⟩ := ht
  have e : ∀ c : Int, 0 ≤ c → c ≤ 160 → asI16 c = c := fun c a b => asI16_id (by omega) (by omega)
  have hu : s16 (sub16 (widenLo u) (set1_16 (asI16 rg.biasUv))) k = (U : Int) - 128 := by
    rw [s16_sub, s16_widenLo (by omega), h2, s16_set1, hb,
      show asI16 (asI16 ((128 : Nat) : Int)) = 128 by decide]
    exact asI16_id (by omega) (by omega)
  have hv : s16 (sub16 (widenLo v) (set1_16 (asI16 rg.biasUv))) k = (V : Int) - 128 := by
    rw [s16_sub, s16_widenLo (by omega), h3, s16_set1, hb,
      show asI16 (asI16 ((128 : Nat) : Int)) = 128 by decide]
    exact asI16_id (by omega) (by omega)
  have b1 := mulc_bounds (x := (V : Int) - 128) (M := 128) ⟨by omega, by omega⟩ t2 (by omega)
  have b2 := mulc_bounds (x := (U : Int) - 128) (M := 128) ⟨by omega, by omega⟩ t3 (by omega)
  have b3 := mulc_bounds (x := (V : Int) - 128) (M := 128) ⟨by omega, by omega⟩ t4 (by omega)
  have b4 := mulc_bounds (x := (U : Int) - 128) (M := 128) ⟨by omega, by omega⟩ t5 (by omega)
  have n3 : ((V : Int) - 128) * -t.g1 = -(((V : Int) - 128) * t.g1) := by ring
  have n4 : ((U : Int) - 128) * -t.g2 = -(((U : Int) - 128) * t.g2) := by ring
  have my := s16_mull8 h1 hY t1
  simp only [yuyColours, e t.cr t2.1 t2.2, e t.cb t3.1 t3.2,
    e t.g1 t4.1 (by omega), e t.g2 t5.1 (by omega)]
  have mr := s16_mulc hv (c := t.cr) ⟨by omega, by omega⟩ (by omega) (by omega)
  have mb := s16_mulc hu (c := t.cb) ⟨by omega, by omega⟩ (by omega) (by omega)
  have mg1 := s16_mulc hv (c := -t.g1) ⟨by omega, by omega⟩ (by omega) (by omega)
  have mg2 := s16_mulc hu (c := -t.g2) ⟨by omega, by omega⟩ (by omega) (by omega)
  have mg := s16_adds mg1 mg2
  rw [satI16_id (by omega) (by omega)] at mg
  exact ⟨yuyUp_at (s16_adds my mr), yuyUp_at (s16_adds my mg), yuyUp_at (s16_adds my mb)⟩

/-! ## Pixels -/

/-- A pixel of the vector code. -/
def yuyUpPix (ch : Channels) (t : InvCoef) (Y U V : Nat) : Buf :=
  layout ch (yuyUp (yuyR t Y V)) (yuyUp (yuyG t Y U V)) (yuyUp (yuyB t Y U)) 255

/-- The pixel the vector code writes in column `x`. -/
def yuyRowUp (ty : Yuy2) (ch : Channels) (by' : Nat) (t : InvCoef) (yuy : Buf) (x : Nat) : Buf :=
  yuyUpPix ch t (yuy.getD (lumaAt ty x) 0 - by') (yuy.getD (cbAt ty x) 0) (yuy.getD (crAt ty x) 0)

theorem yuyRowUp_length (ty : Yuy2) (ch : Channels) (b : Nat) (t : InvCoef) (yuy : Buf) (x : Nat) :
    (yuyRowUp ty ch b t yuy x).length = ch.count := layout_length' ..

theorem yuyBlock_eq {rg : ChromaRange} (hb : rg.biasUv = 128) {t : InvCoef} (ht : Coef6 t) (ch : Channels)
    {y u v : Reg} {Y U V : Nat → Nat} (hY : ∀ i, i < 16 → y i = Y i ∧ Y i < 256)
    (hU : ∀ i, i < 16 → u i = U i ∧ U i < 256) (hV : ∀ i, i < 16 → v i = V i ∧ V i < 256)
    (p : Nat) (row : Buf) :
    yuyBlock ch rg t y u v p row
      = put row p ((List.range 16).flatMap fun i => yuyUpPix ch t (Y i) (U i) (V i)) := by
  unfold yuyBlock
  rw [storeRgb_eq]
  refine congrArg (put row p) ?_
  unfold X86.pixels
  apply range_flatMap_congr
  intro i hi
  have k : combine 8 (yuyColours rg t y u v).1
        (yuyColours rg t (upper 8 y) (upper 8 u) (upper 8 v)).1 i = yuyUp (yuyR t (Y i) (V i)) ∧
      combine 8 (yuyColours rg t y u v).2.1
        (yuyColours rg t (upper 8 y) (upper 8 u) (upper 8 v)).2.1 i = yuyUp (yuyG t (Y i) (U i) (V i)) ∧
      combine 8 (yuyColours rg t y u v).2.2
        (yuyColours rg t (upper 8 y) (upper 8 u) (upper 8 v)).2.2 i = yuyUp (yuyB t (Y i) (U i)) := by
    unfold combine
    by_cases h : i < 8
    · rw [if_pos h, if_pos h, if_pos h]
      exact yuyColours_at hb ht (hY i hi).2 (hU i hi).2 (hV i hi).2 (hY i hi).1 (hU i hi).1 (hV i hi).1
    · rw [if_neg h, if_neg h, if_neg h]
      have e : 8 + (i - 8) = i := by omega
      exact yuyColours_at hb ht (hY i hi).2 (hU i hi).2 (hV i hi).2 (by unfold upper; rw [e, (hY i hi).1])
        (by unfold upper; rw [e, (hU i hi).1]) (by unfold upper; rw [e, (hV i hi).1])
  rw [k.1, k.2.1, k.2.2]
  rfl

theorem neonUnpackAt {ty : Yuy2} {n : Nat} {yuy : Buf} {m : Nat} :
    UnpackAt ty (yuyPick ty (deinterleave4 (ld (4 * n) yuy (4 * m)))) n yuy m := by
  apply unpackAt_of
  intro j hj
  simp only [deinterleave4]
  rw [ld_at (by omega), ld_at (by omega), ld_at (by omega), ld_at (by omega), Nat.mul_add]
  exact ⟨rfl, rfl, rfl, rfl⟩

theorem zipBoth_at {n : Nat} (hn : n % 2 = 0) (a b : Reg) (i : Nat) :
    zipBoth n a b i = if i % 2 = 0 then a (i / 2) else b (i / 2) := by
  unfold zipBoth combine zip1 zip2
  by_cases h' : i < n
  · rw [if_pos h']
  · rw [if_neg h', show n / 2 + (i - n) / 2 = i / 2 by omega, show (i - n) % 2 = i % 2 by omega]

section
variable {ty : Yuy2} {ch : Channels} {rg : ChromaRange} (hb : rg.biasUv = 128) (hby : rg.biasY < 256)
  {t : InvCoef} (ht : Coef6 t) {yuy : Buf} (hB : ∀ s ∈ yuy, s < 256)

omit hb ht in
include hby hB in
/-- Luma above its offset, and chroma, of the columns of a step. -/
theorem yuyRegs {n : Nat} (hn : n % 2 = 0) {m : Nat} {q : Reg × Reg × Reg × Reg} (hq : UnpackAt ty q n yuy m)
    {i : Nat} (hi : i < 2 * n) :
    (subsU8 (zipBoth n q.1 q.2.1) (set1_8 rg.biasY) i = yuy.getD (lumaAt ty (2 * m + i)) 0 - rg.biasY ∧
      yuy.getD (lumaAt ty (2 * m + i)) 0 - rg.biasY < 256) ∧
    (zipBoth n q.2.2.1 q.2.2.1 i = yuy.getD (cbAt ty (2 * m + i)) 0 ∧
      yuy.getD (cbAt ty (2 * m + i)) 0 < 256) ∧
    (zipBoth n q.2.2.2 q.2.2.2 i = yuy.getD (crAt ty (2 * m + i)) 0 ∧
      yuy.getD (crAt ty (2 * m + i)) 0 < 256) := by
  have G := getD_byte hB
  have := G (lumaAt ty (2 * m + i))
  have hj := hq (i / 2) (by omega)
  refine ⟨⟨?_, by omega⟩, ⟨?_, G _⟩, ⟨?_, G _⟩⟩
  · rw [subsU8, set1_small hby, zipBoth_at hn _ _ _]
    have := inter_at (f := unY ty yuy) (m := m) (i := i) (k := 0) (a := q.1) (b := q.2.1)
      (by rw [Nat.zero_add]; exact hj.1) (by rw [Nat.zero_add]; exact hj.2.1)
    simp only [Nat.zero_add, Nat.mul_zero] at this
    rw [this]; rfl
  · rw [zipBoth_at hn _ _ _, ite_self, hj.2.2.1, ← unU_cb]
    congr 1; omega
  · rw [zipBoth_at hn _ _ _, ite_self, hj.2.2.2, ← unV_cr]
    congr 1; omega

include hb hby ht hB

theorem yuyRgb32_eq {m : Nat} (lq : 4 * m + 64 ≤ yuy.length) (row : Buf) :
    yuyRgb32 ty ch rg t yuy (2 * m) row
      = put row (2 * m * ch.count) ((List.range 32).flatMap fun j =>
          yuyRowUp ty ch rg.biasY t yuy (2 * m + j)) := by
  have hq := neonUnpackAt (ty := ty) (n := 16) (yuy := yuy) (m := m)
  unfold yuyRgb32
  rw [show 2 * m * 2 = 4 * m by omega, load_ld (by omega)]
  simp only [Outcome.bind_ok]
  rw [show 4 * 16 = 64 by rfl] at hq
  generalize yuyPick ty _ = q at hq ⊢
  have R := fun i (hi : i < 2 * 16) => yuyRegs (rg := rg) hby hB (by omega) hq hi
  rw [show (32 : Nat) = 16 + 16 by rfl, range_add_flatMap, ← put_put _ _
    (2 * m * ch.count + 16 * ch.count) _ _ (by rw [flatMap_length fun j _ => yuyRowUp_length ..])]
  refine bindEq ?_ (fun a => ?_)
  · exact yuyBlock_eq hb ht ch (Y := fun i => yuy.getD (lumaAt ty (2 * m + i)) 0 - rg.biasY)
      (U := fun i => yuy.getD (cbAt ty (2 * m + i)) 0) (V := fun i => yuy.getD (crAt ty (2 * m + i)) 0)
      (fun i hi => (R i (by omega)).1) (fun i hi => (R i (by omega)).2.1) (fun i hi => (R i (by omega)).2.2)
      _ _
  · exact yuyBlock_eq hb ht ch (Y := fun i => yuy.getD (lumaAt ty (2 * m + (16 + i))) 0 - rg.biasY)
      (U := fun i => yuy.getD (cbAt ty (2 * m + (16 + i))) 0)
      (V := fun i => yuy.getD (crAt ty (2 * m + (16 + i))) 0)
      (fun i hi => (R (16 + i) (by omega)).1) (fun i hi => (R (16 + i) (by omega)).2.1)
      (fun i hi => (R (16 + i) (by omega)).2.2) _ _

theorem yuyRgb16_eq {m : Nat} (lq : 4 * m + 32 ≤ yuy.length) (row : Buf) :
    yuyRgb16 ty ch rg t yuy (2 * m) row
      = put row (2 * m * ch.count) ((List.range 16).flatMap fun j =>
          yuyRowUp ty ch rg.biasY t yuy (2 * m + j)) := by
  have hq := neonUnpackAt (ty := ty) (n := 8) (yuy := yuy) (m := m)
  unfold yuyRgb16
  rw [show 2 * m * 2 = 4 * m by omega, load_ld (by omega)]
  simp only [Outcome.bind_ok]
  rw [show 4 * 8 = 32 by rfl] at hq
  generalize yuyPick ty _ = q at hq ⊢
  have R := fun i (hi : i < 2 * 8) => yuyRegs (rg := rg) hby hB (by omega) hq hi
  exact yuyBlock_eq hb ht ch (Y := fun i => yuy.getD (lumaAt ty (2 * m + i)) 0 - rg.biasY)
    (U := fun i => yuy.getD (cbAt ty (2 * m + i)) 0) (V := fun i => yuy.getD (crAt ty (2 * m + i)) 0)
    (fun i hi => (R i (by omega)).1) (fun i hi => (R i (by omega)).2.1) (fun i hi => (R i (by omega)).2.2)
    _ _

/-- What the vector code does to a row. -/
theorem yuyRgbHandler_row {w : Nat} (lq : ceil2 w * 4 ≤ yuy.length) {row : Buf}
    (lr : w * ch.count ≤ row.length) :
    yuyRgbHandler ty ch rg t w yuy row
      = .ok (painted ch.count (yuyRowUp ty ch rg.biasY t yuy) ((w - 1) / 16 * 16) row,
          (w - 1) / 16 * 16) := by
  have lc : ceil2 w = (w + 1) / 2 := rfl
  have e1 : loopEnd 32 w 0 = (w - 1) / 32 * 32 := by unfold loopEnd; omega
  have e2 : loopEnd 16 w ((w - 1) / 32 * 32) = (w - 1) / 16 * 16 := by unfold loopEnd; omega
  unfold yuyRgbHandler
  obtain ⟨cx, ux, a1, a2, _, a4, _⟩ := paintLoopI (I := fun cx _ => cx % 2 = 0) (step := 32) (ustep := 0)
    (width := w) (cn := ch.count) (by omega) (fun cx ux g => by omega)
    (yuyRowUp_length ty ch rg.biasY t yuy) (body := fun cx _ row => yuyRgb32 ty ch rg t yuy cx row)
    lr (cx0 := 0) (ux0 := 0) (by omega)
    (fun cx ux r _ g h => by
      obtain ⟨m, rfl⟩ : ∃ m, cx = 2 * m := ⟨cx / 2, by omega⟩
      exact yuyRgb32_eq hb hby ht hB (by omega) r) (by omega)
  rw [painted_zero, a2, e1] at a1
  rw [a1, Outcome.bind_ok]
  obtain ⟨cx, ux, b1, b2, _, b4, _⟩ := paintLoopI (I := fun cx _ => cx % 2 = 0) (step := 16) (ustep := 0)
    (width := w) (cn := ch.count) (by omega) (fun cx ux g => by omega)
    (yuyRowUp_length ty ch rg.biasY t yuy) (body := fun cx _ row => yuyRgb16 ty ch rg t yuy cx row)
    lr (cx0 := (w - 1) / 32 * 32) (ux0 := 0) (by omega)
    (fun cx ux r _ g h => by
      obtain ⟨m, rfl⟩ : ∃ m, cx = 2 * m := ⟨cx / 2, by omega⟩
      exact yuyRgb16_eq hb hby ht hB (by omega) r) (by omega)
  simp only []
  rw [b1, b2, e2, Outcome.bind_ok]
  rfl
end

/-! ## Frames -/

/-- The vector pixel is the scalar one, with ties up, for the luma raised to its offset. -/
theorem yuyUpPix_eq (ch : Channels) (rg : YuvRange) (t : InvCoef) (Y U V : Nat) :
    yuyUpPix ch t (Y - (getYuvRange 8 rg).biasY) U V
      = fixedPixel (2 ^ 5) 6 8 t ch rg (max Y (getYuvRange 8 rg).biasY) U V := by
  have hb : (getYuvRange 8 rg).biasUv = 128 := by cases rg <;> rfl
  have e : ((Y - (getYuvRange 8 rg).biasY : Nat) : Int)
      = ((max Y (getYuvRange 8 rg).biasY : Nat) : Int) - ((getYuvRange 8 rg).biasY : Nat) := by omega
  have r : yuyR t ((Y - (getYuvRange 8 rg).biasY : Nat) : Int) V
      = linR t (getYuvRange 8 rg).biasY (getYuvRange 8 rg).biasUv (max Y (getYuvRange 8 rg).biasY) V := by
    unfold yuyR linR; rw [e, hb]; push_cast; ring
  have g : yuyG t ((Y - (getYuvRange 8 rg).biasY : Nat) : Int) U V
      = linG t (getYuvRange 8 rg).biasY (getYuvRange 8 rg).biasUv (max Y (getYuvRange 8 rg).biasY) U
        V := by
    unfold yuyG linG; rw [e, hb]; push_cast; ring
  have b : yuyB t ((Y - (getYuvRange 8 rg).biasY : Nat) : Int) U
      = linB t (getYuvRange 8 rg).biasY (getYuvRange 8 rg).biasUv (max Y (getYuvRange 8 rg).biasY) U := by
    unfold yuyB linB; rw [e, hb]; push_cast; ring
  unfold yuyUpPix
  rw [r, g, b]
  rfl

/-- All rows. -/
theorem yuyRgbFrame_neon (t : Yuy2) (ch : Channels) (rg : YuvRange) (m : Matrix) {i : Packed}
    (hi : GoodPacked i 256) {put : Nat → Nat → Nat → Buf → Outcome Buf}
    (hput : PutOk 256 ch.count put (fixedPixel (2 ^ 5 - 1) 6 8 (computedInverse 6 8 rg m) ch rg))
    {rgb : Buf} {stride : Nat} (hw : i.width * ch.count ≤ stride)
    (hd' : FullRows rgb.length stride i.height) :
    FrameOk stride i.height ch.count i.width (fun x y p => p = neonYuyPixel t ch i rg m x y) rgb
      (yuyRgbFrame ch.count t put
        (yuyRgbHandler t ch (getYuvRange 8 rg) (computedInverse 6 8 rg m) i.width) i rgb stride) := by
  have hcn := X86.count_pos ch
  have hst : 0 < stride := Nat.lt_of_lt_of_le (Nat.mul_pos hi.wpos hcn) hw
  have hsp := hi.spos
  have hs := hi.stride'
  have hbu : (getYuvRange 8 rg).biasUv = 128 := by cases rg <;> rfl
  have hby : (getYuvRange 8 rg).biasY < 256 := by cases rg <;> decide
  unfold yuyRgbFrame
  rw [if_neg (by omega), fullRows_div hd', fullRows_div hi.full, Nat.min_self]
  refine eachChunk_rows hst hw (by omega) (by rw [Nat.mul_comm]; exact hd'.1) ?_
  intro r row _ hr hrow
  have cy := chunk_length (fullRows_row hi.full hr)
  have ht : (chunk i.yuyStride i.yuy r).take (yuy2Width i.width) = chunk i.yuyStride i.yuy r :=
    List.take_of_length_le (by rw [yuy2Width_eq]; omega)
  rw [slice_take (by rw [yuy2Width_eq]; omega), ht]
  simp only [Outcome.bind_ok]
  apply rowOk_prefix (by omega)
  have lrow : (row.take (i.width * ch.count)).length = i.width * ch.count := by
    rw [List.length_take]; omega
  have hbnd : ∀ s ∈ chunk i.yuyStride i.yuy r, s < 256 := bnd_chunk hi.bound
  refine RowOk.mono (yuyRgbRow_painted hcn hi.wpos hput (yuyRowUp_length t ch _ _ _)
    (show (i.width - 1) / 16 * 16 ≤ i.width by omega) (by omega)
    (yuyRgbHandler_row hbu hby (coef6 rg m) hbnd (by omega) (by omega)) (by omega) hbnd lrow) ?_
  intro x p hx hp
  have a := lumaAt_lt (t := t) hx
  have b := cbAt_lt (t := t) hx
  have c := crAt_lt (t := t) hx
  rw [hp]
  unfold yuyRowUp neonYuyPixel
  rw [packed_row hi (by omega), packed_row hi (by omega), packed_row hi (by omega), yuyUpPix_eq]
  split <;> rfl

end Verif.Neon
