import Verif.Spec.Sharp
import Verif.Props.PlanarEncode
import Verif.Props.Gray
/-! # The rows of the sharp YUV encoder -/
namespace Verif
open Spec

theorem readRgb_ok3 {ch : Channels} {px : Buf} (h : 3 ≤ px.length) :
    readRgb ch px = .ok ((red ch px : Int), (green ch px : Int), (blue ch px : Int)) := by
  unfold readRgb
  rw [idx_ok (show ch.rOff < px.length by cases ch <;> simp only [Channels.rOff] <;> omega),
    idx_ok (show ch.gOff < px.length by cases ch <;> simp only [Channels.gOff] <;> omega),
    idx_ok (show ch.bOff < px.length by cases ch <;> simp only [Channels.bOff] <;> omega)]
  simp only [Outcome.bind_ok, Outcome.pure_eq]
  cases ch <;> rfl

theorem getD_append_left {a b : Buf} {k : Nat} (h : k < a.length) :
    (a ++ b).getD k 0 = a.getD k 0 := by
  rw [List.getD_eq_getElem?_getD, List.getD_eq_getElem?_getD, List.getElem?_append_left h]

theorem comps_append {ch : Channels} {a b : Buf} (h : 3 ≤ a.length) :
    red ch (a ++ b) = red ch a ∧ green ch (a ++ b) = green ch a ∧ blue ch (a ++ b) = blue ch a := by
  cases ch <;> exact ⟨getD_append_left (by omega), getD_append_left (by omega),
    getD_append_left (by omega)⟩

theorem comps_take {ch : Channels} {a : Buf} :
    red ch (a.take 3) = red ch a ∧ green ch (a.take 3) = green ch a ∧
      blue ch (a.take 3) = blue ch a := by
  cases ch <;> simp [red, green, blue, List.getD_eq_getElem?_getD, List.getElem?_take]

theorem chunk_double {n j : Nat} {l : Buf} :
    chunk (n * 2) l j = chunk n l (2 * j) ++ chunk n l (2 * j + 1) := by
  rw [← chunk2_take_chunk, ← chunk2_drop_chunk, List.take_append_drop]

theorem count_ge3 (ch : Channels) : 3 ≤ ch.count := by cases ch <;> decide

/-- The clamps of the sharp encoder never act: the values are in the nominal range anyway. -/
theorem sharp_arith (rg : YuvRange) (m : Matrix) {r g b : Nat} (hr : r < 256) (hg : g < 256)
    (hb : b < 256) :
    sharpLuma 13 (searchForward 13 8 rg m) (getYuvRange 8 rg) ((r : Int), (g : Int), (b : Int))
      = .ok (low8 (lumaVal 13 8 rg m r g b)) ∧
    sharpChroma 13 (searchForward 13 8 rg m) (getYuvRange 8 rg) ((r : Int), (g : Int), (b : Int))
      = .ok (low8 (cbVal 13 8 rg m r g b), low8 (crVal 13 8 rg m r g b)) := by
  obtain ⟨c1, c2, c3⟩ := encode_closed (p := 13) (by simp [EncPrec]) rg m r g b (by omega) (by omega)
    (by omega)
  obtain ⟨y, cb, cr, e1, e2, e3, ⟨y1, y2⟩, ⟨b1, b2⟩, ⟨r1, r2⟩, a1, a2, a3⟩ :=
    c09_encode_in_nominal_range 13 (Or.inl rfl) rg m r g b (by omega) (by omega) (by omega)
  have f1 : lumaVal 13 8 rg m r g b = y := by
    rw [c1] at e1; injection e1 with e1
  have f2 : cbVal 13 8 rg m r g b = cb := by
    rw [c2] at e2; injection e2 with e2
  have f3 : crVal 13 8 rg m r g b = cr := by
    rw [c3] at e3; injection e3 with e3
  have hc : ∀ x : Int, -((getYuvRange 8 rg).rangeUv : Int) - 1 ≤ 2 * (x - (getYuvRange 8 rg).biasUv) →
      2 * (x - (getYuvRange 8 rg).biasUv) ≤ (getYuvRange 8 rg).rangeUv → (asU8 x : Int) = x →
      min (max x ((getYuvRange 8 rg).biasY : Nat))
        (((getYuvRange 8 rg).biasY + (getYuvRange 8 rg).rangeUv : Nat) : Int) = x := by
    intro x h1 h2 h3
    have hx : 0 ≤ x := by omega
    cases rg <;> simp [getYuvRange] at h1 h2 ⊢ <;> omega
  refine ⟨?_, ?_⟩
  · unfold sharpLuma
    simp only
    rw [e1, f1]
    simp only [Outcome.bind_ok, Outcome.pure_eq]
    rw [Int.min_eq_left (by push_cast; omega)]
    rfl
  · unfold sharpChroma
    simp only
    rw [e2, e3, f2, f3]
    simp only [Outcome.bind_ok, Outcome.pure_eq]
    rw [hc cb b1 b2 a2, hc cr r1 r2 a3]
    rfl

theorem mul32_nat {a k : Nat} (h : a * k ≤ 2000000000) :
    mul32 (a : Int) (k : Int) = .ok ((a * k : Nat) : Int) := by
  have e : (a : Int) * k = ((a * k : Nat) : Int) := (Int.natCast_mul a k).symm
  rw [mul32_ok (by rw [e]; omega) (by rw [e]; omega), e]

theorem add32_nat {a b : Nat} (h : a + b ≤ 2000000000) :
    add32 (a : Int) (b : Int) = .ok ((a + b : Nat) : Int) := by
  rw [add32_ok (by omega) (by omega)]; rfl

theorem sar_four (n : Nat) : sar (n : Int) 4 = ((n / 16 : Nat) : Int) := by
  unfold sar; omega

theorem mix4_ok {a b c d : Nat} (ha : a < 65536) (hb : b < 65536) (hc : c < 65536) (hd : d < 65536) :
    mix4 (a : Int) (b : Int) (c : Int) (d : Int) = .ok ((9 * a + 3 * b + 3 * c + d + 8) / 16) := by
  have e1 : mul32 (a : Int) 9 = .ok ((a * 9 : Nat) : Int) := mul32_nat (k := 9) (by omega)
  have e2 : mul32 (b : Int) 3 = .ok ((b * 3 : Nat) : Int) := mul32_nat (k := 3) (by omega)
  have e3 : mul32 (c : Int) 3 = .ok ((c * 3 : Nat) : Int) := mul32_nat (k := 3) (by omega)
  have e4 : add32 ((a * 9 : Nat) : Int) ((b * 3 : Nat) : Int) = .ok ((a * 9 + b * 3 : Nat) : Int) :=
    add32_nat (by omega)
  have e5 : add32 ((a * 9 + b * 3 : Nat) : Int) ((c * 3 : Nat) : Int)
      = .ok ((a * 9 + b * 3 + c * 3 : Nat) : Int) := add32_nat (by omega)
  have e6 : add32 ((a * 9 + b * 3 + c * 3 : Nat) : Int) (d : Int)
      = .ok ((a * 9 + b * 3 + c * 3 + d : Nat) : Int) := add32_nat (by omega)
  have e7 : add32 ((a * 9 + b * 3 + c * 3 + d : Nat) : Int) 8
      = .ok ((a * 9 + b * 3 + c * 3 + d + 8 : Nat) : Int) := add32_nat (b := 8) (by omega)
  have hlt : (a * 9 + b * 3 + c * 3 + d + 8) / 16 < 65536 := by omega
  unfold mix4
  rw [e1, Outcome.bind_ok, e2, Outcome.bind_ok, e4, Outcome.bind_ok, e3, Outcome.bind_ok, e5,
    Outcome.bind_ok, e6, Outcome.bind_ok, e7, Outcome.bind_ok, sar_four, asU16_nat hlt,
    Nat.mul_comm a, Nat.mul_comm b, Nat.mul_comm c]
  rfl

theorem mix2_ok {a b : Nat} (ha : a < 65536) (hb : b < 65536) :
    mix2 (a : Int) (b : Int) = .ok ((12 * a + 4 * b + 8) / 16) := by
  have e1 : mul32 (a : Int) 12 = .ok ((a * 12 : Nat) : Int) := mul32_nat (k := 12) (by omega)
  have e2 : mul32 (b : Int) 4 = .ok ((b * 4 : Nat) : Int) := mul32_nat (k := 4) (by omega)
  have e4 : add32 ((a * 12 : Nat) : Int) ((b * 4 : Nat) : Int) = .ok ((a * 12 + b * 4 : Nat) : Int) :=
    add32_nat (by omega)
  have e5 : add32 ((a * 12 + b * 4 : Nat) : Int) 8 = .ok ((a * 12 + b * 4 + 8 : Nat) : Int) :=
    add32_nat (b := 8) (by omega)
  have hlt : (a * 12 + b * 4 + 8) / 16 < 65536 := by omega
  unfold mix2
  rw [e1, Outcome.bind_ok, e2, Outcome.bind_ok, e4, Outcome.bind_ok, e5, Outcome.bind_ok, sar_four,
    asU16_nat hlt, Nat.mul_comm a, Nat.mul_comm b]
  rfl

section
variable {T : GammaTables} (hT : GoodTables T)
include hT

theorem GoodTables.gam_lt (j : Nat) : T.gam.getD j 0 < 256 := getD_lt (by omega) hT.gam8
theorem GoodTables.lin_lt (j : Nat) : T.lin.getD j 0 < 65536 := getD_lt (by omega) hT.lin16

theorem regamma_ok {r g b : Nat} (hr : r < 65536) (hg : g < 65536) (hb : b < 65536) :
    regamma T r g b = .ok ((T.gam.getD r 0 : Int), (T.gam.getD g 0 : Int), (T.gam.getD b 0 : Int)) := by
  unfold regamma
  rw [idx_ok (by rw [hT.gam]; exact hr), idx_ok (by rw [hT.gam]; exact hg),
    idx_ok (by rw [hT.gam]; exact hb)]
  rfl

end

/-- A pixel of the linear image. -/
structure LinPx (ch : Channels) (l : Buf) : Prop where
  len : 3 ≤ l.length
  lt : red ch l < 65536 ∧ green ch l < 65536 ∧ blue ch l < 65536

/-- One component of the colour mixed from four linear pixels. -/
def mixPx (T : GammaTables) (f : Buf → Nat) (a b c d : Buf) : Nat :=
  T.gam.getD ((9 * f a + 3 * f b + 3 * f c + f d + 8) / 16) 0

def mixCb (T : GammaTables) (ch : Channels) (rg : YuvRange) (m : Matrix) (a b c d : Buf) : Nat :=
  low8 (cbVal 13 8 rg m (mixPx T (red ch) a b c d) (mixPx T (green ch) a b c d)
    (mixPx T (blue ch) a b c d))
def mixCr (T : GammaTables) (ch : Channels) (rg : YuvRange) (m : Matrix) (a b c d : Buf) : Nat :=
  low8 (crVal 13 8 rg m (mixPx T (red ch) a b c d) (mixPx T (green ch) a b c d)
    (mixPx T (blue ch) a b c d))

theorem sharpQuadC_ok {T : GammaTables} (hT : GoodTables T) {ch : Channels} (rg : YuvRange) (m : Matrix)
    {lin next : Buf} {j : Nat} (h0 : LinPx ch (chunk 3 lin (2 * j)))
    (h1 : LinPx ch (chunk 3 lin (2 * j + 1))) (h2 : LinPx ch (chunk 3 next (2 * j)))
    (h3 : LinPx ch (chunk 3 next (2 * j + 1))) :
    sharpQuadC 13 (searchForward 13 8 rg m) (getYuvRange 8 rg) ch T (chunk (3 * 2) lin j)
      (chunk (3 * 2) next j)
      = .ok (mixCb T ch rg m (chunk 3 lin (2 * j)) (chunk 3 lin (2 * j + 1)) (chunk 3 next (2 * j))
          (chunk 3 next (2 * j + 1)),
        mixCr T ch rg m (chunk 3 lin (2 * j)) (chunk 3 lin (2 * j + 1)) (chunk 3 next (2 * j))
          (chunk 3 next (2 * j + 1))) := by
  rw [chunk_double, chunk_double]
  have len3 : ∀ (l : Buf) k, (chunk 3 l k).length ≤ 3 := by
    intro l k; simp only [chunk, List.length_take]; omega
  have q0 : (chunk 3 lin (2 * j)).length = 3 := by have := h0.len; have := len3 lin (2 * j); omega
  have q1 : (chunk 3 lin (2 * j + 1)).length = 3 := by
    have := h1.len; have := len3 lin (2 * j + 1); omega
  have q2 : (chunk 3 next (2 * j)).length = 3 := by have := h2.len; have := len3 next (2 * j); omega
  have q3 : (chunk 3 next (2 * j + 1)).length = 3 := by
    have := h3.len; have := len3 next (2 * j + 1); omega
  generalize chunk 3 lin (2 * j) = a at *
  generalize chunk 3 lin (2 * j + 1) = b at *
  generalize chunk 3 next (2 * j) = c at *
  generalize chunk 3 next (2 * j + 1) = d at *
  obtain ⟨a1, a2, a3⟩ := h0.lt
  obtain ⟨b1, b2, b3⟩ := h1.lt
  obtain ⟨c1, c2, c3⟩ := h2.lt
  obtain ⟨d1, d2, d3⟩ := h3.lt
  obtain ⟨p1, p2, p3⟩ := comps_append (ch := ch) (a := a) (b := b) h0.len
  obtain ⟨r1, r2, r3⟩ := comps_append (ch := ch) (a := c) (b := d) h2.len
  unfold sharpQuadC
  rw [readRgb_ok3 (by rw [List.length_append]; omega), slice_right q0 q1]
  simp only [Outcome.bind_ok]
  rw [readRgb_ok3 h1.len, readRgb_ok3 (by rw [List.length_append]; omega), slice_right q2 q3]
  simp only [Outcome.bind_ok]
  rw [readRgb_ok3 h3.len]
  simp only [Outcome.bind_ok, p1, p2, p3, r1, r2, r3]
  rw [mix4_ok a1 b1 c1 d1, mix4_ok a2 b2 c2 d2, mix4_ok a3 b3 c3 d3]
  simp only [Outcome.bind_ok]
  rw [regamma_ok hT (by omega) (by omega) (by omega)]
  simp only [Outcome.bind_ok]
  rw [(sharp_arith rg m (GoodTables.gam_lt hT _) (GoodTables.gam_lt hT _)
    (GoodTables.gam_lt hT _)).2]
  rfl

theorem sharpDuoC_ok {T : GammaTables} (hT : GoodTables T) {ch : Channels} (rg : YuvRange) (m : Matrix)
    {a a' b : Buf} (h0 : LinPx ch a) (h1 : LinPx ch b) (hl : 3 ≤ a'.length)
    (he : red ch a' = red ch a ∧ green ch a' = green ch a ∧ blue ch a' = blue ch a)
    {a2 b2 : Buf} (hm : ∀ f : Buf → Nat, mixPx T f a a2 b b2 = T.gam.getD ((12 * f a + 4 * f b + 8) / 16) 0) :
    sharpDuoC 13 (searchForward 13 8 rg m) (getYuvRange 8 rg) ch T a' b
      = .ok (mixCb T ch rg m a a2 b b2, mixCr T ch rg m a a2 b b2) := by
  obtain ⟨a1, a2, a3⟩ := h0.lt
  obtain ⟨b1, b2, b3⟩ := h1.lt
  obtain ⟨p1, p2, p3⟩ := he
  unfold sharpDuoC
  rw [readRgb_ok3 hl, readRgb_ok3 h1.len]
  simp only [Outcome.bind_ok, p1, p2, p3]
  rw [mix2_ok a1 b1, mix2_ok a2 b2, mix2_ok a3 b3]
  simp only [Outcome.bind_ok]
  rw [regamma_ok hT (by omega) (by omega) (by omega)]
  simp only [Outcome.bind_ok]
  rw [(sharp_arith rg m (GoodTables.gam_lt hT _) (GoodTables.gam_lt hT _)
    (GoodTables.gam_lt hT _)).2]
  unfold mixCb mixCr
  rw [hm, hm, hm]

theorem sharpPairY_ok {ch : Channels} (rg : YuvRange) (m : Matrix) {rgba : Buf} {j : Nat}
    (h0 : (chunk ch.count rgba (2 * j)).length = ch.count)
    (h1 : (chunk ch.count rgba (2 * j + 1)).length = ch.count) (hb : Bytes rgba) :
    sharpPairY 13 (searchForward 13 8 rg m) (getYuvRange 8 rg) ch (chunk (ch.count * 2) rgba j)
      = .ok (luma8 13 ch rg m (chunk ch.count rgba (2 * j)),
        luma8 13 ch rg m (chunk ch.count rgba (2 * j + 1))) := by
  have hc := count_ge3 ch
  obtain ⟨a1, a2, a3⟩ := rgb_lt h0 (B := 256) (bnd_take (bnd_drop hb))
  obtain ⟨b1, b2, b3⟩ := rgb_lt h1 (B := 256) (bnd_take (bnd_drop hb))
  rw [chunk_double]
  obtain ⟨p1, p2, p3⟩ := comps_append (ch := ch) (a := chunk ch.count rgba (2 * j))
    (b := chunk ch.count rgba (2 * j + 1)) (by omega)
  unfold sharpPairY
  rw [readRgb_ok3 (by rw [List.length_append]; omega), slice_right h0 h1]
  simp only [Outcome.bind_ok, p1, p2, p3]
  rw [(sharp_arith rg m a1 a2 a3).1]
  simp only [Outcome.bind_ok]
  rw [readRgb_ok3 (by omega)]
  simp only [Outcome.bind_ok]
  rw [(sharp_arith rg m b1 b2 b3).1]
  rfl

/-! ## Rows -/

/-- Luma sample `x` of a row. -/
def rowY (ch : Channels) (rg : YuvRange) (m : Matrix) (rgba : Buf) (x : Nat) : Nat :=
  luma8 13 ch rg m (chunk ch.count rgba x)
/-- Cb sample `c` from two rows of linear pixels. -/
def rowU (T : GammaTables) (ch : Channels) (rg : YuvRange) (m : Matrix) (w : Nat) (lin next : Buf)
    (c : Nat) : Nat :=
  mixCb T ch rg m (chunk 3 lin (2 * c)) (chunk 3 lin (min (2 * c + 1) (w - 1))) (chunk 3 next (2 * c))
    (chunk 3 next (min (2 * c + 1) (w - 1)))
def rowV (T : GammaTables) (ch : Channels) (rg : YuvRange) (m : Matrix) (w : Nat) (lin next : Buf)
    (c : Nat) : Nat :=
  mixCr T ch rg m (chunk 3 lin (2 * c)) (chunk 3 lin (min (2 * c + 1) (w - 1))) (chunk 3 next (2 * c))
    (chunk 3 next (min (2 * c + 1) (w - 1)))

theorem pair_count {w n : Nat} (hn : 0 < n) : w * n / (n * 2) = w / 2 := by
  rw [← Nat.div_div_eq_div_mul, Nat.mul_div_cancel _ hn]

/-- The last pixel of a row of odd width. -/
theorem rem_odd {ch : Channels} {w : Nat} {rgba : Buf} (lr : rgba.length = w * ch.count)
    (hodd : w % 2 = 1) : remainder (ch.count * 2) rgba = chunk ch.count rgba (w - 1) := by
  rw [Nat.mul_comm, remainder_px (count_pos ch) lr hodd, rowPx_eq]

theorem last3 {w : Nat} {l : Buf} (hw : 0 < w) (h : l.length = w * 3) :
    lastChunk 3 l = .ok (chunk 3 l (w - 1)) := by
  rw [lastChunk_ok (by omega) (by omega), h, Nat.mul_div_cancel _ (by omega)]

section
variable {T : GammaTables} {ch : Channels} {w : Nat} {y u v rgba lin next : Buf}

theorem rgba_px (lr : rgba.length = w * ch.count) {x : Nat} (hx : x < w) :
    (chunk ch.count rgba x).length = ch.count := by
  have := succ_mul_le_of_lt ch.count hx
  exact chunk_length (by omega)

/-- What a row step computes for the last pixel of a row of odd width. -/
theorem tailY (rg : YuvRange) (m : Matrix) (lr : rgba.length = w * ch.count) (hb : Bytes rgba)
    (hodd : w % 2 = 1) :
    slice (remainder (ch.count * 2) rgba) 0 3 = .ok ((chunk ch.count rgba (w - 1)).take 3) ∧
    readRgb ch ((chunk ch.count rgba (w - 1)).take 3)
      = .ok ((red ch (chunk ch.count rgba (w - 1)) : Int),
          (green ch (chunk ch.count rgba (w - 1)) : Int),
          (blue ch (chunk ch.count rgba (w - 1)) : Int)) ∧
    sharpLuma 13 (searchForward 13 8 rg m) (getYuvRange 8 rg)
      ((red ch (chunk ch.count rgba (w - 1)) : Int), (green ch (chunk ch.count rgba (w - 1)) : Int),
          (blue ch (chunk ch.count rgba (w - 1)) : Int)) = .ok (rowY ch rg m rgba (w - 1)) ∧
    sharpChroma 13 (searchForward 13 8 rg m) (getYuvRange 8 rg)
      ((red ch (chunk ch.count rgba (w - 1)) : Int), (green ch (chunk ch.count rgba (w - 1)) : Int),
          (blue ch (chunk ch.count rgba (w - 1)) : Int))
      = .ok (low8 (cbVal 13 8 rg m (red ch (chunk ch.count rgba (w - 1)))
            (green ch (chunk ch.count rgba (w - 1))) (blue ch (chunk ch.count rgba (w - 1)))),
          low8 (crVal 13 8 rg m (red ch (chunk ch.count rgba (w - 1)))
            (green ch (chunk ch.count rgba (w - 1))) (blue ch (chunk ch.count rgba (w - 1))))) := by
  have hl := rgba_px lr (show w - 1 < w by omega)
  have hc := count_ge3 ch
  obtain ⟨a1, a2, a3⟩ := rgb_lt hl (B := 256) (bnd_take (bnd_drop hb))
  obtain ⟨p1, p2, p3⟩ := comps_take (ch := ch) (a := chunk ch.count rgba (w - 1))
  refine ⟨?_, ?_, (sharp_arith rg m a1 a2 a3).1, (sharp_arith rg m a1 a2 a3).2⟩
  · rw [rem_odd lr hodd, slice_take (by omega)]
  · rw [readRgb_ok3 (by rw [List.length_take]; omega), p1, p2, p3]

theorem sharpRow420_even (hT : GoodTables T) (rg : YuvRange) (m : Matrix) {row : Nat}
    (hrow : row % 2 = 0) (hw : 0 < w) (ly : y.length = w) (lu : u.length = ceil2 w)
    (lv : v.length = ceil2 w) (lr : rgba.length = w * ch.count) (hb : Bytes rgba)
    (ll : lin.length = w * 3) (ln : next.length = w * 3)
    (hl : ∀ x, x < w → LinPx ch (chunk 3 lin x)) (hn : ∀ x, x < w → LinPx ch (chunk 3 next x)) :
    sharpRow420 13 (searchForward 13 8 rg m) (getYuvRange 8 rg) ch T row w y u v rgba lin next
      = .ok (fillTo (rowY ch rg m rgba) w y, fillTo (rowU T ch rg m w lin next) (ceil2 w) u,
          fillTo (rowV T ch rg m w lin next) (ceil2 w) v) := by
  have lc : ceil2 w = (w + 1) / 2 := rfl
  unfold sharpRow420
  simp only []
  rw [ly, lu, lv, lr, ll, ln, pair_count (count_pos ch), pair_count (by omega),
    show min (min (min (min (min (w / 2) (ceil2 w)) (ceil2 w)) (w / 2)) (w / 2)) (w / 2) = w / 2 by omega]
  have hloop : forRange 0 (w / 2)
      (fun j (s : Buf × Buf × Buf) => do
        let (a, b) ← sharpPairY 13 (searchForward 13 8 rg m) (getYuvRange 8 rg) ch
          (chunk (ch.count * 2) rgba j)
        if row % 2 = 0 then do
          let (cb, cr) ← sharpQuadC 13 (searchForward 13 8 rg m) (getYuvRange 8 rg) ch T
            (chunk (3 * 2) lin j) (chunk (3 * 2) next j)
          return (setChunk 2 s.1 j [a, b], setChunk 1 s.2.1 j [cb], setChunk 1 s.2.2 j [cr])
        else return (setChunk 2 s.1 j [a, b], s.2.1, s.2.2))
      (y, u, v)
      = .ok (fillTo (rowY ch rg m rgba) (2 * (w / 2)) y, fillTo (rowU T ch rg m w lin next) (w / 2) u,
        fillTo (rowV T ch rg m w lin next) (w / 2) v) := by
    have := forRange_ok (s := 0) (k := w / 2) (T := fun j => (fillTo (rowY ch rg m rgba) (2 * j) y,
      fillTo (rowU T ch rg m w lin next) j u, fillTo (rowV T ch rg m w lin next) j v))
      (body := fun j (s : Buf × Buf × Buf) => do
        let (a, b) ← sharpPairY 13 (searchForward 13 8 rg m) (getYuvRange 8 rg) ch
          (chunk (ch.count * 2) rgba j)
        if row % 2 = 0 then do
          let (cb, cr) ← sharpQuadC 13 (searchForward 13 8 rg m) (getYuvRange 8 rg) ch T
            (chunk (3 * 2) lin j) (chunk (3 * 2) next j)
          return (setChunk 2 s.1 j [a, b], setChunk 1 s.2.1 j [cb], setChunk 1 s.2.2 j [cr])
        else return (setChunk 2 s.1 j [a, b], s.2.1, s.2.2)) (by omega) (by
      intro j _ hj
      rw [sharpPairY_ok rg m (rgba_px lr (by omega)) (rgba_px lr (by omega)) hb]
      simp only [Outcome.bind_ok]
      rw [if_pos hrow, sharpQuadC_ok hT rg m (hl _ (by omega)) (hl _ (by omega)) (hn _ (by omega))
        (hn _ (by omega))]
      simp only [Outcome.bind_ok, Outcome.pure_eq]
      have hmin : min (2 * j + 1) (w - 1) = 2 * j + 1 := by omega
      rw [setChunk_fill2 (f := rowY ch rg m rgba) (j := j) (l := y)
          (a := luma8 13 ch rg m (chunk ch.count rgba (2 * j)))
          (b := luma8 13 ch rg m (chunk ch.count rgba (2 * j + 1))) (by omega) rfl rfl,
        setChunk_fill1 (f := rowU T ch rg m w lin next) (j := j) (l := u) (by omega)
          (by unfold rowU; rw [hmin]),
        setChunk_fill1 (f := rowV T ch rg m w lin next) (j := j) (l := v) (by omega)
          (by unfold rowV; rw [hmin])])
    simpa only [Nat.mul_zero, fillTo_zero] using this
  refine (congrArg (fun o => Outcome.bind o _) hloop).trans ?_
  simp only [Outcome.bind]
  by_cases hodd : w % 2 = 0
  · rw [if_pos (Or.inl hodd), show 2 * (w / 2) = w by omega, show w / 2 = ceil2 w by omega]; rfl
  · obtain ⟨t1, t2, t3, -⟩ := tailY rg m lr hb (by omega : w % 2 = 1)
    rw [if_neg (by
      rw [rem_odd lr (by omega), rgba_px lr (by omega)]
      have := count_ge3 ch; omega), t1]
    simp only [Outcome.bind_ok]
    rw [t2]
    simp only [Outcome.bind_ok]
    rw [t3]
    simp only [Outcome.bind_ok]
    rw [setLast_fill (n := w - 1) (g := rowY ch rg m rgba) (v := rowY ch rg m rgba (w - 1))
      (by omega) (by omega) (fun _ _ => rfl) rfl]
    simp only [Outcome.bind_ok]
    rw [if_pos hrow, last3 hw ll, last3 hw ln]
    simp only [Outcome.bind_ok]
    rw [sharpDuoC_ok hT rg m (a2 := chunk 3 lin (w - 1)) (b2 := chunk 3 next (w - 1))
      (hl (w - 1) (by omega)) (hn (w - 1) (by omega))
      (hl (w - 1) (by omega)).len ⟨rfl, rfl, rfl⟩
      (by intro f; unfold mixPx; congr 2; omega)]
    simp only [Outcome.bind_ok]
    have h2 : 2 * (w / 2) = w - 1 := by omega
    have hmin : min (w - 1 + 1) (w - 1) = w - 1 := by omega
    rw [setLast_fill (n := w / 2) (g := rowU T ch rg m w lin next) (l := u)
      (by omega) (by omega) (fun _ _ => rfl) (by unfold rowU; rw [h2, hmin])]
    simp only [Outcome.bind_ok]
    rw [setLast_fill (n := w / 2) (g := rowV T ch rg m w lin next) (l := v)
      (by omega) (by omega) (fun _ _ => rfl) (by unfold rowV; rw [h2, hmin])]
    simp only [Outcome.bind_ok, Outcome.pure_eq]
    rw [show w - 1 + 1 = w by omega, show w / 2 + 1 = ceil2 w by omega]

theorem sharpRow420_odd (rg : YuvRange) (m : Matrix) {row : Nat}
    (hrow : row % 2 = 1) (hw : 0 < w) (ly : y.length = w) (lu : u.length = ceil2 w)
    (lv : v.length = ceil2 w) (lr : rgba.length = w * ch.count) (hb : Bytes rgba)
    (ll : lin.length = w * 3) (ln : next.length = w * 3) :
    sharpRow420 13 (searchForward 13 8 rg m) (getYuvRange 8 rg) ch T row w y u v rgba lin next
      = .ok (fillTo (rowY ch rg m rgba) w y, u, v) := by
  have lc : ceil2 w = (w + 1) / 2 := rfl
  unfold sharpRow420
  simp only []
  rw [ly, lu, lv, lr, ll, ln, pair_count (count_pos ch), pair_count (by omega),
    show min (min (min (min (min (w / 2) (ceil2 w)) (ceil2 w)) (w / 2)) (w / 2)) (w / 2) = w / 2 by omega]
  have hloop : forRange 0 (w / 2)
      (fun j (s : Buf × Buf × Buf) => do
        let (a, b) ← sharpPairY 13 (searchForward 13 8 rg m) (getYuvRange 8 rg) ch
          (chunk (ch.count * 2) rgba j)
        if row % 2 = 0 then do
          let (cb, cr) ← sharpQuadC 13 (searchForward 13 8 rg m) (getYuvRange 8 rg) ch T
            (chunk (3 * 2) lin j) (chunk (3 * 2) next j)
          return (setChunk 2 s.1 j [a, b], setChunk 1 s.2.1 j [cb], setChunk 1 s.2.2 j [cr])
        else return (setChunk 2 s.1 j [a, b], s.2.1, s.2.2))
      (y, u, v)
      = .ok (fillTo (rowY ch rg m rgba) (2 * (w / 2)) y, u, v) := by
    have := forRange_ok (s := 0) (k := w / 2) (T := fun j => (fillTo (rowY ch rg m rgba) (2 * j) y, u, v))
      (body := fun j (s : Buf × Buf × Buf) => do
        let (a, b) ← sharpPairY 13 (searchForward 13 8 rg m) (getYuvRange 8 rg) ch
          (chunk (ch.count * 2) rgba j)
        if row % 2 = 0 then do
          let (cb, cr) ← sharpQuadC 13 (searchForward 13 8 rg m) (getYuvRange 8 rg) ch T
            (chunk (3 * 2) lin j) (chunk (3 * 2) next j)
          return (setChunk 2 s.1 j [a, b], setChunk 1 s.2.1 j [cb], setChunk 1 s.2.2 j [cr])
        else return (setChunk 2 s.1 j [a, b], s.2.1, s.2.2)) (by omega) (by
      intro j _ hj
      rw [sharpPairY_ok rg m (rgba_px lr (by omega)) (rgba_px lr (by omega)) hb]
      simp only [Outcome.bind_ok]
      rw [if_neg (by omega)]
      simp only [Outcome.pure_eq]
      rw [setChunk_fill2 (f := rowY ch rg m rgba) (j := j) (l := y)
          (a := luma8 13 ch rg m (chunk ch.count rgba (2 * j)))
          (b := luma8 13 ch rg m (chunk ch.count rgba (2 * j + 1))) (by omega) rfl rfl])
    simpa only [Nat.mul_zero, fillTo_zero] using this
  refine (congrArg (fun o => Outcome.bind o _) hloop).trans ?_
  simp only [Outcome.bind]
  by_cases hodd : w % 2 = 0
  · rw [if_pos (Or.inl hodd), show 2 * (w / 2) = w by omega]; rfl
  · obtain ⟨t1, t2, t3, -⟩ := tailY rg m lr hb (by omega : w % 2 = 1)
    rw [if_neg (by
      rw [rem_odd lr (by omega), rgba_px lr (by omega)]
      have := count_ge3 ch; omega), t1]
    simp only [Outcome.bind_ok]
    rw [t2]
    simp only [Outcome.bind_ok]
    rw [t3]
    simp only [Outcome.bind_ok]
    rw [setLast_fill (n := w - 1) (g := rowY ch rg m rgba) (v := rowY ch rg m rgba (w - 1))
      (by omega) (by omega) (fun _ _ => rfl) rfl]
    simp only [Outcome.bind_ok]
    rw [if_neg (by omega), show w - 1 + 1 = w by omega]
    rfl

/-- Cb sample `c` of a 4:2:2 row. -/
def rowU2 (T : GammaTables) (ch : Channels) (rg : YuvRange) (m : Matrix) (w : Nat) (rgba lin : Buf)
    (c : Nat) : Nat :=
  if 2 * c + 1 = w then
    low8 (cbVal 13 8 rg m (red ch (chunk ch.count rgba (2 * c))) (green ch (chunk ch.count rgba (2 * c)))
      (blue ch (chunk ch.count rgba (2 * c))))
  else rowU T ch rg m w lin lin c
def rowV2 (T : GammaTables) (ch : Channels) (rg : YuvRange) (m : Matrix) (w : Nat) (rgba lin : Buf)
    (c : Nat) : Nat :=
  if 2 * c + 1 = w then
    low8 (crVal 13 8 rg m (red ch (chunk ch.count rgba (2 * c))) (green ch (chunk ch.count rgba (2 * c)))
      (blue ch (chunk ch.count rgba (2 * c))))
  else rowV T ch rg m w lin lin c

theorem mixPx_swap {f : Buf → Nat} {a b : Buf} : mixPx T f a b a b = mixPx T f a a b b := by
  unfold mixPx; congr 2; omega

theorem mixC_swap (rg : YuvRange) (m : Matrix) {a b : Buf} :
    mixCb T ch rg m a b a b = mixCb T ch rg m a a b b ∧ mixCr T ch rg m a b a b = mixCr T ch rg m a a b b := by
  unfold mixCb mixCr
  rw [mixPx_swap, mixPx_swap, mixPx_swap]
  exact ⟨rfl, rfl⟩

theorem sharpRow422_ok (hT : GoodTables T) (rg : YuvRange) (m : Matrix)
    (hw : 0 < w) (ly : y.length = w) (lu : u.length = ceil2 w)
    (lv : v.length = ceil2 w) (lr : rgba.length = w * ch.count) (hb : Bytes rgba)
    (ll : lin.length = w * 3) (hl : ∀ x, x < w → LinPx ch (chunk 3 lin x)) :
    sharpRow422 13 (searchForward 13 8 rg m) (getYuvRange 8 rg) ch T w y u v rgba lin
      = .ok (fillTo (rowY ch rg m rgba) w y, fillTo (rowU2 T ch rg m w rgba lin) (ceil2 w) u,
          fillTo (rowV2 T ch rg m w rgba lin) (ceil2 w) v) := by
  have lc : ceil2 w = (w + 1) / 2 := rfl
  unfold sharpRow422
  simp only []
  rw [ly, lu, lv, lr, ll, pair_count (count_pos ch), pair_count (by omega),
    show min (min (min (min (w / 2) (ceil2 w)) (ceil2 w)) (w / 2)) (w / 2) = w / 2 by omega]
  have hloop : forRange 0 (w / 2)
      (fun j (s : Buf × Buf × Buf) => do
        let (a, b) ← sharpPairY 13 (searchForward 13 8 rg m) (getYuvRange 8 rg) ch
          (chunk (ch.count * 2) rgba j)
        let l2 ← slice (chunk (3 * 2) lin j) 3 (3 * 2)
        let (cb, cr) ← sharpDuoC 13 (searchForward 13 8 rg m) (getYuvRange 8 rg) ch T
          (chunk (3 * 2) lin j) l2
        return (setChunk 2 s.1 j [a, b], setChunk 1 s.2.1 j [cb], setChunk 1 s.2.2 j [cr]))
      (y, u, v)
      = .ok (fillTo (rowY ch rg m rgba) (2 * (w / 2)) y, fillTo (rowU2 T ch rg m w rgba lin) (w / 2) u,
        fillTo (rowV2 T ch rg m w rgba lin) (w / 2) v) := by
    have := forRange_ok (s := 0) (k := w / 2) (T := fun j => (fillTo (rowY ch rg m rgba) (2 * j) y,
      fillTo (rowU2 T ch rg m w rgba lin) j u, fillTo (rowV2 T ch rg m w rgba lin) j v))
      (body := fun j (s : Buf × Buf × Buf) => do
        let (a, b) ← sharpPairY 13 (searchForward 13 8 rg m) (getYuvRange 8 rg) ch
          (chunk (ch.count * 2) rgba j)
        let l2 ← slice (chunk (3 * 2) lin j) 3 (3 * 2)
        let (cb, cr) ← sharpDuoC 13 (searchForward 13 8 rg m) (getYuvRange 8 rg) ch T
          (chunk (3 * 2) lin j) l2
        return (setChunk 2 s.1 j [a, b], setChunk 1 s.2.1 j [cb], setChunk 1 s.2.2 j [cr])) (by omega) (by
      intro j _ hj
      have l0 : (chunk 3 lin (2 * j)).length = 3 := chunk_length (by omega)
      have l1 : (chunk 3 lin (2 * j + 1)).length = 3 := chunk_length (by omega)
      rw [sharpPairY_ok rg m (rgba_px lr (by omega)) (rgba_px lr (by omega)) hb]
      simp only [Outcome.bind_ok]
      have hmin : min (2 * j + 1) (w - 1) = 2 * j + 1 := by omega
      rw [chunk_double (n := 3), slice_right l0 l1]
      simp only [Outcome.bind_ok]
      rw [sharpDuoC_ok hT rg m (a := chunk 3 lin (2 * j)) (a2 := chunk 3 lin (2 * j))
        (b2 := chunk 3 lin (2 * j + 1)) (hl _ (by omega)) (hl _ (by omega))
        (by rw [List.length_append]; omega) (comps_append (by omega))
        (by intro f; unfold mixPx; congr 2; omega)]
      simp only [Outcome.bind_ok, Outcome.pure_eq]
      rw [setChunk_fill2 (f := rowY ch rg m rgba) (j := j) (l := y)
          (a := luma8 13 ch rg m (chunk ch.count rgba (2 * j)))
          (b := luma8 13 ch rg m (chunk ch.count rgba (2 * j + 1))) (by omega) rfl rfl,
        setChunk_fill1 (f := rowU2 T ch rg m w rgba lin) (j := j) (l := u) (by omega)
          (by unfold rowU2 rowU; rw [if_neg (by omega), hmin, (mixC_swap rg m).1]),
        setChunk_fill1 (f := rowV2 T ch rg m w rgba lin) (j := j) (l := v) (by omega)
          (by unfold rowV2 rowV; rw [if_neg (by omega), hmin, (mixC_swap rg m).2])])
    simpa only [Nat.mul_zero, fillTo_zero] using this
  refine (congrArg (fun o => Outcome.bind o _) hloop).trans ?_
  simp only [Outcome.bind]
  by_cases hodd : w % 2 = 0
  · rw [if_pos (Or.inl hodd), show 2 * (w / 2) = w by omega, show w / 2 = ceil2 w by omega]; rfl
  · obtain ⟨t1, t2, t3, t4⟩ := tailY rg m lr hb (by omega : w % 2 = 1)
    rw [if_neg (by
      rw [rem_odd lr (by omega), rgba_px lr (by omega)]
      have := count_ge3 ch; omega), t1]
    simp only [Outcome.bind_ok]
    rw [t2]
    simp only [Outcome.bind_ok]
    rw [t3]
    simp only [Outcome.bind_ok]
    rw [setLast_fill (n := w - 1) (g := rowY ch rg m rgba) (v := rowY ch rg m rgba (w - 1))
      (by omega) (by omega) (fun _ _ => rfl) rfl]
    simp only [Outcome.bind_ok]
    rw [t4]
    simp only [Outcome.bind_ok]
    have h2 : 2 * (w / 2) = w - 1 := by omega
    rw [setLast_fill (n := w / 2) (g := rowU2 T ch rg m w rgba lin) (l := u)
      (by omega) (by omega) (fun _ _ => rfl) (by unfold rowU2; rw [h2, if_pos (by omega)])]
    simp only [Outcome.bind_ok]
    rw [setLast_fill (n := w / 2) (g := rowV2 T ch rg m w rgba lin) (l := v)
      (by omega) (by omega) (fun _ _ => rfl) (by unfold rowV2; rw [h2, if_pos (by omega)])]
    simp only [Outcome.bind_ok, Outcome.pure_eq]
    rw [show w - 1 + 1 = w by omega, show w / 2 + 1 = ceil2 w by omega]

end

end Verif
