import Verif.Lemmas.EncodeBlocks
import Verif.Props.EncodeArith
import Verif.Props.PlanarDecode
/-!
# C20: 8-bit RGB to planar YCbCr
-/
namespace Verif
open Spec

theorem encPrec (md : Mode) : EncPrec (encodePrecision md) := by
  cases md
  · exact Or.inl rfl
  · exact Or.inr (Or.inl rfl)
  · exact Or.inr (Or.inr rfl)

theorem luma8_closed {p : Nat} (h : EncPrec p) (rg : YuvRange) (m : Matrix) (r g b : Nat)
    (hr : r < 256) (hg : g < 256) (hb : b < 256) :
    lumaOf asU8 p (searchForward p 8 rg m) (getYuvRange 8 rg).biasY ((r : Int), (g : Int), (b : Int))
      = .ok (low8 (lumaVal p 8 rg m r g b)) := by
  have := (encode_closed h rg m r g b (by omega) (by omega) (by omega)).1
  unfold lumaOf
  rw [this]
  rfl

theorem chroma8_closed {p : Nat} (h : EncPrec p) (rg : YuvRange) (m : Matrix) (r g b : Nat)
    (hr : r < 256) (hg : g < 256) (hb : b < 256) :
    chromaOf asU8 p (searchForward p 8 rg m) (getYuvRange 8 rg).biasUv (r : Int) (g : Int) (b : Int)
      = .ok (low8 (cbVal p 8 rg m r g b), low8 (crVal p 8 rg m r g b)) := by
  have := (encode_closed h rg m r g b (by omega) (by omega) (by omega)).2
  unfold chromaOf
  rw [this.1, this.2]
  rfl

/-- How the planar encoder averages the pixels of chroma sample `(cx, cy)`: rounding to nearest,
except for the last column of two rows of odd width, where it rounds down. -/
abbrev planarAvg (w h : Nat) (s : Sampling) (cx cy : Nat) : List Nat → Nat :=
  if lastColumn w h (hdiv s) (vdiv s) cx cy then avgDown else avgUp

/-- The encoded planes `out` of an image with the geometry of `i`: luma is computed from every pixel,
a chroma sample from the average of the pixels it covers, and nothing else is written. -/
structure PlanarEncoded (p : Nat) (ch : Channels) (s : Sampling) (rg : YuvRange) (m : Matrix)
    (R : EncRel) (rgba : Buf) (stride : Nat) (i out : Planar) : Prop where
  geometry : out.width = i.width ∧ out.height = i.height ∧ out.yStride = i.yStride ∧
    out.uStride = i.uStride ∧ out.vStride = i.vStride
  y : FrameRel out.y i.y i.yStride i.width i.height 1 fun x y q =>
    q = [luma8 p ch rg m (pixelAt rgba stride ch.count x y)] ∨
    R.y (pixelAt rgba stride ch.count x y) (q.getD 0 0)
  u : FrameRel out.u i.u i.uStride (cover i.width (hdiv s)) (cover i.height (vdiv s)) 1 fun cx cy q =>
    let blk := block rgba stride ch.count i.width i.height (hdiv s) (vdiv s) cx cy
    q = [cb8 p ch rg m (planarAvg i.width i.height s cx cy) blk] ∨ R.u (lastColumn i.width i.height (hdiv s) (vdiv s) cx cy) blk (q.getD 0 0)
  v : FrameRel out.v i.v i.vStride (cover i.width (hdiv s)) (cover i.height (vdiv s)) 1 fun cx cy q =>
    let blk := block rgba stride ch.count i.width i.height (hdiv s) (vdiv s) cx cy
    q = [cr8 p ch rg m (planarAvg i.width i.height s cx cy) blk] ∨ R.v (lastColumn i.width i.height (hdiv s) (vdiv s) cx cy) blk (q.getD 0 0)

/-- The scalar values of the 8-bit encoders. -/
abbrev enc8Fun (rnd p : Nat) (ch : Channels) (rg : YuvRange) (m : Matrix) : EncFun :=
  linFun rnd false ch (fun r g b => low8 (lumaVal p 8 rg m r g b))
    (fun r g b => low8 (cbVal p 8 rg m r g b)) (fun r g b => low8 (crVal p 8 rg m r g b))

theorem enc8_blocks {rnd p : Nat} (hr : rnd ≤ 1) (h : EncPrec p) (ch : Channels) (rg : YuvRange)
    (m : Matrix) : BlocksOk (linBlocks asU8 rnd false p (searchForward p 8 rg m) (getYuvRange 8 rg) ch)
      256 ch.count (enc8Fun rnd p ch rg m) :=
  linBlocks_ok hr (by omega) (luma8_closed h rg m) (chroma8_closed h rg m)

theorem enc8_lumaAt {rnd p : Nat} {ch : Channels} {rg : YuvRange} {m : Matrix} {s : Sampling}
    {rgba : Buf} {stride cn : Nat} (x y : Nat) :
    (enc8Fun rnd p ch rg m).lumaAt s rgba stride cn x y
      = luma8 p ch rg m (pixelAt rgba stride cn x y) := by
  unfold EncFun.lumaAt
  split <;> rfl

/-- C20: encoding a good RGB(A) buffer into a good 8-bit planar image succeeds, replaces exactly the
`width × height` luma samples and the chroma samples covering them, and nothing else: luma is
computed from every pixel, chroma from the average of the pixels the sample covers — or, where the
vector code was responsible, what the vector code guarantees (`R`).  Every mode, sampling, channel
order, matrix, range, stride and size. -/
theorem c20_planar_encode (md : Mode) (ch : Channels) (s : Sampling) (i : Planar) (rgba : Buf)
    (stride : Nat) (rg : YuvRange) (m : Matrix) (D : Nat) (hi : GoodPlanar i s D)
    (hsrc : GoodDst rgba.length stride i.width i.height ch.count) (hb : Bytes rgba)
    (R : EncRel) (hd : RowEncoder) (hd2 : RowEncoder420)
    (h1 : hd.Ok 256 ch.count i.width (hdiv s) R) (h2 : hd2.Ok 256 ch.count i.width R) :
    ∃ out, rgbxToYuv x64 md ch s hd hd2 i rgba stride rg m = .ok out ∧
      PlanarEncoded (encodePrecision md) ch s rg m R rgba stride i out := by
  have hr := hi.rows
  have hcn := count_pos ch
  have hE := enc8_blocks (rnd := 0) (by omega) (encPrec md) ch rg m
  have fin : ∀ o : Outcome (Buf × Buf × Buf),
      Encoded (enc8Fun 0 (encodePrecision md) ch rg m) R s ch.count i rgba stride o →
      ∃ out, (o >>= fun x => pure { i with y := x.1, u := x.2.1, v := x.2.2 }) = Outcome.ok out ∧
      PlanarEncoded (encodePrecision md) ch s rg m R rgba stride i out := by
    intro o ⟨y, u, v, e, ly, lu, lv⟩
    refine ⟨{ i with y, u, v }, by rw [e]; rfl, ⟨rfl, rfl, rfl, rfl, rfl⟩, ?_, ?_, ?_⟩
    · unfold LumaOk at ly
      simp only [enc8_lumaAt] at ly
      exact ly
    · rw [cover_hdiv hi.wpos, cover_vdiv hi.hpos]
      unfold ChromaOk at lu
      simpa [linFun, cb8] using lu
    · rw [cover_hdiv hi.wpos, cover_vdiv hi.hpos]
      unfold ChromaOk at lv
      simpa [linFun, cr8] using lv
  unfold rgbxToYuv rgbxToYuvImpl
  rw [hsrc.accepted hi.wpos hi.hpos hi.w32 hi.h32 hcn (count_le ch), hi.accepted]
  simp only [Outcome.bind_ok]
  cases s with
  | yuv444 => exact fin _ (encode444_ok hcn hE h1 hr hsrc.full hsrc.cols_le hb)
  | yuv422 => exact fin _ (encode422_ok hcn hE h1 hr hsrc.full hsrc.cols_le hb (Or.inl rfl))
  | yuv420 => exact fin _ (encode420_ok hcn hE h1 h2 hr hsrc.full hsrc.cols_le hb)

/-- No vector code: nothing needs to be guaranteed. -/
def noRel : EncRel := ⟨fun _ _ => False, fun _ _ _ => False, fun _ _ _ => False⟩

theorem frameRel_none {l : Buf} {st cn : Nat} {R : Nat → Nat → Buf → Prop} :
    FrameRel l l st 0 1 cn R :=
  ⟨rfl, fun x _ hx => absurd hx (Nat.not_lt_zero x), fun _ _ => rfl⟩

/-- A target without vector code meets the contract for every `R`. -/
theorem noEnc_ok {B cn w : Nat} {s : Sampling} {R : EncRel} : noEnc.Ok B cn w (hdiv s) R := by
  intro y u v rgba _ _ _ _ _
  have h0 : chromaDone (hdiv s) 0 = 0 := by cases s <;> rfl
  refine ⟨y, u, v, 0, rfl, ⟨by omega, by simp, frameRel_none⟩, ?_, ?_⟩ <;> rw [h0] <;>
    exact frameRel_none
theorem noEnc420_ok {B cn w : Nat} {R : EncRel} : noEnc420.Ok B cn w R := by
  intro y0 y1 u v r0 r1 _ _ _ _ _ _ _ _
  exact ⟨y0, y1, u, v, 0, rfl, ⟨by omega, by simp, frameRel_none⟩,
    ⟨by omega, by simp, frameRel_none⟩, frameRel_none, frameRel_none⟩

/-- The three planes are determined by the pixels of the source: `FrameSpec` of each plane. -/
structure PlanarSpec (p : Nat) (ch : Channels) (s : Sampling) (rg : YuvRange) (m : Matrix)
    (rgba : Buf) (stride : Nat) (i out : Planar) : Prop where
  geometry : out.width = i.width ∧ out.height = i.height ∧ out.yStride = i.yStride ∧
    out.uStride = i.uStride ∧ out.vStride = i.vStride
  y : FrameSpec out.y i.y i.yStride i.width i.height 1 fun x y =>
    [luma8 p ch rg m (pixelAt rgba stride ch.count x y)]
  u : FrameSpec out.u i.u i.uStride (cover i.width (hdiv s)) (cover i.height (vdiv s)) 1 fun cx cy =>
    [cb8 p ch rg m (planarAvg i.width i.height s cx cy)
      (block rgba stride ch.count i.width i.height (hdiv s) (vdiv s) cx cy)]
  v : FrameSpec out.v i.v i.vStride (cover i.width (hdiv s)) (cover i.height (vdiv s)) 1 fun cx cy =>
    [cr8 p ch rg m (planarAvg i.width i.height s cx cy)
      (block rgba stride ch.count i.width i.height (hdiv s) (vdiv s) cx cy)]

/-- C20 without vector code: all three planes are determined. -/
theorem c20_planar_encode_exact (md : Mode) (ch : Channels) (s : Sampling) (i : Planar) (rgba : Buf)
    (stride : Nat) (rg : YuvRange) (m : Matrix) (D : Nat) (hi : GoodPlanar i s D)
    (hsrc : GoodDst rgba.length stride i.width i.height ch.count) (hb : Bytes rgba) :
    ∃ out, rgbxToYuv x64 md ch s noEnc noEnc420 i rgba stride rg m = .ok out ∧
      PlanarSpec (encodePrecision md) ch s rg m rgba stride i out := by
  obtain ⟨out, e, h⟩ := c20_planar_encode md ch s i rgba stride rg m D hi hsrc hb noRel noEnc
    noEnc420 noEnc_ok noEnc420_ok
  refine ⟨out, e, h.geometry, frameRel_eq ?_, frameRel_eq ?_, frameRel_eq ?_⟩
  · exact ⟨h.y.1, fun x y hx hy => (h.y.2.1 x y hx hy).resolve_right id, h.y.2.2⟩
  · exact ⟨h.u.1, fun x y hx hy => (h.u.2.1 x y hx hy).resolve_right id, h.u.2.2⟩
  · exact ⟨h.v.1, fun x y hx hy => (h.v.2.1 x y hx hy).resolve_right id, h.v.2.2⟩

/-- The hypotheses of C20 are met by a 3×3 source with padded rows and padded planes. -/
def demoDst420 : Planar :=
  { y := List.replicate 13 7, yStride := 4, u := List.replicate 6 7, uStride := 3
    v := List.replicate 4 7, vStride := 2, width := 3, height := 3 }

theorem demoDst420_good : GoodPlanar demoDst420 .yuv420 256 where
  wpos := by decide
  hpos := by decide
  w32 := by unfold U32; decide
  h32 := by unfold U32; decide
  y := ⟨by unfold U32; decide, by decide, by unfold FullRows; decide, by decide⟩
  u := ⟨by unfold U32; decide, by decide, by unfold FullRows; decide, by decide⟩
  v := ⟨by unfold U32; decide, by decide, by unfold FullRows; decide, by decide⟩

def demoRgb : Buf :=
  [255, 0, 0, 0, 255, 0, 0, 0, 255, 1, 1,
   255, 255, 255, 0, 0, 0, 128, 128, 129, 1, 1,
   10, 200, 90, 20, 30, 40, 250, 240, 5, 1, 1]

example : GoodDst demoRgb.length 11 3 3 3 ∧ Bytes demoRgb :=
  ⟨⟨by unfold U32; decide, by decide, by unfold FullRows; decide, by decide⟩, by
    unfold Bytes; decide⟩

example : rgbxToYuv x64 .balanced .rgb .yuv420 noEnc noEnc420 demoDst420 demoRgb 11 .limited .bt601
    = .ok { demoDst420 with
      y := [81, 145, 41, 7, 235, 16, 126, 7, 128, 40, 202, 7, 7]
      u := [100, 184, 7, 121, 23, 7]
      v := [133, 119, 88, 149] } := by decide +kernel

/-! ## What the stored samples are -/

theorem frameSpec_at {out dst : Buf} {st w h : Nat} {f : Nat → Nat → Nat}
    (hs : FrameSpec out dst st w h 1 fun x y => [f x y]) {x y : Nat} (hx : x < w) (hy : y < h) :
    at' out st x y = f x y := by
  have := hs.2.1 x y 0 hx hy (by omega)
  rw [Nat.mul_one, Nat.add_zero] at this
  unfold at'
  rw [List.getD_eq_getElem?_getD, this]
  rfl

theorem mem_pixelAt {B : Nat} {buf : Buf} (h : ∀ a ∈ buf, a < B) {stride cn x y : Nat} :
    ∀ a ∈ pixelAt buf stride cn x y, a < B :=
  fun a ha => h a (List.mem_of_mem_drop (List.mem_of_mem_take ha))

theorem getD_lt {B k : Nat} (hB : 0 < B) {px : Buf} (h : ∀ a ∈ px, a < B) : px.getD k 0 < B := by
  rw [List.getD_eq_getElem?_getD]
  rcases hk : px[k]? with _ | a
  · exact hB
  · exact h a (List.mem_of_getElem? hk)

theorem comps_lt {B : Nat} (hB : 0 < B) (ch : Channels) {px : Buf} (h : ∀ a ∈ px, a < B) :
    red ch px < B ∧ green ch px < B ∧ blue ch px < B := by
  cases ch <;> exact ⟨getD_lt hB h, getD_lt hB h, getD_lt hB h⟩

/-- The exact average of some components. -/
def mean (l : List Nat) : Rat := (l.sum : Rat) / l.length

theorem avgUp_close {l : List Nat} (hl : l ≠ []) : |(avgUp l : Rat) - mean l| ≤ 1 / 2 := by
  have hpos : 0 < l.length := List.length_pos_iff.2 hl
  unfold avgUp mean
  generalize l.sum = a at *
  generalize l.length = n at *
  have h1 := Nat.div_add_mod (a + n / 2) n
  have h2 := Nat.mod_lt (a + n / 2) hpos
  generalize (a + n / 2) / n = q at *
  have hn : (0 : Rat) < n := by exact_mod_cast hpos
  rw [show (q : Rat) - a / n = ((n * q : Rat) - a) / n by field_simp, abs_div, abs_of_pos hn,
    div_le_iff₀ hn, abs_le]
  have h3 : 2 * (n * q) ≤ 2 * a + n := by omega
  have h4 : 2 * a ≤ 2 * (n * q) + n := by omega
  have h3' : (2 : Rat) * (n * q) ≤ 2 * a + n := by exact_mod_cast h3
  have h4' : (2 : Rat) * a ≤ 2 * (n * q) + n := by exact_mod_cast h4
  constructor <;> linarith

theorem avgDown_close {l : List Nat} (hl : l.length = 2) : |(avgDown l : Rat) - mean l| ≤ 1 / 2 := by
  unfold avgDown mean
  rw [hl]
  generalize l.sum = a at *
  have h1 := Nat.div_add_mod a 2
  have h2 := Nat.mod_lt a (show 0 < 2 by omega)
  generalize a / 2 = q at *
  have h3 : 2 * q ≤ a := by omega
  have h4 : a ≤ 2 * q + 1 := by omega
  have h3' : (2 : Rat) * q ≤ a := by exact_mod_cast h3
  have h4' : (a : Rat) ≤ 2 * q + 1 := by exact_mod_cast h4
  rw [abs_le]
  push_cast
  constructor <;> linarith

theorem avg_lt {B : Nat} (hB : 0 < B) {l : List Nat} (h : ∀ a ∈ l, a < B) :
    avgUp l < B ∧ avgDown l < B := by
  by_cases hl : l = []
  · subst hl; exact ⟨hB, hB⟩
  · exact ⟨avgUp_lt hl h, avgDown_lt hl h⟩

theorem low8_encode {p : Nat} (h : p = 13 ∨ p = 15) (rg : YuvRange) (m : Matrix) {r g b : Nat}
    (hr : r < 256) (hg : g < 256) (hb : b < 256) :
    ((low8 (lumaVal p 8 rg m r g b) : Int) = lumaVal p 8 rg m r g b ∧
      (low8 (cbVal p 8 rg m r g b) : Int) = cbVal p 8 rg m r g b ∧
      (low8 (crVal p 8 rg m r g b) : Int) = crVal p 8 rg m r g b) ∧
    |(low8 (lumaVal p 8 rg m r g b) : Rat) - exactY 8 rg m r g b| ≤ 55 / 100 ∧
    |(low8 (cbVal p 8 rg m r g b) : Rat) - exactCb 8 rg m r g b| ≤ 55 / 100 ∧
    |(low8 (crVal p 8 rg m r g b) : Rat) - exactCr 8 rg m r g b| ≤ 55 / 100 := by
  have hp : EncPrec p := by rcases h with h | h <;> simp [EncPrec, h]
  obtain ⟨c1, c2, c3⟩ := encode_closed hp rg m r g b (by omega) (by omega) (by omega)
  obtain ⟨y, cb, cr, e1, e2, e3, -, -, -, a1, a2, a3⟩ :=
    c09_encode_in_nominal_range p h rg m r g b (by omega) (by omega) (by omega)
  obtain ⟨y', cb', cr', f1, f2, f3, d1, d2, d3⟩ :=
    c11_encode_close_default p h rg m r g b (by omega) (by omega) (by omega)
  rw [c1] at e1 f1; rw [c2] at e2 f2; rw [c3] at e3 f3
  injection e1 with e1; injection e2 with e2; injection e3 with e3
  injection f1 with f1; injection f2 with f2; injection f3 with f3
  subst e1 e2 e3 f1 f2 f3
  have b1 : (low8 (lumaVal p 8 rg m r g b) : Int) = lumaVal p 8 rg m r g b := a1
  have b2 : (low8 (cbVal p 8 rg m r g b) : Int) = cbVal p 8 rg m r g b := a2
  have b3 : (low8 (crVal p 8 rg m r g b) : Int) = crVal p 8 rg m r g b := a3
  refine ⟨⟨b1, b2, b3⟩, ?_, ?_, ?_⟩
  · rw [show ((low8 (lumaVal p 8 rg m r g b) : Nat) : Rat)
      = ((lumaVal p 8 rg m r g b : Int) : Rat) by rw [← Int.cast_natCast, b1]]; exact d1
  · rw [show ((low8 (cbVal p 8 rg m r g b) : Nat) : Rat)
      = ((cbVal p 8 rg m r g b : Int) : Rat) by rw [← Int.cast_natCast, b2]]; exact d2
  · rw [show ((low8 (crVal p 8 rg m r g b) : Nat) : Rat)
      = ((crVal p 8 rg m r g b : Int) : Rat) by rw [← Int.cast_natCast, b3]]; exact d3

theorem gainC8 (rg : YuvRange) : 0 ≤ gainC 8 rg / maxV 8 ∧ gainC 8 rg / maxV 8 ≤ 1 := by
  cases rg <;> decide +kernel

theorem weights (m : Matrix) : 0 ≤ kr m ∧ 0 ≤ kg m ∧ 0 ≤ kb m ∧ kr m + kg m + kb m = 1 := by
  cases m <;> decide +kernel

/-- A chroma row moves by at most as much as its largest argument: the absolute values of its
coefficients add up to the gain. -/
theorem chroma_lip {k1 k2 k3 G x y z e : Rat} (h1 : 0 ≤ k1) (h2 : 0 ≤ k2) (h3 : 0 ≤ k3)
    (hs : k1 + k2 + k3 = 1) (hk : 0 < 1 - k3) (hG : 0 ≤ G) (hG1 : G ≤ 1)
    (hx : |x| ≤ e) (hy : |y| ≤ e) (hz : |z| ≤ e) :
    |G * ((z - (k1 * x + k2 * y + k3 * z)) / (2 * (1 - k3)))| ≤ e := by
  have he : 0 ≤ e := le_trans (abs_nonneg x) hx
  rw [abs_le] at hx hy hz
  have a1 : k1 * x ≤ k1 * e := mul_le_mul_of_nonneg_left hx.2 h1
  have a2 : k1 * (-e) ≤ k1 * x := mul_le_mul_of_nonneg_left hx.1 h1
  have b1 : k2 * y ≤ k2 * e := mul_le_mul_of_nonneg_left hy.2 h2
  have b2 : k2 * (-e) ≤ k2 * y := mul_le_mul_of_nonneg_left hy.1 h2
  have c1 : (1 - k3) * z ≤ (1 - k3) * e := mul_le_mul_of_nonneg_left hz.2 hk.le
  have c2 : (1 - k3) * (-e) ≤ (1 - k3) * z := mul_le_mul_of_nonneg_left hz.1 hk.le
  have hq : |(z - (k1 * x + k2 * y + k3 * z)) / (2 * (1 - k3))| ≤ e := by
    have h2k : 0 < 2 * (1 - k3) := by linarith
    have e12 : k1 * e + k2 * e = (1 - k3) * e := by rw [← add_mul]; congr 1; linarith
    rw [abs_div, abs_of_pos h2k, div_le_iff₀ h2k, abs_le]
    constructor <;> nlinarith
  rw [abs_mul, abs_of_nonneg hG]
  calc G * _ ≤ 1 * e := mul_le_mul hG1 hq (abs_nonneg _) (by norm_num)
    _ = e := one_mul e

theorem exactCb_lip (rg : YuvRange) (m : Matrix) {r g b r' g' b' e : Rat} (hr : |r - r'| ≤ e)
    (hg : |g - g'| ≤ e) (hb : |b - b'| ≤ e) :
    |exactCb 8 rg m r g b - exactCb 8 rg m r' g' b'| ≤ e := by
  obtain ⟨w1, w2, w3, w4⟩ := weights m
  have := chroma_lip (k1 := kr m) (k2 := kg m) (k3 := kb m) w1 w2 w3 w4 (one_sub_kb_pos m)
    (gainC8 rg).1 (gainC8 rg).2 hr hg hb
  have h1 := one_sub_kb_pos m
  have h2 := maxV_pos (show Depth 8 from Or.inl rfl)
  have e1 : exactCb 8 rg m r g b - exactCb 8 rg m r' g' b' = gainC 8 rg / maxV 8 *
      ((b - b' - (kr m * (r - r') + kg m * (g - g') + kb m * (b - b'))) / (2 * (1 - kb m))) := by
    unfold exactCb exactLuma
    field_simp
    ring
  rw [e1]; exact this

theorem exactCr_lip (rg : YuvRange) (m : Matrix) {r g b r' g' b' e : Rat} (hr : |r - r'| ≤ e)
    (hg : |g - g'| ≤ e) (hb : |b - b'| ≤ e) :
    |exactCr 8 rg m r g b - exactCr 8 rg m r' g' b'| ≤ e := by
  obtain ⟨w1, w2, w3, w4⟩ := weights m
  have := chroma_lip (k1 := kb m) (k2 := kg m) (k3 := kr m) w3 w2 w1 (by linarith)
    (one_sub_kr_pos m) (gainC8 rg).1 (gainC8 rg).2 hb hg hr
  have h1 := one_sub_kr_pos m
  have h2 := maxV_pos (show Depth 8 from Or.inl rfl)
  have e1 : exactCr 8 rg m r g b - exactCr 8 rg m r' g' b' = gainC 8 rg / maxV 8 *
      ((r - r' - (kb m * (b - b') + kg m * (g - g') + kr m * (r - r'))) / (2 * (1 - kr m))) := by
    unfold exactCr exactLuma
    field_simp
    ring
  rw [e1]; exact this

/-- Chroma of a block: stored unwrapped, and close to the exact chroma of the exact mean. -/
theorem chroma8_close {p : Nat} (h : p = 13 ∨ p = 15) (ch : Channels) (rg : YuvRange) (m : Matrix)
    {blk : List Buf} (hb : ∀ px ∈ blk, ∀ a ∈ px, a < 256) {avg : List Nat → Nat}
    (havg : ∀ l, (∀ a ∈ l, a < 256) → avg l < 256)
    (hclose : ∀ l : List Nat, l.length = blk.length → |(avg l : Rat) - mean l| ≤ 1 / 2) :
    |(cb8 p ch rg m avg blk : Rat) - exactCb 8 rg m (mean (blk.map (red ch)))
      (mean (blk.map (green ch))) (mean (blk.map (blue ch)))| ≤ 105 / 100 ∧
    |(cr8 p ch rg m avg blk : Rat) - exactCr 8 rg m (mean (blk.map (red ch)))
      (mean (blk.map (green ch))) (mean (blk.map (blue ch)))| ≤ 105 / 100 := by
  have lt : ∀ f : Buf → Nat, (∀ px, (∀ a ∈ px, a < 256) → f px < 256) →
      ∀ a ∈ blk.map f, a < 256 := by
    intro f hf a ha
    obtain ⟨px, hpx, rfl⟩ := List.mem_map.1 ha
    exact hf px (hb px hpx)
  have r1 := havg _ (lt (red ch) fun px hp => (comps_lt (by omega) ch hp).1)
  have g1 := havg _ (lt (green ch) fun px hp => (comps_lt (by omega) ch hp).2.1)
  have b1 := havg _ (lt (blue ch) fun px hp => (comps_lt (by omega) ch hp).2.2)
  obtain ⟨-, -, h2, h3⟩ := low8_encode h rg m r1 g1 b1
  have cr := hclose (blk.map (red ch)) (by simp)
  have cg := hclose (blk.map (green ch)) (by simp)
  have cb := hclose (blk.map (blue ch)) (by simp)
  have l1 := exactCb_lip rg m cr cg cb
  have l2 := exactCr_lip rg m cr cg cb
  unfold cb8 cr8
  constructor
  · refine le_trans (abs_sub_le _ _ _) (le_trans (add_le_add h2 l1) ?_); norm_num
  · refine le_trans (abs_sub_le _ _ _) (le_trans (add_le_add h3 l2) ?_); norm_num

theorem mem_block {B : Nat} {buf : Buf} (h : ∀ a ∈ buf, a < B) {stride cn w hh hd vd cx cy : Nat} :
    ∀ px ∈ block buf stride cn w hh hd vd cx cy, ∀ a ∈ px, a < B := by
  intro px hpx
  unfold block at hpx
  rw [List.mem_flatMap] at hpx
  obtain ⟨y, _, hy⟩ := hpx
  obtain ⟨x, _, rfl⟩ := List.mem_map.1 hy
  exact mem_pixelAt h

theorem block_length {buf : Buf} {stride cn w hh hd vd cx cy : Nat} :
    (block buf stride cn w hh hd vd cx cy).length
      = (blockCols hh vd cy).length * (blockCols w hd cx).length := by
  unfold block
  generalize blockCols hh vd cy = l
  induction l with
  | nil => simp
  | cons a l ih => simp only [List.flatMap_cons, List.length_append, List.length_map, ih,
      List.length_cons, Nat.succ_mul]; omega

theorem blockCols_pos {n d c : Nat} (hn : 0 < n) (hd : 0 < d) (h : c < cover n d) :
    0 < (blockCols n d c).length := by
  have hc : d * c < n := by
    unfold cover at h
    have : c ≤ (n - 1) / d := by omega
    have := (Nat.le_div_iff_mul_le hd).1 this
    rw [Nat.mul_comm] at this
    omega
  apply List.length_pos_of_mem (a := d * c)
  unfold blockCols
  rw [List.mem_filter]
  exact ⟨List.mem_map.2 ⟨0, List.mem_range.2 hd, by omega⟩, by simpa using hc⟩

theorem planarAvg_close {w h : Nat} (hw : 0 < w) (hh : 0 < h) {s : Sampling} {cx cy : Nat}
    (hx : cx < cover w (hdiv s)) (hy : cy < cover h (vdiv s)) {buf : Buf} {stride cn : Nat} :
    (∀ l, (∀ a ∈ l, a < 256) → planarAvg w h s cx cy l < 256) ∧
    ∀ l : List Nat, l.length = (block buf stride cn w h (hdiv s) (vdiv s) cx cy).length →
      |(planarAvg w h s cx cy l : Rat) - mean l| ≤ 1 / 2 := by
  have p1 := blockCols_pos hw (show 0 < hdiv s by cases s <;> decide) hx
  have p2 := blockCols_pos hh (show 0 < vdiv s by cases s <;> decide) hy
  unfold planarAvg
  split
  · rename_i hl
    refine ⟨fun l hl => (avg_lt (by omega) hl).2, fun l e => avgDown_close ?_⟩
    unfold lastColumn at hl
    rw [decide_eq_true_iff] at hl
    obtain ⟨h1, h2, h3, h4⟩ := hl
    rw [e, block_length, h1, h2, blockCols_two h4, blockCols_two_last h3]
    rfl
  · refine ⟨fun l hl => (avg_lt (by omega) hl).1, fun l e => avgUp_close ?_⟩
    rw [← List.length_pos_iff, e, block_length]
    exact Nat.mul_pos p2 p1

/-- C11 and C20 at the API: after a successful Balanced or Professional encode every luma sample is
within 0.55 code values of the exact ITU-R luma of its pixel, and every chroma sample within 1.05
code values of the exact chroma of the exact mean of the pixels it covers. -/
theorem c11_planar_encode_close (md : Mode) (hmd : md ≠ .fast) (ch : Channels) (s : Sampling)
    (i : Planar) (rgba : Buf) (stride : Nat) (rg : YuvRange) (m : Matrix) (D : Nat)
    (hi : GoodPlanar i s D) (hsrc : GoodDst rgba.length stride i.width i.height ch.count)
    (hb : Bytes rgba) :
    ∃ out, rgbxToYuv x64 md ch s noEnc noEnc420 i rgba stride rg m = .ok out ∧
      (∀ x y, x < i.width → y < i.height →
        let px := pixelAt rgba stride ch.count x y
        |(at' out.y i.yStride x y : Rat) - exactY 8 rg m (red ch px) (green ch px) (blue ch px)|
          ≤ 55 / 100) ∧
      (∀ cx cy, cx < cover i.width (hdiv s) → cy < cover i.height (vdiv s) →
        let blk := block rgba stride ch.count i.width i.height (hdiv s) (vdiv s) cx cy
        let r := mean (blk.map (red ch))
        let g := mean (blk.map (green ch))
        let b := mean (blk.map (blue ch))
        |(at' out.u i.uStride cx cy : Rat) - exactCb 8 rg m r g b| ≤ 105 / 100 ∧
        |(at' out.v i.vStride cx cy : Rat) - exactCr 8 rg m r g b| ≤ 105 / 100) := by
  have hp : encodePrecision md = 13 ∨ encodePrecision md = 15 := by
    cases md
    · exact absurd rfl hmd
    · exact Or.inl rfl
    · exact Or.inr rfl
  obtain ⟨out, e, hs⟩ := c20_planar_encode_exact md ch s i rgba stride rg m D hi hsrc hb
  refine ⟨out, e, fun x y hx hy => ?_, fun cx cy hx hy => ?_⟩
  · intro px
    rw [frameSpec_at hs.y hx hy]
    obtain ⟨r1, g1, b1⟩ := comps_lt (by omega) ch (mem_pixelAt hb (stride := stride)
      (cn := ch.count) (x := x) (y := y))
    exact (low8_encode hp rg m r1 g1 b1).2.1
  · intro blk r g b
    rw [frameSpec_at hs.u hx hy, frameSpec_at hs.v hx hy]
    obtain ⟨a1, a2⟩ := planarAvg_close hi.wpos hi.hpos hx hy (buf := rgba) (stride := stride)
      (cn := ch.count)
    exact chroma8_close hp ch rg m (mem_block hb) a1 a2

/-! ## C13 at the API: the 4:4:4 round trip -/

theorem frameSpec_bound {out dst : Buf} {st w h B : Nat} {f : Nat → Nat → Nat}
    (hs : FrameSpec out dst st w h 1 fun x y => [f x y]) (hd : ∀ a ∈ dst, a < B)
    (hf : ∀ x y, f x y < B) : ∀ a ∈ out, a < B := by
  intro a ha
  obtain ⟨j, hj⟩ := List.mem_iff_getElem?.1 ha
  by_cases hin : InFrame st w h 1 j
  · obtain ⟨x, y, c, hx, hy, hc, rfl⟩ := hin
    rw [hs.2.1 x y c hx hy hc] at hj
    obtain rfl : c = 0 := by omega
    simp only [List.getElem?_cons_zero, Option.some.injEq] at hj
    rw [← hj]; exact hf x y
  · rw [hs.2.2 j hin] at hj
    exact hd a (List.mem_of_getElem? hj)

theorem low8_lt (x : Int) : low8 x < 256 := by unfold low8; omega

/-- The encoded image is a good image again. -/
theorem PlanarSpec.good {p : Nat} {ch : Channels} {s : Sampling} {rg : YuvRange} {m : Matrix}
    {rgba : Buf} {stride : Nat} {i out : Planar} (h : PlanarSpec p ch s rg m rgba stride i out)
    (hi : GoodPlanar i s 256) : GoodPlanar out s 256 := by
  obtain ⟨g1, g2, g3, g4, g5⟩ := h.geometry
  refine ⟨g1 ▸ hi.wpos, g2 ▸ hi.hpos, g1 ▸ hi.w32, g2 ▸ hi.h32, ?_, ?_, ?_⟩
  · rw [g1, g2, g3]
    exact ⟨hi.y.stride32, hi.y.cols_le, by rw [h.y.1]; exact hi.y.full,
      frameSpec_bound h.y hi.y.bound fun _ _ => low8_lt _⟩
  · rw [g1, g2, g4]
    exact ⟨hi.u.stride32, hi.u.cols_le, by rw [h.u.1]; exact hi.u.full,
      frameSpec_bound h.u hi.u.bound fun _ _ => low8_lt _⟩
  · rw [g1, g2, g5]
    exact ⟨hi.v.stride32, hi.v.cols_le, by rw [h.v.1]; exact hi.v.full,
      frameSpec_bound h.v hi.v.bound fun _ _ => low8_lt _⟩

/-- C13 at the API: encoding an RGB(A) image to a 4:4:4 image (Balanced or Professional) and
decoding the result with the same matrix and range, into any channel order, returns every pixel
with red and blue within 2 and green within 1. -/
theorem c13_api_round_trip (md : Mode) (hmd : md ≠ .fast) (ch ch' : Channels) (i : Planar)
    (rgba dst : Buf) (stride stride' : Nat) (rg : YuvRange) (m : Matrix)
    (hi : GoodPlanar i .yuv444 256) (hsrc : GoodDst rgba.length stride i.width i.height ch.count)
    (hb : Bytes rgba) (hdst : GoodDst dst.length stride' i.width i.height ch'.count) :
    ∃ yuv out, rgbxToYuv x64 md ch .yuv444 noEnc noEnc420 i rgba stride rg m = .ok yuv ∧
      yuvToRgbx x64 ch' .yuv444 noSimd noSimd420 yuv dst stride' rg m = .ok out ∧
      ∀ x y, x < i.width → y < i.height →
        let px := pixelAt rgba stride ch.count x y
        ∃ r g b : Nat, pixelAt out stride' ch'.count x y = layout ch' r g b 255 ∧
          (r ≤ red ch px + 2 ∧ red ch px ≤ r + 2) ∧ (g ≤ green ch px + 1 ∧ green ch px ≤ g + 1) ∧
          (b ≤ blue ch px + 2 ∧ blue ch px ≤ b + 2) := by
  have hp : encodePrecision md = 13 ∨ encodePrecision md = 15 := by
    cases md
    · exact absurd rfl hmd
    · exact Or.inl rfl
    · exact Or.inr rfl
  obtain ⟨yuv, e, hs⟩ := c20_planar_encode_exact md ch .yuv444 i rgba stride rg m 256 hi hsrc hb
  have hg := hs.good hi
  obtain ⟨g1, g2, g3, g4, g5⟩ := hs.geometry
  rw [← g1, ← g2] at hdst
  obtain ⟨out, e', hr⟩ := c15_planar_decode ch' .yuv444 yuv dst stride' rg m hg hdst
    (fun _ _ _ _ => False) noSimd noSimd420 noSimd_ok noSimd420_ok
  refine ⟨yuv, out, e, e', fun x y hx hy => ?_⟩
  intro px
  have hpx := (hr.2.1 x y (g1 ▸ hx) (g2 ▸ hy)).resolve_right id
  obtain ⟨r1, gr1, b1⟩ : red ch px < 256 ∧ green ch px < 256 ∧ blue ch px < 256 :=
    comps_lt (by omega) ch (mem_pixelAt hb)
  obtain ⟨Y, Cb, Cr, r', g', b', f1, f2, f3, f4, d⟩ := c13_round_trip (encodePrecision md) hp rg m
    (red ch px) (green ch px) (blue ch px) (by omega) (by omega) (by omega) decodeRow (Or.inl rfl)
  obtain ⟨c1, c2, c3⟩ := encode_closed (encPrec md) rg m (red ch px) (green ch px) (blue ch px)
    (by omega) (by omega) (by omega)
  rw [c1] at f1; rw [c2] at f2; rw [c3] at f3
  injection f1 with f1; injection f2 with f2; injection f3 with f3
  have cx : x < cover i.width (hdiv .yuv444) := by
    simp only [cover, hdiv, Nat.div_one]; omega
  have cy : y < cover i.height (vdiv .yuv444) := by
    simp only [cover, vdiv, Nat.div_one]; omega
  have hblk : block rgba stride ch.count i.width i.height (hdiv .yuv444) (vdiv .yuv444) x y = [px] := by
    simp only [hdiv, vdiv, block, blockCols_one hx, blockCols_one hy]
    rfl
  have havg : planarAvg i.width i.height .yuv444 x y = avgUp := by
    simp [planarAvg, lastColumn, hdiv]
  have hY : Planar.Y yuv x y = asU8 Y := by
    unfold Planar.Y
    rw [g3, frameSpec_at hs.y hx hy, ← f1]
    rfl
  have hU : Planar.U yuv .yuv444 x y = asU8 Cb := by
    unfold Planar.U
    rw [g4]
    simp only [hdiv, vdiv, Nat.div_one]
    rw [frameSpec_at hs.u cx cy, hblk, havg, ← f2]
    simp only [cb8, List.map_cons, List.map_nil, avgUp_one]
    rfl
  have hV : Planar.V yuv .yuv444 x y = asU8 Cr := by
    unfold Planar.V
    rw [g5]
    simp only [hdiv, vdiv, Nat.div_one]
    rw [frameSpec_at hs.v cx cy, hblk, havg, ← f3]
    simp only [cr8, List.map_cons, List.map_nil, avgUp_one]
    rfl
  have lt8 : ∀ z, asU8 z < 256 := fun z => by unfold asU8; omega
  obtain ⟨r, g, b, k1, _, _, _, k2⟩ := kernel_decodeRGB
    (show DecodeCfg 13 8 from Or.inr (Or.inl ⟨rfl, Or.inl rfl⟩)) rg m (Or.inl rfl) (k := decodeRow)
    (lt8 Y) (lt8 Cb) (lt8 Cr)
  rw [k2] at f4
  injection f4 with f4
  simp only [Prod.mk.injEq] at f4
  obtain ⟨rfl, rfl, rfl⟩ := f4
  refine ⟨r, g, b, ?_, ?_⟩
  · rw [hpx]
    unfold planarPixel decodedPixel
    rw [hY, hU, hV]
    simp only [k1]
  · omega

/-! ## C23 for the encoder -/

/-- C23 (encoding): the encoded planes depend on the source pixels only — not on the source stride,
its row padding or elements after its last row. -/
theorem c23_encode_padding_irrelevant (md : Mode) (ch : Channels) (s : Sampling) (i : Planar)
    (rgba rgba' : Buf) (stride stride' : Nat) (rg : YuvRange) (m : Matrix) (D : Nat)
    (hi : GoodPlanar i s D) (hsrc : GoodDst rgba.length stride i.width i.height ch.count)
    (hsrc' : GoodDst rgba'.length stride' i.width i.height ch.count)
    (hb : Bytes rgba) (hb' : Bytes rgba')
    (hsame : ∀ x y, x < i.width → y < i.height →
      pixelAt rgba stride ch.count x y = pixelAt rgba' stride' ch.count x y) :
    ∃ out, rgbxToYuv x64 md ch s noEnc noEnc420 i rgba stride rg m = .ok out ∧
      rgbxToYuv x64 md ch s noEnc noEnc420 i rgba' stride' rg m = .ok out := by
  obtain ⟨out, e, h⟩ := c20_planar_encode_exact md ch s i rgba stride rg m D hi hsrc hb
  obtain ⟨out', e', h'⟩ := c20_planar_encode_exact md ch s i rgba' stride' rg m D hi hsrc' hb'
  have hblk : ∀ cx cy, block rgba stride ch.count i.width i.height (hdiv s) (vdiv s) cx cy
      = block rgba' stride' ch.count i.width i.height (hdiv s) (vdiv s) cx cy := by
    intro cx cy
    unfold block
    refine List.flatMap_congr fun y hy => List.map_congr_left fun x hx => ?_
    exact hsame x y (blockCols_lt hx) (blockCols_lt hy)
  refine ⟨out, e, ?_⟩
  rw [e']
  obtain ⟨g1, g2, g3, g4, g5⟩ := h.geometry
  obtain ⟨g1', g2', g3', g4', g5'⟩ := h'.geometry
  have ey : out'.y = out.y := frameSpec_unique h'.y (by
    refine ⟨h.y.1, fun x y c hx hy hc => ?_, h.y.2.2⟩
    rw [h.y.2.1 x y c hx hy hc]
    simp only [hsame x y hx hy])
  have eu : out'.u = out.u := frameSpec_unique h'.u (by
    have := h.u
    simp only [hblk] at this
    exact this)
  have ev : out'.v = out.v := frameSpec_unique h'.v (by
    have := h.v
    simp only [hblk] at this
    exact this)
  have : ∀ a b : Planar, a.width = b.width → a.height = b.height → a.yStride = b.yStride →
      a.uStride = b.uStride → a.vStride = b.vStride → a.y = b.y → a.u = b.u → a.v = b.v → a = b := by
    intro a b; cases a; cases b; simp_all
  rw [this out' out (g1'.trans g1.symm) (g2'.trans g2.symm) (g3'.trans g3.symm)
    (g4'.trans g4.symm) (g5'.trans g5.symm) ey eu ev]

end Verif
