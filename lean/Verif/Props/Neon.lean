import Verif.Lemmas.NeonRows
import Verif.Lemmas.Accept
import Verif.Props.X86Decode
import Verif.Props.X86NvModes
import Verif.Props.X86Gray
import Verif.Props.Yuy2
/-!
# C106, C107, C108: the 8-bit decoders on 64-bit ARM
-/
namespace Verif
open Spec Neon

/-- The pixel at `(x, y)` of a planar image. -/
def neonPlanarPixel (rdm : Bool) (ch : Channels) (s : Sampling) (i : Planar) (rg : YuvRange) (m : Matrix)
    (x y : Nat) : Buf :=
  neonPixel rdm (neonPaired s i.height y) ch rg m (Planar.Y i x y) (Planar.U i s x y) (Planar.V i s x y)

/-- The pixel at `(x, y)` of a semi-planar image. -/
def neonNvPixel (rdm : Bool) (o : NVOrder) (ch : Channels) (s : Sampling) (i : BiPlanar) (rg : YuvRange)
    (m : Matrix) (x y : Nat) : Buf :=
  neonPixel rdm (neonPaired s i.height y) ch rg m (BiPlanar.Y i x y) (BiPlanar.U i s o x y)
    (BiPlanar.V i s o x y)

/-- The grey level of a luma sample. -/
def neonGrayLevel (rdm : Bool) (rg : YuvRange) (m : Matrix) (y : Nat) : Nat :=
  match rg with
  | .full => y
  | .limited => neonGray rdm m y

/-! ## C106 -/

theorem neonPaired_last {h y : Nat} (hy : y = 2 * (h / 2)) : neonPaired .yuv420 h y = false := by
  unfold neonPaired; rw [hy]; simp

theorem neonPaired_pair {h y : Nat} (hy : ¬ y = 2 * (h / 2)) : neonPaired .yuv420 h y = true := by
  unfold neonPaired
  rw [show (y != 2 * (h / 2)) = true from bne_iff_ne.2 hy]
  rfl

theorem neon_decode_rel (rdm : Bool) (ch : Channels) (s : Sampling) (i : Planar) (rgba : Buf)
    (stride : Nat) (rg : YuvRange) (m : Matrix) (hi : GoodPlanar i s 256)
    (hdst : GoodDst rgba.length stride i.width i.height ch.count) :
    ∃ out, yuvToRgbxNeon rdm ch s i rgba stride rg m = .ok out ∧
      FrameRel out rgba stride i.width i.height ch.count (fun x y p =>
        p = neonPlanarPixel rdm ch s i rg m x y) := by
  obtain ⟨hb, hby⟩ := range_bias rg
  have hr := hi.rows
  have hcfg : DecodeCfg 13 8 := Or.inr (Or.inl ⟨rfl, Or.inl rfl⟩)
  have hcn := count_pos ch
  have hst : 0 < stride := Nat.lt_of_lt_of_le (Nat.mul_pos hr.wpos hcn) hdst.cols_le
  have p1 := putRow_ok hcfg ch rg m
  have p2 := putTwoRow_ok hcfg ch rg m
  have h1 := rowHandler_fills (rdm := rdm) (w := i.width) s ch hb hby (coef16_search rg m)
    (decodedPixel 13 8 ch rg m 255)
  have h2 := rowHandler420_fills (rdm := rdm) (w := i.width) ch hb hby (coef16_search rg m)
    (decodedPixel 13 8 ch rg m 255)
  unfold yuvToRgbxNeon yuvToRgbx yuvToRgbxImpl
  simp only []
  rw [hdst.accepted hi.wpos hi.hpos hi.w32 hi.h32 hcn (count_le ch), hi.accepted]
  simp only [Outcome.bind_ok]
  cases s with
  | yuv444 =>
    exact (decode444_q hr hcn p1 h1 hdst.cols_le hdst.full).spec hcn hst hdst.cols_le hdst.full.1
  | yuv422 =>
    exact (decode422_q hr hcn p1 h1 hdst.cols_le hdst.full).spec hcn hst hdst.cols_le hdst.full.1
  | yuv420 =>
    obtain ⟨out, e, h⟩ := (decode420_q hr hcn p1 p2 h1 h2 hdst.cols_le hdst.full).spec hcn hst
      hdst.cols_le hdst.full.1
    refine ⟨out, e, h.1, fun x y hx hy => ?_, h.2.2⟩
    have q := h.2.1 x y hx hy
    unfold neonPlanarPixel
    by_cases hy : y = 2 * (i.height / 2)
    · simp only [if_pos hy] at q
      simp only [neonPaired_last hy]
      exact q
    · simp only [if_neg hy] at q
      simp only [neonPaired_pair hy]
      exact q

/-- C106: on 64-bit ARM, with and without the rounding multiply-accumulate instructions, the 8-bit planar
decoder succeeds on every good image and destination — no load or store of the vector code leaves its
slice, whatever the width, the strides and the padding — and writes exactly the pixels of the image, each
the vector decoding (`neonPixel`) of the samples shown there, also at the end of a row. -/
theorem c106_neon_planar_decode (rdm : Bool) (ch : Channels) (s : Sampling) (i : Planar) (rgba : Buf)
    (stride : Nat) (rg : YuvRange) (m : Matrix) (hi : GoodPlanar i s 256)
    (hdst : GoodDst rgba.length stride i.width i.height ch.count) :
    ∃ out, yuvToRgbxNeon rdm ch s i rgba stride rg m = .ok out ∧
      FrameSpec out rgba stride i.width i.height ch.count (neonPlanarPixel rdm ch s i rg m) := by
  obtain ⟨out, e, h⟩ := neon_decode_rel rdm ch s i rgba stride rg m hi hdst
  exact ⟨out, e, frameRel_eq h⟩

theorem neon_nv_rel (rdm : Bool) (o : NVOrder) (ch : Channels) (s : Sampling) (i : BiPlanar) (rgba : Buf)
    (stride : Nat) (rg : YuvRange) (m : Matrix) (hi : GoodBiPlanar i s 256)
    (hdst : GoodDst rgba.length stride i.width i.height ch.count) :
    ∃ out, nvToRgbxNeon rdm o ch s i rgba stride rg m = .ok out ∧
      FrameRel out rgba stride i.width i.height ch.count (fun x y p =>
        p = neonNvPixel rdm o ch s i rg m x y) := by
  obtain ⟨hb, hby⟩ := range_bias rg
  have hr := hi.rows
  have hcn := count_pos ch
  have hst : 0 < stride := Nat.lt_of_lt_of_le (Nat.mul_pos hr.wpos hcn) hdst.cols_le
  have p1 := putRow_ok (nvCfg .balanced) ch rg m
  have p2 := putTwoRow_ok (nvCfg .balanced) ch rg m
  have h1 := rowHandlerNV_fills (rdm := rdm) (w := i.width) o s ch hb hby (coef16_search rg m)
    (decodedPixel 13 8 ch rg m 255)
  have h2 := rowHandlerNV420_fills (rdm := rdm) (w := i.width) o ch hb hby (coef16_search rg m)
    (decodedPixel 13 8 ch rg m 255)
  have hU : ∀ s x y, BiPlanar.U i s o x y
      = at' i.uv i.uvStride (2 * (x / hdiv s) + o.uPos) (y / vdiv s) := by
    intro s x y; cases o <;> rfl
  have hV : ∀ s x y, BiPlanar.V i s o x y
      = at' i.uv i.uvStride (2 * (x / hdiv s) + o.vPos) (y / vdiv s) := by
    intro s x y; cases o <;> rfl
  have fin : ∀ {oc : Outcome Buf} {P : Nat → Nat → Buf → Prop}, (∃ out, oc = .ok out ∧
      FrameRel out rgba stride i.width i.height ch.count P) →
      (∀ x y p, P x y p → p = neonPixel rdm (neonPaired s i.height y) ch rg m (at' i.y i.yStride x y)
          (at' i.uv i.uvStride (2 * (x / hdiv s) + o.uPos) (y / vdiv s))
          (at' i.uv i.uvStride (2 * (x / hdiv s) + o.vPos) (y / vdiv s))) →
      ∃ out, oc = .ok out ∧ FrameRel out rgba stride i.width i.height ch.count (fun x y p =>
          p = neonNvPixel rdm o ch s i rg m x y) := by
    rintro oc P ⟨out, e, h⟩ hp
    refine ⟨out, e, h.1, fun x y hx hy => ?_, h.2.2⟩
    refine (hp x y _ (h.2.1 x y hx hy)).trans ?_
    unfold neonNvPixel
    simp only [hU, hV]
    rfl
  unfold nvToRgbxNeon nvToRgbx nvToRgbxImpl
  simp only []
  rw [hdst.accepted hi.wpos hi.hpos hi.w32 hi.h32 hcn (count_le ch), hi.accepted]
  simp only [Outcome.bind_ok]
  cases s with
  | yuv444 =>
    exact fin ((nvDecode444_q hr hcn p1 h1 hdst.cols_le hdst.full).spec hcn hst hdst.cols_le
      hdst.full.1) fun x y p h => h
  | yuv422 =>
    exact fin ((nvDecode422_q hr hcn p1 h1 hdst.cols_le hdst.full).spec hcn hst hdst.cols_le
      hdst.full.1) fun x y p h => h
  | yuv420 =>
    refine fin ((nvDecode420_q hr hcn p1 p2 h1 h2 hdst.cols_le hdst.full).spec hcn hst hdst.cols_le
      hdst.full.1) fun x y p q => ?_
    by_cases hy : y = 2 * (i.height / 2)
    · simp only [if_pos hy] at q
      rw [neonPaired_last hy]
      exact q
    · simp only [if_neg hy] at q
      rw [neonPaired_pair hy]
      exact q

/-- C106: the same for the semi-planar decoder (balanced mode). -/
theorem c106_neon_nv_decode (rdm : Bool) (o : NVOrder) (ch : Channels) (s : Sampling) (i : BiPlanar)
    (rgba : Buf) (stride : Nat) (rg : YuvRange) (m : Matrix) (hi : GoodBiPlanar i s 256)
    (hdst : GoodDst rgba.length stride i.width i.height ch.count) :
    ∃ out, nvToRgbxNeon rdm o ch s i rgba stride rg m = .ok out ∧
      FrameSpec out rgba stride i.width i.height ch.count (neonNvPixel rdm o ch s i rg m) := by
  obtain ⟨out, e, h⟩ := neon_nv_rel rdm o ch s i rgba stride rg m hi hdst
  exact ⟨out, e, frameRel_eq h⟩

/-- C106: the same for the grey decoder: every pixel is grey and opaque. -/
theorem c106_neon_gray_decode (rdm : Bool) (ch : Channels) (i : Gray) (rgba : Buf) (stride : Nat)
    (rg : YuvRange) (m : Matrix) (hi : GoodGray i 256)
    (hd : GoodDst rgba.length stride i.width i.height ch.count) :
    ∃ out, yToRgbxNeon rdm ch i rgba stride rg m = .ok out ∧
      FrameSpec out rgba stride i.width i.height ch.count (fun x y =>
        let l := neonGrayLevel rdm rg m (at' i.y i.yStride x y)
        layout ch l l l 255) := by
  have hcn := count_pos ch
  have hs : ∀ s ∈ graySrc i, GoodSrc s i.width i.height 256 := by
    intro s hs; rw [List.mem_singleton] at hs; subst hs; exact goodSrc_plane hi.y
  cases rg with
  | full => exact c26_gray_decode_exact ch i rgba stride .full m hi hd
  | limited =>
    unfold yToRgbxNeon yToRgbx
    rw [hd.accepted hi.wpos hi.hpos hi.w32 hi.h32 hcn (count_le ch), hi.accepted]
    simp only [Outcome.bind_ok]
    obtain ⟨out, e, h⟩ := mapFrame_cols (cutDst := true) hi.wpos hcn hs
      (grayBody_ok (a := 255) (ch := ch) Nat.one_pos (fun y hy => grayVal8_ok .limited m hy))
      (Neon.grayHandler_fills (rdm := rdm) ch m hi.wpos rfl) hd.cols_le hd.full (Or.inl rfl)
    refine ⟨out, e, frameRel_eq ⟨h.1, fun x y hx hy => ?_, h.2.2⟩⟩
    have := h.2.1 x y hx hy
    simp only [pixelsAt, List.map_cons, List.map_nil] at this
    rw [pixelAt_one hx hy hi.y] at this
    rw [this]
    rfl

/-- C106: swapping the two elements of every chroma pair and reading the image in the other order
(NV12 as NV21, …) gives identical bytes. -/
theorem c106_nv21_is_swapped_nv12 (rdm : Bool) (ch : Channels) (s : Sampling) (i j : BiPlanar)
    (rgba : Buf) (stride : Nat) (rg : YuvRange) (m : Matrix) (hi : GoodBiPlanar i s 256)
    (hj : GoodBiPlanar j s 256) (hw : i.width = j.width) (hh : i.height = j.height)
    (hY : ∀ x y, x < i.width → y < i.height → at' i.y i.yStride x y = at' j.y j.yStride x y)
    (hC : ∀ cx cy, cx < cover i.width (hdiv s) → cy < cover i.height (vdiv s) →
      at' i.uv i.uvStride (2 * cx) cy = at' j.uv j.uvStride (2 * cx + 1) cy ∧
      at' i.uv i.uvStride (2 * cx + 1) cy = at' j.uv j.uvStride (2 * cx) cy)
    (hdst : GoodDst rgba.length stride i.width i.height ch.count) :
    ∃ out, nvToRgbxNeon rdm .uv ch s i rgba stride rg m = .ok out ∧
      nvToRgbxNeon rdm .vu ch s j rgba stride rg m = .ok out := by
  obtain ⟨out, e, h⟩ := neon_nv_rel rdm .uv ch s i rgba stride rg m hi hdst
  rw [hw, hh] at hdst
  obtain ⟨out', e', h'⟩ := neon_nv_rel rdm .vu ch s j rgba stride rg m hj hdst
  refine ⟨out, e, ?_⟩
  rw [e']
  congr 1
  refine frameSpec_unique (frameRel_eq h') ?_
  rw [← hw, ← hh]
  refine frameRel_eq ⟨h.1, fun x y hx hy => ?_, h.2.2⟩
  rw [h.2.1 x y hx hy]
  have a : BiPlanar.Y i x y = BiPlanar.Y j x y := hY x y hx hy
  obtain ⟨b, c⟩ := swapped_samples hi hC hx hy
  simp only [neonNvPixel, a, b, c, hh]

/-- C106: a planar image and the semi-planar image with the same samples decode to identical bytes. -/
theorem c106_nv_is_planar (rdm : Bool) (o : NVOrder) (ch : Channels) (s : Sampling) (i : Planar)
    (j : BiPlanar) (rgba : Buf) (stride : Nat) (rg : YuvRange) (m : Matrix) (hi : GoodPlanar i s 256)
    (hj : GoodBiPlanar j s 256) (hw : i.width = j.width) (hh : i.height = j.height)
    (hS : ∀ x y, x < i.width → y < i.height → Planar.Y i x y = BiPlanar.Y j x y ∧
      Planar.U i s x y = BiPlanar.U j s o x y ∧ Planar.V i s x y = BiPlanar.V j s o x y)
    (hdst : GoodDst rgba.length stride i.width i.height ch.count) :
    ∃ out, yuvToRgbxNeon rdm ch s i rgba stride rg m = .ok out ∧
      nvToRgbxNeon rdm o ch s j rgba stride rg m = .ok out := by
  obtain ⟨out, e, h⟩ := neon_decode_rel rdm ch s i rgba stride rg m hi hdst
  rw [hw, hh] at hdst
  obtain ⟨out', e', h'⟩ := neon_nv_rel rdm o ch s j rgba stride rg m hj hdst
  refine ⟨out, e, ?_⟩
  rw [e']
  congr 1
  refine frameSpec_unique (frameRel_eq h') ?_
  rw [← hw, ← hh]
  refine frameRel_eq ⟨h.1, fun x y hx hy => ?_, h.2.2⟩
  rw [h.2.1 x y hx hy]
  obtain ⟨a, b, c⟩ := hS x y hx hy
  simp only [neonNvPixel, neonPlanarPixel, a, b, c, hh]

/-- A 9×3 4:2:0 image of one colour. -/
def flat93 (y u v : Nat) : Planar :=
  ⟨List.replicate 27 y, 9, List.replicate 10 u, 5, List.replicate 10 v, 5, 9, 3⟩

/-- A 9×3 NV12 image of one colour. -/
def flatNv93 (y u v : Nat) : BiPlanar :=
  ⟨List.replicate 27 y, 9, (List.replicate 10 [u, v]).flatten, 10, 9, 3⟩

theorem flat93_good : GoodPlanar (flat93 80 90 100) .yuv420 256 where
  wpos := by decide
  hpos := by decide
  w32 := by unfold U32; decide
  h32 := by unfold U32; decide
  y := ⟨by unfold U32; decide, by decide, by unfold FullRows; decide, by decide⟩
  u := ⟨by unfold U32; decide, by decide, by unfold FullRows; decide, by decide⟩
  v := ⟨by unfold U32; decide, by decide, by unfold FullRows; decide, by decide⟩

theorem flatNv93_good : GoodBiPlanar (flatNv93 80 90 100) .yuv420 256 where
  wpos := by decide
  hpos := by decide
  w32 := by unfold U32; decide
  h32 := by unfold U32; decide
  y := ⟨by unfold U32; decide, by decide, by unfold FullRows; decide, by decide⟩
  uvStride := by decide
  uvStride32 := by unfold U32; decide
  uvLen := by decide
  uvBound := by decide

theorem dst93 : GoodDst (List.replicate 81 0 : Buf).length 27 9 3 3 :=
  ⟨by unfold U32; decide, by decide, by unfold FullRows; decide, by decide⟩

example : GoodPlanar (flat93 80 90 100) .yuv420 256 ∧ GoodBiPlanar (flatNv93 80 90 100) .yuv420 256 ∧
    GoodDst (List.replicate 81 0 : Buf).length 27 9 3 3 := ⟨flat93_good, flatNv93_good, dst93⟩

/-! ## C107: agreement with the portable code -/

/-- Two opaque pixels whose red and blue differ by at most two and whose green differs by at most
three code values. -/
def NeonNear (ch : Channels) (p q : Buf) : Prop :=
  ∃ r g b r' g' b' : Nat, p = layout ch r g b 255 ∧ q = layout ch r' g' b' 255 ∧
    (r ≤ r' + 2 ∧ r' ≤ r + 2) ∧ (g ≤ g' + 3 ∧ g' ≤ g + 3) ∧ (b ≤ b' + 2 ∧ b' ≤ b + 2)

/-- How far the luma term is from the exact product. -/
theorem luma_near (rdm : Bool) (rg : YuvRange) (m : Matrix) {y : Nat} (hy : y < 256)
    (hb : (getYuvRange 8 rg).biasY ≤ y) :
    let t := searchInverse 13 8 rg m
    let D := 8192 * neonLuma rdm t (y - (getYuvRange 8 rg).biasY)
      - ((y : Int) - (getYuvRange 8 rg).biasY) * t.y
    if rdm then -4095 ≤ D ∧ D ≤ 13635 else -8191 ≤ D ∧ D ≤ 9539 := by
  have h : ∀ y, y < 256 → (getYuvRange 8 rg).biasY ≤ y →
    let t := searchInverse 13 8 rg m
    let D := 8192 * neonLuma rdm t (y - (getYuvRange 8 rg).biasY)
      - ((y : Int) - (getYuvRange 8 rg).biasY) * t.y
    if rdm then -4095 ≤ D ∧ D ≤ 13635 else -8191 ≤ D ∧ D ≤ 9539 := by
    cases rdm <;> cases rg <;> cases m <;> decide +kernel
  exact h y hy hb

theorem neon_two (rdm : Bool) (L P C : Int)
    (h : if rdm then -4095 ≤ 8192 * L - P ∧ 8192 * L - P ≤ 13635
      else -8191 ≤ 8192 * L - P ∧ 8192 * L - P ≤ 9539) :
    let p := byteSat (L + (2 * (4 * C) + if rdm then 32768 else 0) / 65536)
    let q := (max (min ((P + C + (2 ^ (13 - 1) - 1)) / 2 ^ 13) (2 ^ 8 - 1)) 0).toNat
    p ≤ q + 2 ∧ q ≤ p + 2 := by
  simp only [byteSat, Nat.reduceSub, Int.reducePow, Int.reduceSub]
  cases rdm <;> simp only [if_true, Bool.false_eq_true, if_false] at h ⊢ <;> omega

theorem neon_three (rdm two : Bool) (L P B C : Int)
    (h : if rdm then -4095 ≤ 8192 * L - P ∧ 8192 * L - P ≤ 13635
      else -8191 ≤ 8192 * L - P ∧ 8192 * L - P ≤ 9539) :
    let p := byteSat (if two then
      L - ((2 * (4 * B) + if rdm then 32768 else 0) / 65536 + (2 * (4 * C) + if rdm then 32768 else 0) / 65536)
      else L + (2 * (4 * -B) + if rdm then 32768 else 0) / 65536
        + (2 * (4 * -C) + if rdm then 32768 else 0) / 65536)
    let q := (max (min ((P - B - C + (2 ^ (13 - 1) - 1)) / 2 ^ 13) (2 ^ 8 - 1)) 0).toNat
    p ≤ q + 3 ∧ q ≤ p + 3 := by
  simp only [byteSat, Nat.reduceSub, Int.reducePow, Int.reduceSub]
  cases rdm <;> cases two <;> simp only [if_true, Bool.false_eq_true, if_false] at h ⊢ <;> omega

theorem neonScale_four (rdm : Bool) (a t : Int) :
    neonScale rdm (4 * a) t = (2 * (4 * (t * a)) + if rdm then 32768 else 0) / 65536 := by
  unfold neonScale; rw [Int.mul_assoc, Int.mul_comm a]

/-- The vector and the scalar decoding of luma not below black. -/
theorem neon_near (rdm two : Bool) (ch : Channels) (rg : YuvRange) (m : Matrix) {y : Nat} (u v : Nat)
    (hy : y < 256) (hb : (getYuvRange 8 rg).biasY ≤ y) :
    NeonNear ch (neonPixel rdm two ch rg m y u v) (decodedPixel 13 8 ch rg m 255 y u v) := by
  have hl := luma_near rdm rg m hy hb
  have hu := (range_bias rg).1
  unfold neonPixel neonPixelAt neonRGB decodedPixel decodeRGB
  simp only [hu, neonScale_four, Int.neg_mul]
  simp only [] at hl
  generalize searchInverse 13 8 rg m = t at hl ⊢
  generalize neonLuma rdm t (y - (getYuvRange 8 rg).biasY) = L at hl ⊢
  generalize ((y : Int) - ((getYuvRange 8 rg).biasY : Int)) * t.y = P at hl ⊢
  exact ⟨_, _, _, _, _, _, rfl, rfl, neon_two rdm L P _ hl, neon_three rdm two L P _ _ hl,
    neon_two rdm L P _ hl⟩

/-- C107, what holds for planar images: on 64-bit ARM and as portable code, the decoder gives pixels whose
red and blue differ by at most two and whose green differs by at most three code values, when luma is not
below black; both write the same area.
Missing: luma below black, for which the claim is false. -/
theorem c107_neon_planar_agreement_partial (rdm : Bool) (ch : Channels) (s : Sampling) (i : Planar)
    (rgba : Buf) (stride : Nat) (rg : YuvRange) (m : Matrix) (hi : GoodPlanar i s 256)
    (hdst : GoodDst rgba.length stride i.width i.height ch.count)
    (hblack : ∀ x y, x < i.width → y < i.height → (getYuvRange 8 rg).biasY ≤ Planar.Y i x y) :
    ∃ out out', yuvToRgbxNeon rdm ch s i rgba stride rg m = .ok out ∧
      yuvToRgbx x64 ch s noSimd noSimd420 i rgba stride rg m = .ok out' ∧
      (∀ x y, x < i.width → y < i.height →
        NeonNear ch (pixelAt out stride ch.count x y) (pixelAt out' stride ch.count x y)) ∧
      (∀ k, ¬ InFrame stride i.width i.height ch.count k → out[k]? = out'[k]?) := by
  obtain ⟨out, e, h⟩ := neon_decode_rel rdm ch s i rgba stride rg m hi hdst
  obtain ⟨out', e', h'⟩ := c15_planar_decode ch s i rgba stride rg m hi hdst (fun _ _ _ _ => False)
    noSimd noSimd420 noSimd_ok noSimd420_ok
  refine ⟨out, out', e, e', fun x y hx hy => ?_, fun k hk => (h.2.2 k hk).trans (h'.2.2 k hk).symm⟩
  have p := h'.2.1 x y hx hy
  simp only [or_false] at p
  rw [h.2.1 x y hx hy, p]
  exact neon_near rdm _ ch rg m _ _ (hi.sample_lt hx hy).1 (hblack x y hx hy)

/-- C107, what holds for semi-planar images: the same.
Missing: luma below black, for which the claim is false. -/
theorem c107_neon_nv_agreement_partial (rdm : Bool) (o : NVOrder) (ch : Channels) (s : Sampling)
    (i : BiPlanar) (rgba : Buf) (stride : Nat) (rg : YuvRange) (m : Matrix) (hi : GoodBiPlanar i s 256)
    (hdst : GoodDst rgba.length stride i.width i.height ch.count)
    (hblack : ∀ x y, x < i.width → y < i.height → (getYuvRange 8 rg).biasY ≤ BiPlanar.Y i x y) :
    ∃ out out', nvToRgbxNeon rdm o ch s i rgba stride rg m = .ok out ∧
      nvToRgbx x64 .balanced o ch s noSimdNV noSimdNV420 i rgba stride rg m = .ok out' ∧
      (∀ x y, x < i.width → y < i.height →
        NeonNear ch (pixelAt out stride ch.count x y) (pixelAt out' stride ch.count x y)) ∧
      (∀ k, ¬ InFrame stride i.width i.height ch.count k → out[k]? = out'[k]?) := by
  obtain ⟨out, e, h⟩ := neon_nv_rel rdm o ch s i rgba stride rg m hi hdst
  obtain ⟨out', e', h'⟩ := nv_plain_rel .balanced o ch s i rgba stride rg m hi hdst
  refine ⟨out, out', e, e', fun x y hx hy => ?_, fun k hk => (h.2.2 k hk).trans (h'.2.2 k hk).symm⟩
  rw [h.2.1 x y hx hy, h'.2.1 x y hx hy]
  refine neon_near rdm _ ch rg m _ _ ?_ (hblack x y hx hy)
  exact getD_lt (by decide) hi.y.bound

theorem neonGray_near (rdm : Bool) (m : Matrix) {y : Nat} (hy : y < 256) :
    (neonGray rdm m y ≤ grayLevel 8 .limited m y + 1 ∧ grayLevel 8 .limited m y ≤ neonGray rdm m y + 1) ∧
    (y ≤ 16 → neonGray rdm m y = 0) ∧ (235 ≤ y → neonGray rdm m y = 255) := by
  have h : ∀ y, y < 256 → (neonGray rdm m y ≤ grayLevel 8 .limited m y + 1 ∧
      grayLevel 8 .limited m y ≤ neonGray rdm m y + 1) ∧
    (y ≤ 16 → neonGray rdm m y = 0) ∧ (235 ≤ y → neonGray rdm m y = 255) := by
    cases rdm <;> cases m <;> decide +kernel
  exact h y hy

/-- C107 for grey images: every level is within one of that of the portable code; with full range the
bytes are the same; with limited range black is 0 and white is 255. -/
theorem c107_neon_gray_agreement (rdm : Bool) (ch : Channels) (i : Gray) (rgba : Buf) (stride : Nat)
    (rg : YuvRange) (m : Matrix) (hi : GoodGray i 256)
    (hd : GoodDst rgba.length stride i.width i.height ch.count) :
    ∃ out out', yToRgbxNeon rdm ch i rgba stride rg m = .ok out ∧
      yToRgbx x64 ch noMap i rgba stride rg m = .ok out' ∧
      (rg = .full → out = out') ∧
      (∀ x y, x < i.width → y < i.height → ∃ l l' : Nat,
        pixelAt out stride ch.count x y = layout ch l l l 255 ∧
        pixelAt out' stride ch.count x y = layout ch l' l' l' 255 ∧ l ≤ l' + 1 ∧ l' ≤ l + 1 ∧
        (rg = .limited → at' i.y i.yStride x y ≤ 16 → l = 0) ∧
        (rg = .limited → 235 ≤ at' i.y i.yStride x y → l = 255)) ∧
      (∀ k, ¬ InFrame stride i.width i.height ch.count k → out[k]? = out'[k]?) := by
  obtain ⟨out, e, h⟩ := c106_neon_gray_decode rdm ch i rgba stride rg m hi hd
  obtain ⟨out', e', h'⟩ := c26_gray_decode_exact ch i rgba stride rg m hi hd
  refine ⟨out, out', e, e', fun hf => ?_, fun x y hx hy => ⟨_, _, frameSpec_pixel h hx hy (layout_length ..),
      frameSpec_pixel h' hx hy (layout_length ..), ?_⟩,
    fun k hk => (h.2.2 k hk).trans (h'.2.2 k hk).symm⟩
  · subst hf
    exact frameSpec_unique (frameSpec_congr h fun _ _ _ _ => rfl) h'
  · have g := gray_lt hi hx hy
    cases rg with
    | full => exact ⟨Nat.le_succ _, Nat.le_succ _, fun h => YuvRange.noConfusion h, fun h => YuvRange.noConfusion h⟩
    | limited =>
      obtain ⟨⟨a, b⟩, c, d⟩ := neonGray_near rdm m g
      exact ⟨a, b, fun _ => c, fun _ => d⟩

/-- C107 against the standard: under the same condition every pixel is within 2.54 code values (green:
3.54) of the saturated exact ITU-R result of its samples. -/
theorem c107_neon_planar_accuracy_partial (rdm : Bool) (ch : Channels) (s : Sampling) (i : Planar)
    (rgba : Buf) (stride : Nat) (rg : YuvRange) (m : Matrix) (hi : GoodPlanar i s 256)
    (hdst : GoodDst rgba.length stride i.width i.height ch.count)
    (hblack : ∀ x y, x < i.width → y < i.height → (getYuvRange 8 rg).biasY ≤ Planar.Y i x y) :
    ∃ out, yuvToRgbxNeon rdm ch s i rgba stride rg m = .ok out ∧
      FrameRel out rgba stride i.width i.height ch.count (fun x y p =>
        ∃ r g b : Nat, p = layout ch r g b 255 ∧
        let Y : Rat := Planar.Y i x y
        let U : Rat := Planar.U i s x y
        let V : Rat := Planar.V i s x y
        |(r : Rat) - satQ 8 (exactR 8 rg m Y U V)| ≤ 254 / 100 ∧
        |(g : Rat) - satQ 8 (exactG 8 rg m Y U V)| ≤ 354 / 100 ∧
        |(b : Rat) - satQ 8 (exactB 8 rg m Y U V)| ≤ 254 / 100) := by
  obtain ⟨out, e, h⟩ := neon_decode_rel rdm ch s i rgba stride rg m hi hdst
  refine ⟨out, e, h.1, fun x y hx hy => ?_, h.2.2⟩
  obtain ⟨b1, b2, b3⟩ := hi.sample_lt hx hy
  obtain ⟨r, g, b, r', g', b', ep, eq, n1, n2, n3⟩ := neon_near rdm (neonPaired s i.height y) ch rg m
    (Planar.U i s x y) (Planar.V i s x y) b1 (hblack x y hx hy)
  obtain ⟨r'', g'', b'', e', a1, a2, a3⟩ := decodeRGB_close rg m b1 b2 b3
  have hq : layout ch r' g' b' 255 = layout ch r'' g'' b'' 255 := by
    rw [← eq]; unfold decodedPixel; simp only [e']
  have inj : r' = r'' ∧ g' = g'' ∧ b' = b'' := by
    cases ch <;> simp only [layout, List.cons.injEq] at hq <;> omega
  obtain ⟨rfl, rfl, rfl⟩ := inj
  have tri : ∀ {a c n : Nat} {E : Rat}, a ≤ c + n ∧ c ≤ a + n → |(c : Rat) - E| ≤ 54 / 100 →
      |(a : Rat) - E| ≤ n + 54 / 100 := by
    intro a c n E hn hc
    obtain ⟨c1, c2⟩ := abs_le.1 hc
    have p : (a : Rat) ≤ c + n := by exact_mod_cast hn.1
    have q : (c : Rat) ≤ a + n := by exact_mod_cast hn.2
    exact abs_le.2 ⟨by linarith, by linarith⟩
  refine ⟨r, g, b, (h.2.1 x y hx hy).trans ep, le_trans (tri n1 a1) (by norm_num),
    le_trans (tri n2 a2) (by norm_num), le_trans (tri n3 a3) (by norm_num)⟩

example : ∀ x y, x < (flat93 80 90 100).width → y < (flat93 80 90 100).height →
    (getYuvRange 8 .limited).biasY ≤ Planar.Y (flat93 80 90 100) x y := by
  have h : ∀ x, x < 9 → ∀ y, y < 3 →
    (getYuvRange 8 .limited).biasY ≤ Planar.Y (flat93 80 90 100) x y := by decide +kernel
  exact fun x y hx hy => h x hx y hy

/-- C107 fails for luma below black: an image of one colour (3, 138, 205) decodes to red 123 and blue 20
(122 and 20 without the rounding instructions); the portable code gives red 108 and blue 5. -/
theorem c107_below_black_differs :
    yuvToRgbxNeon true .rgb .yuv420 (flat93 3 138 205) (List.replicate 81 0) 27 .limited .bt601 =
      .ok (List.replicate 27 [123, 0, 20]).flatten ∧
    yuvToRgbxNeon false .rgb .yuv420 (flat93 3 138 205) (List.replicate 81 0) 27 .limited .bt601 =
      .ok (List.replicate 27 [122, 0, 20]).flatten ∧
    yuvToRgbx x64 .rgb .yuv420 noSimd noSimd420 (flat93 3 138 205) (List.replicate 81 0) 27 .limited
      .bt601 = .ok (List.replicate 27 [108, 0, 5]).flatten := by
  refine ⟨?_, ?_, ?_⟩ <;> decide +kernel

/-! ## C108: the place of a pixel does not matter -/

/-- With the rounding instructions the two ways to compute green agree, except for SMPTE 240M with full
range, where a rounded product can be a tie. -/
theorem green_agree (rg : YuvRange) (m : Matrix) (hm : ¬ (rg = .full ∧ m = .smpte240)) {u v : Nat}
    (hu : u < 256) (hv : v < 256) :
    let t := searchInverse 13 8 rg m
    neonScale true (4 * ((v : Int) - 128)) (-t.g1) = -neonScale true (4 * ((v : Int) - 128)) t.g1 ∧
    neonScale true (4 * ((u : Int) - 128)) (-t.g2) = -neonScale true (4 * ((u : Int) - 128)) t.g2 := by
  have h : ∀ w : Nat, w < 256 →
    let t := searchInverse 13 8 rg m
    neonScale true (4 * ((w : Int) - 128)) (-t.g1) = -neonScale true (4 * ((w : Int) - 128)) t.g1 ∧
    neonScale true (4 * ((w : Int) - 128)) (-t.g2) = -neonScale true (4 * ((w : Int) - 128)) t.g2 := by
    cases rg <;> cases m <;> first | exact absurd ⟨rfl, rfl⟩ hm | decide +kernel
  exact ⟨(h v hv).1, (h u hu).2⟩

theorem neonPixel_paired (ch : Channels) (rg : YuvRange) (m : Matrix)
    (hm : ¬ (rg = .full ∧ m = .smpte240)) (y : Nat) {u v : Nat} (hu : u < 256) (hv : v < 256) (two : Bool) :
    neonPixel true two ch rg m y u v = neonPixel true false ch rg m y u v := by
  obtain ⟨a, b⟩ := green_agree rg m hm hu hv
  cases two
  · rfl
  · unfold neonPixel neonPixelAt neonRGB
    simp only [if_true, Bool.false_eq_true, if_false, a, b]
    have e : ∀ L B C : Int, L - (B + C) = L + -B + -C := by intros; omega
    simp only [e]

/-- C108, what holds: on 64-bit ARM two pixels that show the same samples, wherever they are in whatever
two images, decode to the same bytes — with 4:4:4 and 4:2:2 images always, with 4:2:0 images if the
processor has the rounding instructions and the transform is not SMPTE 240M with full range.
Missing: the other 4:2:0 cases, for which the claim is false. -/
theorem c108_neon_position_partial (rdm : Bool) (ch : Channels) (s : Sampling) (i j : Planar)
    (dst dst' : Buf) (stride stride' : Nat) (rg : YuvRange) (m : Matrix) (hi : GoodPlanar i s 256)
    (hj : GoodPlanar j s 256) (hd : GoodDst dst.length stride i.width i.height ch.count)
    (hd' : GoodDst dst'.length stride' j.width j.height ch.count)
    (hc : s ≠ .yuv420 ∨ (rdm = true ∧ ¬ (rg = .full ∧ m = .smpte240))) :
    ∃ out out', yuvToRgbxNeon rdm ch s i dst stride rg m = .ok out ∧
      yuvToRgbxNeon rdm ch s j dst' stride' rg m = .ok out' ∧
      ∀ x y x' y', x < i.width → y < i.height → x' < j.width → y' < j.height →
        Planar.Y i x y = Planar.Y j x' y' → Planar.U i s x y = Planar.U j s x' y' →
        Planar.V i s x y = Planar.V j s x' y' →
        pixelAt out stride ch.count x y = pixelAt out' stride' ch.count x' y' := by
  obtain ⟨out, e, h⟩ := neon_decode_rel rdm ch s i dst stride rg m hi hd
  obtain ⟨out', e', h'⟩ := neon_decode_rel rdm ch s j dst' stride' rg m hj hd'
  refine ⟨out, out', e, e', fun x y x' y' hx hy hx' hy' a b c => ?_⟩
  rw [h.2.1 x y hx hy, h'.2.1 x' y' hx' hy']
  unfold neonPlanarPixel
  rw [← a, ← b, ← c]
  rcases hc with hs | ⟨rfl, hm⟩
  · have : ∀ h y, neonPaired s h y = false := by
      intro h y; cases s <;> first | rfl | exact absurd rfl hs
    rw [this, this]
  · obtain ⟨-, b2, b3⟩ := hi.sample_lt hx hy
    rw [neonPixel_paired ch rg m hm _ b2 b3, neonPixel_paired ch rg m hm _ b2 b3 (neonPaired s j.height y')]

/-- C108 for semi-planar images, what holds: the same.
Missing: the other 4:2:0 cases, for which the claim is false. -/
theorem c108_neon_nv_position_partial (rdm : Bool) (o : NVOrder) (ch : Channels) (s : Sampling)
    (i j : BiPlanar) (dst dst' : Buf) (stride stride' : Nat) (rg : YuvRange) (m : Matrix)
    (hi : GoodBiPlanar i s 256) (hj : GoodBiPlanar j s 256)
    (hd : GoodDst dst.length stride i.width i.height ch.count)
    (hd' : GoodDst dst'.length stride' j.width j.height ch.count)
    (hc : s ≠ .yuv420 ∨ (rdm = true ∧ ¬ (rg = .full ∧ m = .smpte240))) :
    ∃ out out', nvToRgbxNeon rdm o ch s i dst stride rg m = .ok out ∧
      nvToRgbxNeon rdm o ch s j dst' stride' rg m = .ok out' ∧
      ∀ x y x' y', x < i.width → y < i.height → x' < j.width → y' < j.height →
        BiPlanar.Y i x y = BiPlanar.Y j x' y' → BiPlanar.U i s o x y = BiPlanar.U j s o x' y' →
        BiPlanar.V i s o x y = BiPlanar.V j s o x' y' →
        pixelAt out stride ch.count x y = pixelAt out' stride' ch.count x' y' := by
  obtain ⟨out, e, h⟩ := neon_nv_rel rdm o ch s i dst stride rg m hi hd
  obtain ⟨out', e', h'⟩ := neon_nv_rel rdm o ch s j dst' stride' rg m hj hd'
  refine ⟨out, out', e, e', fun x y x' y' hx hy hx' hy' a b c => ?_⟩
  rw [h.2.1 x y hx hy, h'.2.1 x' y' hx' hy']
  unfold neonNvPixel
  rw [← a, ← b, ← c]
  rcases hc with hs | ⟨rfl, hm⟩
  · have : ∀ h y, neonPaired s h y = false := by
      intro h y; cases s <;> first | rfl | exact absurd rfl hs
    rw [this, this]
  · have b2 : BiPlanar.U i s o x y < 256 := by
      cases o <;> exact getD_lt (by decide) hi.uvBound
    have b3 : BiPlanar.V i s o x y < 256 := by
      cases o <;> exact getD_lt (by decide) hi.uvBound
    rw [neonPixel_paired ch rg m hm _ b2 b3, neonPixel_paired ch rg m hm _ b2 b3 (neonPaired s j.height y')]

/-- C108 fails without the rounding instructions: the last row of a 4:2:0 image of one colour and of odd
height has another green than the rows above it, both for planar and for semi-planar images. -/
theorem c108_last_row_differs :
    yuvToRgbxNeon false .rgb .yuv420 (flat93 80 90 100) (List.replicate 81 0) 27 .limited .bt601 =
      .ok ((List.replicate 18 [29, 112, 0]).flatten ++ (List.replicate 9 [29, 110, 0]).flatten) ∧
    nvToRgbxNeon false .uv .rgb .yuv420 (flatNv93 80 90 100) (List.replicate 81 0) 27 .limited .bt601 =
      .ok ((List.replicate 18 [29, 112, 0]).flatten ++ (List.replicate 9 [29, 110, 0]).flatten) := by
  constructor <;> decide +kernel

/-- … and with them, for SMPTE 240M and full range. -/
theorem c108_last_row_differs_rdm :
    yuvToRgbxNeon true .rgb .yuv420 (flat93 80 0 64) (List.replicate 81 0) 27 .full .smpte240 =
      .ok ((List.replicate 18 [0, 155, 0]).flatten ++ (List.replicate 9 [0, 156, 0]).flatten) ∧
    nvToRgbxNeon true .uv .rgb .yuv420 (flatNv93 80 0 64) (List.replicate 81 0) 27 .full .smpte240 =
      .ok ((List.replicate 18 [0, 155, 0]).flatten ++ (List.replicate 9 [0, 156, 0]).flatten) := by
  constructor <;> decide +kernel

end Verif
