import Verif.Lemmas.WasmRows
import Verif.Lemmas.Accept
import Verif.Props.X86Decode
import Verif.Props.X86NvModes
import Verif.Props.X86Gray
import Verif.Props.Yuy2
/-!
# C104, C105: the 8-bit decoders on 32-bit WebAssembly with SIMD
-/
namespace Verif
open Spec Wasm

/-- The pixel at `(x, y)` of a planar image. -/
def wasmPlanarPixel (ch : Channels) (s : Sampling) (i : Planar) (rg : YuvRange) (m : Matrix)
    (x y : Nat) : Buf :=
  wasmRowPixel ch rg m i.width x (Planar.Y i x y) (Planar.U i s x y) (Planar.V i s x y)

/-- The pixel at `(x, y)` of a semi-planar image. -/
def wasmNvPixel (o : NVOrder) (ch : Channels) (s : Sampling) (i : BiPlanar) (rg : YuvRange) (m : Matrix)
    (x y : Nat) : Buf :=
  match s with
  | .yuv444 => wasmNv444Pixel ch rg m i.width x (BiPlanar.Y i x y) (BiPlanar.U i .yuv444 o x y)
      (BiPlanar.V i .yuv444 o x y)
  | s => wasmRowPixel ch rg m i.width x (BiPlanar.Y i x y) (BiPlanar.U i s o x y) (BiPlanar.V i s o x y)

/-- The grey level of a luma sample. -/
def wasmGrayLevel (rg : YuvRange) (m : Matrix) (y : Nat) : Nat :=
  match rg with
  | .full => y
  | .limited => wasmGray m y

theorem fits32 {b : Buf} (h : Fits32 b) : b.length < 2 ^ wasm32.bits := by
  unfold Fits32 at h
  show b.length < 2 ^ 32
  omega

/-! ## C104 -/

theorem wasm_decode_rel (ch : Channels) (s : Sampling) (i : Planar) (rgba : Buf)
    (stride : Nat) (rg : YuvRange) (m : Matrix) (hi : GoodPlanar i s 256)
    (hdst : GoodDst rgba.length stride i.width i.height ch.count)
    (fy : Fits32 i.y) (fu : Fits32 i.u) (fv : Fits32 i.v) (fd : Fits32 rgba) :
    ∃ out, yuvToRgbxWasm ch s i rgba stride rg m = .ok out ∧
      FrameRel out rgba stride i.width i.height ch.count (fun x y p =>
        p = wasmPlanarPixel ch s i rg m x y) := by
  obtain ⟨hb, hby⟩ := range_bias rg
  have hr := hi.rows
  have hcfg : DecodeCfg 13 8 := Or.inr (Or.inl ⟨rfl, Or.inl rfl⟩)
  have hcn := count_pos ch
  have hst : 0 < stride := Nat.lt_of_lt_of_le (Nat.mul_pos hr.wpos hcn) hdst.cols_le
  have p1 := putRow_ok hcfg ch rg m
  have p2 := putTwoRow_ok hcfg ch rg m
  have h1 := rowHandler_fills (w := i.width) s ch hb hby (coef16_search rg m)
    (decodedPixel 13 8 ch rg m 255)
  have h2 := rowHandler420_fills (w := i.width) ch hb hby (coef16_search rg m)
    (decodedPixel 13 8 ch rg m 255)
  unfold yuvToRgbxWasm yuvToRgbx yuvToRgbxImpl
  simp only []
  rw [hdst.accepted_on hi.wpos hi.hpos hcn (fits32 fd), hi.accepted_on (fits32 fy) (fits32 fu) (fits32 fv)]
  simp only [Outcome.bind_ok]
  cases s with
  | yuv444 =>
    exact (decode444_q hr hcn p1 h1 hdst.cols_le hdst.full).spec hcn hst hdst.cols_le hdst.full.1
  | yuv422 =>
    exact (decode422_q hr hcn p1 h1 hdst.cols_le hdst.full).spec hcn hst hdst.cols_le hdst.full.1
  | yuv420 =>
    obtain ⟨out, e, h⟩ := (decode420_q hr hcn p1 p2 h1 h2 hdst.cols_le hdst.full).spec hcn hst
      hdst.cols_le hdst.full.1
    simp only [ite_self] at h
    exact ⟨out, e, h⟩

/-- C104: compiled for 32-bit WebAssembly with SIMD, the 8-bit planar decoder succeeds on every good
image and destination whose slices fit the address space — no load or store of the vector code leaves
its slice, no product of the size checks overflows 32 bits — and writes exactly the pixels of the
image, each the decoding of the samples shown there: that of the vector code (`wasmPixel`) up to the
last column that is a multiple of 16 and not the end of the row, the scalar one after it. -/
theorem c104_wasm_planar_decode (ch : Channels) (s : Sampling) (i : Planar) (rgba : Buf)
    (stride : Nat) (rg : YuvRange) (m : Matrix) (hi : GoodPlanar i s 256)
    (hdst : GoodDst rgba.length stride i.width i.height ch.count)
    (fy : Fits32 i.y) (fu : Fits32 i.u) (fv : Fits32 i.v) (fd : Fits32 rgba) :
    ∃ out, yuvToRgbxWasm ch s i rgba stride rg m = .ok out ∧
      FrameSpec out rgba stride i.width i.height ch.count (wasmPlanarPixel ch s i rg m) := by
  obtain ⟨out, e, h⟩ := wasm_decode_rel ch s i rgba stride rg m hi hdst fy fu fv fd
  exact ⟨out, e, frameRel_eq h⟩

theorem wasm_nv_rel (o : NVOrder) (ch : Channels) (s : Sampling) (i : BiPlanar) (rgba : Buf)
    (stride : Nat) (rg : YuvRange) (m : Matrix) (hi : GoodBiPlanar i s 256)
    (hdst : GoodDst rgba.length stride i.width i.height ch.count)
    (fy : Fits32 i.y) (fu : Fits32 i.uv) (fd : Fits32 rgba) :
    ∃ out, nvToRgbxWasm o ch s i rgba stride rg m = .ok out ∧
      FrameRel out rgba stride i.width i.height ch.count (fun x y p =>
        p = wasmNvPixel o ch s i rg m x y) := by
  obtain ⟨hb, hby⟩ := range_bias rg
  have hr := hi.rows
  have hcn := count_pos ch
  have hst : 0 < stride := Nat.lt_of_lt_of_le (Nat.mul_pos hr.wpos hcn) hdst.cols_le
  have p1 := putRow_ok (nvCfg .balanced) ch rg m
  have p2 := putTwoRow_ok (nvCfg .balanced) ch rg m
  have h1 := rowHandlerNV_fills (w := i.width) o s ch hb hby (coef16_search rg m)
    (decodedPixel 13 8 ch rg m 255)
  have h2 := rowHandlerNV420_fills (w := i.width) o ch hb hby (coef16_search rg m)
    (decodedPixel 13 8 ch rg m 255)
  have hU : ∀ s x y, BiPlanar.U i s o x y
      = at' i.uv i.uvStride (2 * (x / hdiv s) + o.uPos) (y / vdiv s) := by
    intro s x y; cases o <;> rfl
  have hV : ∀ s x y, BiPlanar.V i s o x y
      = at' i.uv i.uvStride (2 * (x / hdiv s) + o.vPos) (y / vdiv s) := by
    intro s x y; cases o <;> rfl
  have fin : ∀ {oc : Outcome Buf} {P : Nat → Nat → Buf → Prop}, (∃ out, oc = .ok out ∧
      FrameRel out rgba stride i.width i.height ch.count P) →
      (∀ x y p, P x y p → p = nvColPx ch (getYuvRange 8 rg) (searchInverse 13 8 rg m) s
        (decodedPixel 13 8 ch rg m 255) i.width x (at' i.y i.yStride x y)
          (at' i.uv i.uvStride (2 * (x / hdiv s) + o.uPos) (y / vdiv s))
          (at' i.uv i.uvStride (2 * (x / hdiv s) + o.vPos) (y / vdiv s))) →
      ∃ out, oc = .ok out ∧ FrameRel out rgba stride i.width i.height ch.count (fun x y p =>
          p = wasmNvPixel o ch s i rg m x y) := by
    rintro oc P ⟨out, e, h⟩ hp
    refine ⟨out, e, h.1, fun x y hx hy => ?_, h.2.2⟩
    refine (hp x y _ (h.2.1 x y hx hy)).trans ?_
    unfold wasmNvPixel
    cases s <;> simp only [hU, hV] <;> rfl
  unfold nvToRgbxWasm nvToRgbx nvToRgbxImpl
  simp only []
  rw [hdst.accepted_on hi.wpos hi.hpos hcn (fits32 fd), hi.accepted_on (fits32 fy) (fits32 fu)]
  simp only [Outcome.bind_ok]
  cases s with
  | yuv444 =>
    exact fin ((nvDecode444_q hr hcn p1 h1 hdst.cols_le hdst.full).spec hcn hst hdst.cols_le
      hdst.full.1) fun x y p h => h
  | yuv422 =>
    exact fin ((nvDecode422_q hr hcn p1 h1 hdst.cols_le hdst.full).spec hcn hst hdst.cols_le
      hdst.full.1) fun x y p h => h
  | yuv420 =>
    refine fin ((nvDecode420_q hr hcn p1 p2 h1 h2 hdst.cols_le hdst.full).spec hcn hst hdst.cols_le
      hdst.full.1) fun x y p h => ?_
    simp only [ite_self] at h
    exact h

/-- C104: the same for the semi-planar decoder (balanced mode).  With chroma at full resolution (NV24,
NV42) the vector code takes both chroma samples of a pixel from one of the two. -/
theorem c104_wasm_nv_decode (o : NVOrder) (ch : Channels) (s : Sampling) (i : BiPlanar) (rgba : Buf)
    (stride : Nat) (rg : YuvRange) (m : Matrix) (hi : GoodBiPlanar i s 256)
    (hdst : GoodDst rgba.length stride i.width i.height ch.count)
    (fy : Fits32 i.y) (fu : Fits32 i.uv) (fd : Fits32 rgba) :
    ∃ out, nvToRgbxWasm o ch s i rgba stride rg m = .ok out ∧
      FrameSpec out rgba stride i.width i.height ch.count (wasmNvPixel o ch s i rg m) := by
  obtain ⟨out, e, h⟩ := wasm_nv_rel o ch s i rgba stride rg m hi hdst fy fu fd
  exact ⟨out, e, frameRel_eq h⟩

/-- C104: the same for the grey decoder: every pixel is grey and opaque. -/
theorem c104_wasm_gray_decode (ch : Channels) (i : Gray) (rgba : Buf) (stride : Nat) (rg : YuvRange)
    (m : Matrix) (hi : GoodGray i 256) (hd : GoodDst rgba.length stride i.width i.height ch.count)
    (fy : Fits32 i.y) (fd : Fits32 rgba) :
    ∃ out, yToRgbxWasm ch i rgba stride rg m = .ok out ∧
      FrameSpec out rgba stride i.width i.height ch.count (fun x y =>
        let l := wasmGrayLevel rg m (at' i.y i.yStride x y)
        layout ch l l l 255) := by
  have hcn := count_pos ch
  have hs : ∀ s ∈ graySrc i, GoodSrc s i.width i.height 256 := by
    intro s hs; rw [List.mem_singleton] at hs; subst hs; exact goodSrc_plane hi.y
  have acc : ∀ {T : Target}, T = x64 ∨ T = wasm32 →
      checkRgba T rgba.length stride i.width i.height ch.count = .ok () ∧ i.check T = .ok () := by
    rintro T (rfl | rfl)
    · exact ⟨hd.accepted hi.wpos hi.hpos hi.w32 hi.h32 hcn (count_le ch), hi.accepted⟩
    · exact ⟨hd.accepted_on hi.wpos hi.hpos hcn (fits32 fd), hi.accepted_on (fits32 fy)⟩
  cases rg with
  | full =>
    have e : yToRgbxWasm ch i rgba stride .full m = yToRgbx x64 ch noMap i rgba stride .full m := by
      unfold yToRgbxWasm yToRgbx
      rw [(acc (.inl rfl)).1, (acc (.inl rfl)).2, (acc (.inr rfl)).1, (acc (.inr rfl)).2]
    rw [e]
    exact c26_gray_decode_exact ch i rgba stride .full m hi hd
  | limited =>
    unfold yToRgbxWasm yToRgbx
    rw [(acc (.inr rfl)).1, (acc (.inr rfl)).2]
    simp only [Outcome.bind_ok]
    obtain ⟨out, e, h⟩ := mapFrame_cols (cutDst := true) hi.wpos hcn hs
      (grayBody_ok (a := 255) (ch := ch) Nat.one_pos (fun y hy => grayVal8_ok .limited m hy))
      (Wasm.grayHandler_fills ch m hi.wpos rfl) hd.cols_le hd.full (Or.inl rfl)
    refine ⟨out, e, frameRel_eq ⟨h.1, fun x y hx hy => ?_, h.2.2⟩⟩
    have := h.2.1 x y hx hy
    simp only [pixelsAt, List.map_cons, List.map_nil] at this
    rw [pixelAt_one hx hy hi.y] at this
    rw [this]
    rfl

/-- C104: swapping the two elements of every chroma pair and reading the image in the other order
(NV12 as NV21, …) gives identical bytes. -/
theorem c104_nv21_is_swapped_nv12 (ch : Channels) (s : Sampling) (i j : BiPlanar)
    (rgba : Buf) (stride : Nat) (rg : YuvRange) (m : Matrix) (hi : GoodBiPlanar i s 256)
    (hj : GoodBiPlanar j s 256) (hw : i.width = j.width) (hh : i.height = j.height)
    (hY : ∀ x y, x < i.width → y < i.height → at' i.y i.yStride x y = at' j.y j.yStride x y)
    (hC : ∀ cx cy, cx < cover i.width (hdiv s) → cy < cover i.height (vdiv s) →
      at' i.uv i.uvStride (2 * cx) cy = at' j.uv j.uvStride (2 * cx + 1) cy ∧
      at' i.uv i.uvStride (2 * cx + 1) cy = at' j.uv j.uvStride (2 * cx) cy)
    (hdst : GoodDst rgba.length stride i.width i.height ch.count)
    (fy : Fits32 i.y) (fu : Fits32 i.uv) (fy' : Fits32 j.y) (fu' : Fits32 j.uv) (fd : Fits32 rgba) :
    ∃ out, nvToRgbxWasm .uv ch s i rgba stride rg m = .ok out ∧
      nvToRgbxWasm .vu ch s j rgba stride rg m = .ok out := by
  obtain ⟨out, e, h⟩ := wasm_nv_rel .uv ch s i rgba stride rg m hi hdst fy fu fd
  rw [hw, hh] at hdst
  obtain ⟨out', e', h'⟩ := wasm_nv_rel .vu ch s j rgba stride rg m hj hdst fy' fu' fd
  refine ⟨out, e, ?_⟩
  rw [e']
  congr 1
  refine frameSpec_unique (frameRel_eq h') ?_
  rw [← hw, ← hh]
  refine frameRel_eq ⟨h.1, fun x y hx hy => ?_, h.2.2⟩
  rw [h.2.1 x y hx hy]
  have a : BiPlanar.Y i x y = BiPlanar.Y j x y := hY x y hx hy
  obtain ⟨b, c⟩ := swapped_samples hi hC hx hy
  cases s <;> simp only [wasmNvPixel, a, b, c, hw]

/-- A 17×1 4:4:4 image of one colour. -/
def flat17 (y u v : Nat) : Planar :=
  ⟨List.replicate 17 y, 17, List.replicate 17 u, 17, List.replicate 17 v, 17, 17, 1⟩

/-- A 17×1 NV24 image of one colour. -/
def flatNv17 (y u v : Nat) : BiPlanar :=
  ⟨List.replicate 17 y, 17, (List.replicate 17 [u, v]).flatten, 34, 17, 1⟩

theorem flat17_good : GoodPlanar (flat17 100 100 100) .yuv444 256 where
  wpos := by decide
  hpos := by decide
  w32 := by unfold U32; decide
  h32 := by unfold U32; decide
  y := ⟨by unfold U32; decide, by decide, by unfold FullRows; decide, by decide⟩
  u := ⟨by unfold U32; decide, by decide, by unfold FullRows; decide, by decide⟩
  v := ⟨by unfold U32; decide, by decide, by unfold FullRows; decide, by decide⟩

theorem flatNv17_good : GoodBiPlanar (flatNv17 81 90 240) .yuv444 256 where
  wpos := by decide
  hpos := by decide
  w32 := by unfold U32; decide
  h32 := by unfold U32; decide
  y := ⟨by unfold U32; decide, by decide, by unfold FullRows; decide, by decide⟩
  uvStride := by decide
  uvStride32 := by unfold U32; decide
  uvLen := by decide
  uvBound := by decide

theorem dst17 : GoodDst (List.replicate 51 0 : Buf).length 51 17 1 3 :=
  ⟨by unfold U32; decide, by decide, by unfold FullRows; decide, by decide⟩

example : GoodPlanar (flat17 100 100 100) .yuv444 256 ∧ GoodBiPlanar (flatNv17 81 90 240) .yuv444 256 ∧
    Fits32 (flat17 100 100 100).y ∧ Fits32 (flatNv17 81 90 240).uv ∧ Fits32 (List.replicate 51 0) :=
  ⟨flat17_good, flatNv17_good, by unfold Fits32; decide, by unfold Fits32; decide, by unfold Fits32; decide⟩

/-- Both decodings occur in a row: the last pixel of 17 is the scalar one. -/
example : yuvToRgbxWasm .rgb .yuv444 (flat17 100 100 100) (List.replicate 51 0) 51 .limited .bt601
    = .ok ((List.replicate 16 [53, 132, 42]).flatten ++ [53, 132, 41]) := by decide +kernel

/-! ## C105: agreement with the portable code -/

/-- Two opaque pixels whose red and blue differ by at most one and whose green differs by at most
two code values. -/
def NearPixels (ch : Channels) (p q : Buf) : Prop :=
  ∃ r g b r' g' b' : Nat, p = layout ch r g b 255 ∧ q = layout ch r' g' b' 255 ∧
    (r ≤ r' + 1 ∧ r' ≤ r + 1) ∧ (g ≤ g' + 2 ∧ g' ≤ g + 2) ∧ (b ≤ b' + 1 ∧ b' ≤ b + 1)

theorem round_two (A B : Int) :
    let p := byteSat ((4 * A + 16384) / 32768 + (4 * B + 16384) / 32768)
    let q := (max (min ((A + B + (2 ^ (13 - 1) - 1)) / 2 ^ 13) (2 ^ 8 - 1)) 0).toNat
    p ≤ q + 1 ∧ q ≤ p + 1 := by
  simp only [byteSat, Nat.reduceSub, Int.reducePow, Int.reduceSub]
  omega

theorem round_three (A B C : Int) :
    let p := byteSat ((4 * A + 16384) / 32768 + ((4 * -B + 16384) / 32768 + (4 * -C + 16384) / 32768))
    let q := (max (min ((A - B - C + (2 ^ (13 - 1) - 1)) / 2 ^ 13) (2 ^ 8 - 1)) 0).toNat
    p ≤ q + 2 ∧ q ≤ p + 2 := by
  simp only [byteSat, Nat.reduceSub, Int.reducePow, Int.reduceSub]
  omega

theorem mulRound_four (a t : Int) : mulRound (4 * a) t = (4 * (t * a) + 16384) / 32768 := by
  unfold mulRound; rw [Int.mul_assoc, Int.mul_comm a]
theorem mulRound_four_neg (a t : Int) : mulRound (4 * a) (-t) = (4 * -(t * a) + 16384) / 32768 := by
  rw [mulRound_four, Int.neg_mul]

theorem two_terms (yo a ty tc : Int) :
    let p := byteSat (mulRound (4 * yo) ty + mulRound (4 * a) tc)
    let q := (max (min ((yo * ty + tc * a + (2 ^ (13 - 1) - 1)) / 2 ^ 13) (2 ^ 8 - 1)) 0).toNat
    p ≤ q + 1 ∧ q ≤ p + 1 := by
  rw [mulRound_four, mulRound_four, Int.mul_comm yo]
  exact round_two _ _

theorem three_terms (yo a b ty t1 t2 : Int) :
    let p := byteSat (mulRound (4 * yo) ty + (mulRound (4 * a) (-t1) + mulRound (4 * b) (-t2)))
    let q := (max (min ((yo * ty - t1 * a - t2 * b + (2 ^ (13 - 1) - 1)) / 2 ^ 13) (2 ^ 8 - 1)) 0).toNat
    p ≤ q + 2 ∧ q ≤ p + 2 := by
  rw [mulRound_four, mulRound_four_neg, mulRound_four_neg, Int.mul_comm yo]
  exact round_three _ _ _

/-- The vector and the scalar decoding of luma not below black. -/
theorem wasm_near (ch : Channels) (rg : YuvRange) (m : Matrix) {y : Nat} (u v : Nat)
    (hb : (getYuvRange 8 rg).biasY ≤ y) :
    NearPixels ch (wasmPixel ch rg m y u v) (decodedPixel 13 8 ch rg m 255 y u v) := by
  have e : (((y - (getYuvRange 8 rg).biasY : Nat)) : Int) = (y : Int) - (getYuvRange 8 rg).biasY := by
    omega
  have hu := (range_bias rg).1
  unfold wasmPixel wasmPixelAt wasmRGB decodedPixel decodeRGB
  simp only [e, hu]
  generalize searchInverse 13 8 rg m = t
  generalize (y : Int) - ((getYuvRange 8 rg).biasY : Int) = yo
  exact ⟨_, _, _, _, _, _, rfl, rfl, two_terms _ _ _ _, three_terms _ _ _ _ _ _, two_terms _ _ _ _⟩

theorem NearPixels.refl (ch : Channels) (rg : YuvRange) (m : Matrix) (y u v : Nat) :
    NearPixels ch (decodedPixel 13 8 ch rg m 255 y u v) (decodedPixel 13 8 ch rg m 255 y u v) :=
  ⟨_, _, _, _, _, _, rfl, rfl, by omega, by omega, by omega⟩

theorem wasmRow_near (ch : Channels) (rg : YuvRange) (m : Matrix) (w x : Nat) {y : Nat} (u v : Nat)
    (hb : wasmCol w x → (getYuvRange 8 rg).biasY ≤ y) :
    NearPixels ch (wasmRowPixel ch rg m w x y u v) (decodedPixel 13 8 ch rg m 255 y u v) := by
  unfold wasmRowPixel
  split
  · exact wasm_near ch rg m u v (hb ‹_›)
  · exact .refl ..

/-- C105, what holds for planar images: compiled for WebAssembly with SIMD and as portable code, the
decoder gives pixels whose red and blue differ by at most one and whose green differs by at most two
code values, when the luma the vector code sees is not below black; both write the same area.
Missing: luma below black, for which the claim is false. -/
theorem c105_wasm_planar_agreement_partial (ch : Channels) (s : Sampling) (i : Planar) (rgba : Buf)
    (stride : Nat) (rg : YuvRange) (m : Matrix) (hi : GoodPlanar i s 256)
    (hdst : GoodDst rgba.length stride i.width i.height ch.count)
    (fy : Fits32 i.y) (fu : Fits32 i.u) (fv : Fits32 i.v) (fd : Fits32 rgba)
    (hblack : ∀ x y, wasmCol i.width x → y < i.height → (getYuvRange 8 rg).biasY ≤ Planar.Y i x y) :
    ∃ out out', yuvToRgbxWasm ch s i rgba stride rg m = .ok out ∧
      yuvToRgbx x64 ch s noSimd noSimd420 i rgba stride rg m = .ok out' ∧
      (∀ x y, x < i.width → y < i.height →
        NearPixels ch (pixelAt out stride ch.count x y) (pixelAt out' stride ch.count x y)) ∧
      (∀ k, ¬ InFrame stride i.width i.height ch.count k → out[k]? = out'[k]?) := by
  obtain ⟨out, e, h⟩ := wasm_decode_rel ch s i rgba stride rg m hi hdst fy fu fv fd
  obtain ⟨out', e', h'⟩ := c15_planar_decode ch s i rgba stride rg m hi hdst (fun _ _ _ _ => False)
    noSimd noSimd420 noSimd_ok noSimd420_ok
  refine ⟨out, out', e, e', fun x y hx hy => ?_, fun k hk => (h.2.2 k hk).trans (h'.2.2 k hk).symm⟩
  have p := h'.2.1 x y hx hy
  simp only [or_false] at p
  rw [h.2.1 x y hx hy, p]
  exact wasmRow_near ch rg m _ _ _ _ fun hc => hblack x y hc hy

/-- C105, what holds for semi-planar images: the same, with sub-sampled chroma.
Missing: luma below black, and NV24 and NV42, for which the claim is false. -/
theorem c105_wasm_nv_agreement_partial (o : NVOrder) (ch : Channels) (s : Sampling) (i : BiPlanar)
    (rgba : Buf) (stride : Nat) (rg : YuvRange) (m : Matrix) (hi : GoodBiPlanar i s 256)
    (hdst : GoodDst rgba.length stride i.width i.height ch.count)
    (fy : Fits32 i.y) (fu : Fits32 i.uv) (fd : Fits32 rgba) (hs : s ≠ .yuv444)
    (hblack : ∀ x y, wasmCol i.width x → y < i.height → (getYuvRange 8 rg).biasY ≤ BiPlanar.Y i x y) :
    ∃ out out', nvToRgbxWasm o ch s i rgba stride rg m = .ok out ∧
      nvToRgbx x64 .balanced o ch s noSimdNV noSimdNV420 i rgba stride rg m = .ok out' ∧
      (∀ x y, x < i.width → y < i.height →
        NearPixels ch (pixelAt out stride ch.count x y) (pixelAt out' stride ch.count x y)) ∧
      (∀ k, ¬ InFrame stride i.width i.height ch.count k → out[k]? = out'[k]?) := by
  obtain ⟨out, e, h⟩ := wasm_nv_rel o ch s i rgba stride rg m hi hdst fy fu fd
  obtain ⟨out', e', h'⟩ := nv_plain_rel .balanced o ch s i rgba stride rg m hi hdst
  refine ⟨out, out', e, e', fun x y hx hy => ?_, fun k hk => (h.2.2 k hk).trans (h'.2.2 k hk).symm⟩
  rw [h.2.1 x y hx hy, h'.2.1 x y hx hy]
  cases s with
  | yuv444 => exact absurd rfl hs
  | _ => exact wasmRow_near ch rg m _ _ _ _ fun hc => hblack x y hc hy

theorem wasmGray_eq (m : Matrix) {y : Nat} (hy : y < 256) : wasmGray m y = grayLevel 8 .limited m y := by
  have h : ∀ y, y < 256 → wasmGray m y = grayLevel 8 .limited m y := by
    cases m <;> decide +kernel
  exact h y hy

/-- C105 for grey images: the decoder gives the very bytes of the portable code. -/
theorem c105_wasm_gray_agreement (ch : Channels) (i : Gray) (rgba : Buf) (stride : Nat) (rg : YuvRange)
    (m : Matrix) (hi : GoodGray i 256) (hd : GoodDst rgba.length stride i.width i.height ch.count)
    (fy : Fits32 i.y) (fd : Fits32 rgba) :
    ∃ out, yToRgbxWasm ch i rgba stride rg m = .ok out ∧
      yToRgbx x64 ch noMap i rgba stride rg m = .ok out := by
  obtain ⟨out, e, h⟩ := c104_wasm_gray_decode ch i rgba stride rg m hi hd fy fd
  obtain ⟨out', e', h'⟩ := c26_gray_decode_exact ch i rgba stride rg m hi hd
  refine ⟨out, e, ?_⟩
  rw [e']
  congr 1
  refine frameSpec_unique h' (frameSpec_congr h fun x y hx hy => ?_)
  have := gray_lt hi hx hy
  cases rg with
  | full => rfl
  | limited => simp only [wasmGrayLevel, wasmGray_eq m this]

/-- C105 against the standard: under the same condition every pixel is within 1.54 code values (green:
2.54) of the saturated exact ITU-R result of its samples. -/
theorem c105_wasm_planar_accuracy_partial (ch : Channels) (s : Sampling) (i : Planar) (rgba : Buf)
    (stride : Nat) (rg : YuvRange) (m : Matrix) (hi : GoodPlanar i s 256)
    (hdst : GoodDst rgba.length stride i.width i.height ch.count)
    (fy : Fits32 i.y) (fu : Fits32 i.u) (fv : Fits32 i.v) (fd : Fits32 rgba)
    (hblack : ∀ x y, wasmCol i.width x → y < i.height → (getYuvRange 8 rg).biasY ≤ Planar.Y i x y) :
    ∃ out, yuvToRgbxWasm ch s i rgba stride rg m = .ok out ∧
      FrameRel out rgba stride i.width i.height ch.count (fun x y p =>
        ∃ r g b : Nat, p = layout ch r g b 255 ∧
        let Y : Rat := Planar.Y i x y
        let U : Rat := Planar.U i s x y
        let V : Rat := Planar.V i s x y
        |(r : Rat) - satQ 8 (exactR 8 rg m Y U V)| ≤ 154 / 100 ∧
        |(g : Rat) - satQ 8 (exactG 8 rg m Y U V)| ≤ 254 / 100 ∧
        |(b : Rat) - satQ 8 (exactB 8 rg m Y U V)| ≤ 154 / 100) := by
  obtain ⟨out, e, h⟩ := wasm_decode_rel ch s i rgba stride rg m hi hdst fy fu fv fd
  refine ⟨out, e, h.1, fun x y hx hy => ?_, h.2.2⟩
  obtain ⟨b1, b2, b3⟩ := hi.sample_lt hx hy
  obtain ⟨r, g, b, r', g', b', ep, eq, n1, n2, n3⟩ := wasmRow_near ch rg m i.width x
    (Planar.U i s x y) (Planar.V i s x y) fun hc => hblack x y hc hy
  obtain ⟨r'', g'', b'', e', a1, a2, a3⟩ := decodeRGB_close rg m b1 b2 b3
  have hq : layout ch r' g' b' 255 = layout ch r'' g'' b'' 255 := by
    rw [← eq]; unfold decodedPixel; simp only [e']
  have inj : r' = r'' ∧ g' = g'' ∧ b' = b'' := by
    cases ch <;> simp only [layout, List.cons.injEq] at hq <;> omega
  obtain ⟨rfl, rfl, rfl⟩ := inj
  have tri : ∀ {a c n : Nat} {E : Rat}, a ≤ c + n ∧ c ≤ a + n → |(c : Rat) - E| ≤ 54 / 100 →
      |(a : Rat) - E| ≤ n + 54 / 100 := by
    intro a c n E hn hc
    obtain ⟨c1, c2⟩ := abs_le.1 hc
    have p : (a : Rat) ≤ c + n := by exact_mod_cast hn.1
    have q : (c : Rat) ≤ a + n := by exact_mod_cast hn.2
    exact abs_le.2 ⟨by linarith, by linarith⟩
  refine ⟨r, g, b, (h.2.1 x y hx hy).trans ep, le_trans (tri n1 a1) (by norm_num),
    le_trans (tri n2 a2) (by norm_num), le_trans (tri n3 a3) (by norm_num)⟩

example : ∀ x y, wasmCol (flat17 100 100 100).width x → y < (flat17 100 100 100).height →
    (getYuvRange 8 .limited).biasY ≤ Planar.Y (flat17 100 100 100) x y := by
  have h : ∀ x, x < 16 → ∀ y, y < 1 →
    (getYuvRange 8 .limited).biasY ≤ Planar.Y (flat17 100 100 100) x y := by decide +kernel
  exact fun x y hx hy => h x hx y hy

/-- C105 fails for NV24: an image of pure red (81, 90, 240) decodes to eight magenta pixels, eight green
ones and a red one; the portable code decodes all of them to red.  So a pixel also depends on its
column. -/
theorem c105_nv24_wrong_colours :
    nvToRgbxWasm .uv .rgb .yuv444 (flatNv17 81 90 240) (List.replicate 51 0) 51 .limited .bt601 =
      .ok ((List.replicate 8 [255, 0, 255]).flatten ++ (List.replicate 8 [15, 122, 0]).flatten
        ++ [254, 0, 0]) ∧
    nvToRgbx x64 .balanced .uv .rgb .yuv444 noSimdNV noSimdNV420 (flatNv17 81 90 240)
      (List.replicate 51 0) 51 .limited .bt601 = .ok (List.replicate 17 [254, 0, 0]).flatten := by
  constructor <;> decide +kernel

/-- … and this is so for every good NV24 or NV42 image, not just that one: wherever the vector code
decodes, a pixel in the first half of its group of sixteen does not depend on its Cb sample, and one in
the second half does not depend on its Cr sample. -/
theorem c105_nv24_ignores_chroma (o : NVOrder) (ch : Channels) (i j : BiPlanar) (rgba : Buf)
    (stride : Nat) (rg : YuvRange) (m : Matrix) (hi : GoodBiPlanar i .yuv444 256)
    (hj : GoodBiPlanar j .yuv444 256) (hw : i.width = j.width) (hh : i.height = j.height)
    (hdst : GoodDst rgba.length stride i.width i.height ch.count)
    (fy : Fits32 i.y) (fu : Fits32 i.uv) (fy' : Fits32 j.y) (fu' : Fits32 j.uv) (fd : Fits32 rgba) :
    ∃ out out', nvToRgbxWasm o ch .yuv444 i rgba stride rg m = .ok out ∧
      nvToRgbxWasm o ch .yuv444 j rgba stride rg m = .ok out' ∧
      ∀ x y, wasmCol i.width x → y < i.height → BiPlanar.Y i x y = BiPlanar.Y j x y →
        (if x % 16 < 8 then BiPlanar.V i .yuv444 o x y = BiPlanar.V j .yuv444 o x y
          else BiPlanar.U i .yuv444 o x y = BiPlanar.U j .yuv444 o x y) →
        pixelAt out stride ch.count x y = pixelAt out' stride ch.count x y := by
  obtain ⟨out, e, h⟩ := wasm_nv_rel o ch .yuv444 i rgba stride rg m hi hdst fy fu fd
  rw [hw, hh] at hdst
  obtain ⟨out', e', h'⟩ := wasm_nv_rel o ch .yuv444 j rgba stride rg m hj hdst fy' fu' fd
  refine ⟨out, out', e, e', fun x y hx hy a b => ?_⟩
  have hxw : x < i.width := by unfold wasmCol at hx; omega
  rw [h.2.1 x y hxw hy, h'.2.1 x y (by omega) (by omega)]
  simp only [wasmNvPixel, wasmNv444Pixel]
  have hx' : wasmCol j.width x := by rw [← hw]; exact hx
  by_cases h8 : x % 16 < 8
  · simp only [if_pos h8] at b
    simp only [if_pos hx, if_pos hx', if_pos h8, a, b]
  · simp only [if_neg h8] at b
    simp only [if_pos hx, if_pos hx', if_neg h8, a, b]

/-- C105 fails for luma below black: a row of one colour (3, 138, 205) is red 123 and blue 20 up to its
last pixel, which is red 108 and blue 5, as are all of them without vector code. -/
theorem c105_below_black_differs :
    yuvToRgbxWasm .rgb .yuv444 (flat17 3 138 205) (List.replicate 51 0) 51 .limited .bt601 =
      .ok ((List.replicate 16 [123, 0, 20]).flatten ++ [108, 0, 5]) ∧
    yuvToRgbx x64 .rgb .yuv444 noSimd noSimd420 (flat17 3 138 205) (List.replicate 51 0) 51 .limited
      .bt601 = .ok (List.replicate 17 [108, 0, 5]).flatten := by
  constructor <;> decide +kernel

end Verif
