import Verif.Lemmas.DeepFrames
import Verif.Props.NvDecode
/-!
# C28, C29, C31, C32: decoding 10- to 16-bit images
-/
namespace Verif
open Spec

/-! ## C28 -/

theorem putP16_ok {d : Nat} (hd : Depth d) (e : Endianness) (bp : BytesPacking) (ch : Channels)
    (rg : YuvRange) (m : Matrix) :
    PutOk 65536 ch.count (putDeep (qrshr 13 d) asU16 (fun v => toNe e bp v (16 - d))
        (searchInverse 13 d rg m) (getYuvRange d rg) ch (2 ^ d - 1))
      (fun y u v => deepPixel (2 ^ 12 - 1) 13 13 d d ch rg m (toNe e bp y (16 - d))
        (toNe e bp u (16 - d)) (toNe e bp v (16 - d))) := by
  have h := putDeep_ok (cast := asU16) (ne := fun v => toNe e bp v (16 - d)) (B := 65536)
    (c := getYuvRange d rg)
    (QOk.mono (qrshr_QOk 13 d) (by decide)) (fits_u16 hd rg m)
    (fun y u v hy hu hv => near_u16 hd rg (toNe_lt e bp hy) (toNe_lt e bp hu) (toNe_lt e bp hv))
    ch (2 ^ d - 1)
  have hd16 : d ≤ 16 := by rcases hd with rfl | rfl | rfl | rfl | rfl <;> decide
  simp only [qr, asU16_sat hd16] at h
  exact h

theorem putNvP16_ok {d : Nat} (hd : Depth d) (e : Endianness) (bp : BytesPacking) (ch : Channels)
    (rg : YuvRange) (m : Matrix) :
    PutOk 65536 ch.count (putDeep (fun v => qrshrN 13 v (2 ^ d - 1)) asU16
        (fun v => toNe e bp v (16 - d))
        (searchInverse 13 d rg m) (getYuvRange d rg) ch (2 ^ d - 1))
      (fun y u v => deepPixel (2 ^ 12) 13 13 d d ch rg m (toNe e bp y (16 - d))
        (toNe e bp u (16 - d)) (toNe e bp v (16 - d))) := by
  have h := putDeep_ok (cast := asU16) (ne := fun v => toNe e bp v (16 - d)) (B := 65536)
    (c := getYuvRange d rg)
    (QOk.mono (qrshrN_QOk 13 (2 ^ d - 1)) (by decide)) (fits_u16 hd rg m)
    (fun y u v hy hu hv => near_u16 hd rg (toNe_lt e bp hy) (toNe_lt e bp hu) (toNe_lt e bp hv))
    ch (2 ^ d - 1)
  have hd16 : d ≤ 16 := by rcases hd with rfl | rfl | rfl | rfl | rfl <;> decide
  simp only [qrN, asU16_sat hd16] at h
  exact h

/-- The pixel the specification asks for: the samples covering `(x, y)`, brought to native order,
decoded with 13-bit coefficients at depth `d`, ties down. -/
abbrev deepPlanarPixel (e : Endianness) (bp : BytesPacking) (d : Nat) (ch : Channels) (s : Sampling)
    (i : Planar) (rg : YuvRange) (m : Matrix) (x y : Nat) : Buf :=
  deepPixel (2 ^ 12 - 1) 13 13 d d ch rg m (nativeSample e bp d (Planar.Y i x y))
    (nativeSample e bp d (Planar.U i s x y)) (nativeSample e bp d (Planar.V i s x y))

/-- The bi-planar counterpart, ties up. -/
abbrev deepNvPixel (o : NVOrder) (e : Endianness) (bp : BytesPacking) (d : Nat) (ch : Channels)
    (s : Sampling) (i : BiPlanar) (rg : YuvRange) (m : Matrix) (x y : Nat) : Buf :=
  deepPixel (2 ^ 12) 13 13 d d ch rg m (nativeSample e bp d (BiPlanar.Y i x y))
    (nativeSample e bp d (BiPlanar.U i s o x y)) (nativeSample e bp d (BiPlanar.V i s o x y))

/-- C28: decoding a good planar image of depth 10, 12, 14 or 16, in any byte order and packing, to
RGB of the same depth succeeds for every content (also samples beyond the depth), writes exactly
the `width × height` pixels, each the decoding of its samples or what the vector code
guarantees. -/
theorem c28_planar_decode (e : Endianness) (bp : BytesPacking) (d : Nat) (hd : Depth d)
    (ch : Channels) (s : Sampling) (i : Planar) (rgba : Buf) (stride : Nat) (rg : YuvRange)
    (m : Matrix) (hi : GoodPlanar i s 65536)
    (hdst : GoodDst rgba.length stride i.width i.height ch.count)
    (R : Nat → Nat → Nat → Buf → Prop) (h : RowHandler)
    (hh : h.Ok 65536 ch.count i.width (hdiv s) R) :
    ∃ out, p16ToRgb16 x64 e bp d ch s h i rgba stride rg m = .ok out ∧
      FrameRel out rgba stride i.width i.height ch.count (fun x y p =>
        p = deepPlanarPixel e bp d ch s i rg m x y ∨
        R (Planar.Y i x y) (Planar.U i s x y) (Planar.V i s x y) p) := by
  obtain ⟨out, e1, hr⟩ := planarDeep_spec (guard := true) hi hdst (putP16_ok hd e bp ch rg m) hh
  refine ⟨out, e1, hr.1, fun x y hx hy => ?_, hr.2.2⟩
  obtain ⟨b1, b2, b3⟩ := hi.sample_lt hx hy
  have := hr.2.1 x y hx hy
  simp only [toNe_eq e bp b1, toNe_eq e bp b2, toNe_eq e bp b3] at this
  exact this

/-- C28 without vector code: the destination is determined. -/
theorem c28_planar_decode_exact (e : Endianness) (bp : BytesPacking) (d : Nat) (hd : Depth d)
    (ch : Channels) (s : Sampling) (i : Planar) (rgba : Buf) (stride : Nat) (rg : YuvRange)
    (m : Matrix) (hi : GoodPlanar i s 65536)
    (hdst : GoodDst rgba.length stride i.width i.height ch.count) :
    ∃ out, p16ToRgb16 x64 e bp d ch s noSimd i rgba stride rg m = .ok out ∧
      FrameSpec out rgba stride i.width i.height ch.count (deepPlanarPixel e bp d ch s i rg m) := by
  obtain ⟨out, e1, hr⟩ := c28_planar_decode e bp d hd ch s i rgba stride rg m hi hdst
    (fun _ _ _ _ => False) noSimd noSimd_ok
  refine ⟨out, e1, frameRel_or_eq hr fun x y p _ _ h => ?_⟩
  exact h.elim id False.elim

theorem bi_sample_lt {i : BiPlanar} {s : Sampling} {B : Nat} (hB : 0 < B) (hi : GoodBiPlanar i s B)
    (o : NVOrder) (x y : Nat) :
    BiPlanar.Y i x y < B ∧ BiPlanar.U i s o x y < B ∧ BiPlanar.V i s o x y < B := by
  have key : ∀ (l : Buf) (n : Nat), (∀ a ∈ l, a < B) → l.getD n 0 < B := by
    intro l n h
    rw [List.getD_eq_getElem?_getD]
    cases hg : l[n]? with
    | none => exact hB
    | some a => exact h a (List.mem_of_getElem? hg)
  refine ⟨key _ _ hi.y.bound, ?_, ?_⟩ <;> cases o <;> exact key _ _ hi.uvBound

/-- C28 for the bi-planar formats (P010, P210, P410 and their 12-bit relatives). -/
theorem c28_nv_decode (o : NVOrder) (e : Endianness) (bp : BytesPacking) (d : Nat) (hd : Depth d)
    (ch : Channels) (s : Sampling) (i : BiPlanar) (rgba : Buf) (stride : Nat) (rg : YuvRange)
    (m : Matrix) (hi : GoodBiPlanar i s 65536)
    (hdst : GoodDst rgba.length stride i.width i.height ch.count)
    (R : Nat → Nat → Nat → Buf → Prop) (h : RowHandlerNV)
    (hh : h.Ok 65536 ch.count i.width (hdiv s) o.uPos o.vPos R) :
    ∃ out, nvP16ToRgb16 x64 o e bp d ch s h i rgba stride rg m = .ok out ∧
      FrameRel out rgba stride i.width i.height ch.count (fun x y p =>
        p = deepNvPixel o e bp d ch s i rg m x y ∨
        R (BiPlanar.Y i x y) (BiPlanar.U i s o x y) (BiPlanar.V i s o x y) p) := by
  obtain ⟨out, e1, hr⟩ := nvDeep_spec (guard := false) hi hdst (putNvP16_ok hd e bp ch rg m) hh
  refine ⟨out, e1, hr.1, fun x y hx hy => ?_, hr.2.2⟩
  obtain ⟨b1, b2, b3⟩ := bi_sample_lt (by decide) hi o x y
  have := hr.2.1 x y hx hy
  simp only [toNe_eq e bp b1, toNe_eq e bp b2, toNe_eq e bp b3] at this
  exact this

/-- C28 for the bi-planar formats without vector code. -/
theorem c28_nv_decode_exact (o : NVOrder) (e : Endianness) (bp : BytesPacking) (d : Nat)
    (hd : Depth d) (ch : Channels) (s : Sampling) (i : BiPlanar) (rgba : Buf) (stride : Nat)
    (rg : YuvRange) (m : Matrix) (hi : GoodBiPlanar i s 65536)
    (hdst : GoodDst rgba.length stride i.width i.height ch.count) :
    ∃ out, nvP16ToRgb16 x64 o e bp d ch s noSimdNV i rgba stride rg m = .ok out ∧
      FrameSpec out rgba stride i.width i.height ch.count (deepNvPixel o e bp d ch s i rg m) := by
  obtain ⟨out, e1, hr⟩ := c28_nv_decode o e bp d hd ch s i rgba stride rg m hi hdst
    (fun _ _ _ _ => False) noSimdNV noSimdNV_ok
  refine ⟨out, e1, frameRel_or_eq hr fun x y p _ _ h => ?_⟩
  exact h.elim id False.elim

theorem saturate_le (d : Nat) (n : Int) : saturate d n ≤ 2 ^ d - 1 := by
  have h1 : (1 : Int) ≤ 2 ^ d := one_le_two_pow d
  have h2 : ((2 ^ d : Nat) : Int) = 2 ^ d := by push_cast; rfl
  have h3 : 0 < 2 ^ d := Nat.two_pow_pos d
  unfold saturate; omega

/-- C28: every stored component lies in `[0, 2^d - 1]`, alpha is `2^d - 1`, whatever the samples. -/
theorem c28_range (half : Int) (p k d dOut : Nat) (ch : Channels) (rg : YuvRange) (m : Matrix)
    (y u v : Nat) :
    ∃ r g b, deepPixel half p k d dOut ch rg m y u v = layout ch r g b (2 ^ dOut - 1) ∧
      r ≤ 2 ^ dOut - 1 ∧ g ≤ 2 ^ dOut - 1 ∧ b ≤ 2 ^ dOut - 1 :=
  ⟨_, _, _, rfl, saturate_le .., saturate_le .., saturate_le ..⟩

theorem saturate_close {dOut k : Nat} {half : Int} (hk : 0 < k)
    (hh : half = 2 ^ (k - 1) - 1 ∨ half = 2 ^ (k - 1)) {s : Int} {E D : Rat}
    (hE : |(s : Rat) / 2 ^ k - E| ≤ D) :
    |((saturate dOut (roundShift half k s) : Nat) : Rat) - satQ dOut E| ≤ 1 / 2 + D := by
  have hn : NearestShift k (roundShift half k s) s := by
    unfold roundShift
    rcases hh with rfl | rfl
    · exact shift_near_down hk s
    · exact shift_near_up hk s
  have h := sat_close (d := dOut) hn hE
  have e1 : ((saturate dOut (roundShift half k s) : Nat) : Int) = satI dOut (roundShift half k s) := by
    unfold saturate satI; omega
  rw [← e1] at h
  exact_mod_cast h

/-- C28: for samples of the depth, every component is within `1/2 + 2^d / 2^13` code values of the
exact ITU-R result saturated to the depth (0.63 at 10 bits, 1 at 12 bits, 8.5 at 16 bits). -/
theorem c28_close (half : Int) (hh : half = 2 ^ 12 - 1 ∨ half = 2 ^ 12) (d : Nat) (hd : Depth d)
    (ch : Channels) (rg : YuvRange) (m : Matrix) (y u v : Nat) (hy : y < 2 ^ d) (hu : u < 2 ^ d)
    (hv : v < 2 ^ d) :
    ∃ r g b : Nat, deepPixel half 13 13 d d ch rg m y u v = layout ch r g b (2 ^ d - 1) ∧
      |(r : Rat) - satQ d (exactR d rg m y u v)| ≤ 1 / 2 + 2 ^ d / 2 ^ 13 ∧
      |(g : Rat) - satQ d (exactG d rg m y u v)| ≤ 1 / 2 + 2 ^ d / 2 ^ 13 ∧
      |(b : Rat) - satQ d (exactB d rg m y u v)| ≤ 1 / 2 + 2 ^ d / 2 ^ 13 := by
  obtain ⟨c1, c2, c3⟩ := sums_close (p := 13) (Or.inr (Or.inl ⟨rfl, hd⟩)) (by decide) rg m hy hu hv
  exact ⟨_, _, _, rfl, saturate_close (by decide) hh c1, saturate_close (by decide) hh c2,
    saturate_close (by decide) hh c3⟩

/-- A 3×3 10-bit 4:2:0 image stored big-endian, with padded planes. -/
def demo10be : Planar :=
  let w := fun v => swap16 v
  { y := [64, 300, 940, 9, 512, 700, 128, 9, 877, 64, 65535, 9].map w
    yStride := 4
    u := [512, 300, 700, 960].map w
    uStride := 2
    v := [512, 800, 9, 64, 400, 9].map w
    vStride := 3
    width := 3
    height := 3 }

theorem demo10be_good : GoodPlanar demo10be .yuv420 65536 where
  wpos := by decide
  hpos := by decide
  w32 := by unfold U32; decide
  h32 := by unfold U32; decide
  y := ⟨by unfold U32; decide, by decide, by unfold FullRows; decide, by decide⟩
  u := ⟨by unfold U32; decide, by decide, by unfold FullRows; decide, by decide⟩
  v := ⟨by unfold U32; decide, by decide, by unfold FullRows; decide, by decide⟩

example : p16ToRgb16 x64 .big .lsb 10 .rgb .yuv420 noSimd demo10be (List.replicate 33 7) 11
    .limited .bt709 = .ok
    [0, 0, 0, 276, 276, 276, 1023, 914, 574, 7, 7,
     523, 523, 523, 743, 743, 743, 593, 0, 0, 7, 7,
     144, 1023, 1023, 0, 199, 398, 1023, 1023, 1023, 7, 7] := by decide +kernel

/-! ## C31 -/

/-- C31, the part that holds: the bi-planar decoder differs from the planar one on the same
samples only where an unrounded component lies exactly half-way, and then by one. -/
theorem c31_components_partial (d : Nat) (ch : Channels) (rg : YuvRange) (m : Matrix)
    (y u v : Nat) :
    ∃ r g b r' g' b', deepPixel (2 ^ 12 - 1) 13 13 d d ch rg m y u v
        = layout ch r g b (2 ^ d - 1) ∧
      deepPixel (2 ^ 12) 13 13 d d ch rg m y u v = layout ch r' g' b' (2 ^ d - 1) ∧
      (r' = r ∨ r' = r + 1 ∧ linR (searchInverse 13 d rg m) (getYuvRange d rg).biasY
        (getYuvRange d rg).biasUv y v % 8192 = 4096) ∧
      (g' = g ∨ g' = g + 1 ∧ linG (searchInverse 13 d rg m) (getYuvRange d rg).biasY
        (getYuvRange d rg).biasUv y u v % 8192 = 4096) ∧
      (b' = b ∨ b' = b + 1 ∧ linB (searchInverse 13 d rg m) (getYuvRange d rg).biasY
        (getYuvRange d rg).biasUv y u % 8192 = 4096) := by
  have key : ∀ s : Int, saturate d (roundShift (2 ^ 12) 13 s)
      = saturate d (roundShift (2 ^ 12 - 1) 13 s) ∨
      saturate d (roundShift (2 ^ 12) 13 s) = saturate d (roundShift (2 ^ 12 - 1) 13 s) + 1 ∧
        s % 8192 = 4096 := by
    intro s
    have h1 : (1 : Int) ≤ 2 ^ d := one_le_two_pow d
    unfold saturate roundShift
    generalize (2 : Int) ^ d = M at h1
    omega
  exact ⟨_, _, _, _, _, _, rfl, rfl, key _, key _, key _⟩

/-- The two images show the same native samples. -/
def SameNative (i : BiPlanar) (o : NVOrder) (e : Endianness) (bp : BytesPacking) (j : Planar)
    (e' : Endianness) (bp' : BytesPacking) (d : Nat) (s : Sampling) : Prop :=
  i.width = j.width ∧ i.height = j.height ∧ ∀ x y, x < i.width → y < i.height →
    nativeSample e bp d (BiPlanar.Y i x y) = nativeSample e' bp' d (Planar.Y j x y) ∧
    nativeSample e bp d (BiPlanar.U i s o x y) = nativeSample e' bp' d (Planar.U j s x y) ∧
    nativeSample e bp d (BiPlanar.V i s o x y) = nativeSample e' bp' d (Planar.V j s x y)

/-- No component of the image is exactly half-way between two code values. -/
def NoTies (j : Planar) (e : Endianness) (bp : BytesPacking) (d : Nat) (s : Sampling)
    (rg : YuvRange) (m : Matrix) : Prop :=
  let t := searchInverse 13 d rg m
  let c := getYuvRange d rg
  ∀ x y, x < j.width → y < j.height →
    let Y := nativeSample e bp d (Planar.Y j x y)
    let U := nativeSample e bp d (Planar.U j s x y)
    let V := nativeSample e bp d (Planar.V j s x y)
    linR t c.biasY c.biasUv Y V % 8192 ≠ 4096 ∧ linG t c.biasY c.biasUv Y U V % 8192 ≠ 4096 ∧
    linB t c.biasY c.biasUv Y U % 8192 ≠ 4096

/-- C31, the part that holds at the API: a bi-planar and a planar image showing the same native
samples decode to identical buffers when no component is exactly half-way. -/
theorem c31_nv_planar_agree_partial (o : NVOrder) (e e' : Endianness) (bp bp' : BytesPacking)
    (d : Nat) (hd : Depth d) (ch : Channels) (s : Sampling) (i : BiPlanar) (j : Planar)
    (rgba : Buf) (stride : Nat) (rg : YuvRange) (m : Matrix) (hi : GoodBiPlanar i s 65536)
    (hj : GoodPlanar j s 65536) (hsame : SameNative i o e bp j e' bp' d s)
    (hties : NoTies j e' bp' d s rg m)
    (hdst : GoodDst rgba.length stride i.width i.height ch.count) :
    ∃ out, nvP16ToRgb16 x64 o e bp d ch s noSimdNV i rgba stride rg m = .ok out ∧
      p16ToRgb16 x64 e' bp' d ch s noSimd j rgba stride rg m = .ok out := by
  obtain ⟨hw, hh, hs⟩ := hsame
  obtain ⟨out, e1, hr⟩ := c28_nv_decode_exact o e bp d hd ch s i rgba stride rg m hi hdst
  rw [hw, hh] at hdst
  obtain ⟨out', e2, hr'⟩ := c28_planar_decode_exact e' bp' d hd ch s j rgba stride rg m hj hdst
  refine ⟨out, e1, ?_⟩
  rw [e2]; congr 1
  refine frameSpec_unique hr' ?_
  rw [← hw, ← hh]
  refine ⟨hr.1, fun x y c hx hy hc => ?_, hr.2.2⟩
  rw [hr.2.1 x y c hx hy hc]
  obtain ⟨h1, h2, h3⟩ := hs x y hx hy
  obtain ⟨t1, t2, t3⟩ := hties x y (hw ▸ hx) (hh ▸ hy)
  unfold deepNvPixel deepPlanarPixel
  rw [h1, h2, h3]
  obtain ⟨r, g, b, r', g', b', q1, q2, a1, a2, a3⟩ := c31_components_partial d ch rg m
    (nativeSample e' bp' d (Planar.Y j x y)) (nativeSample e' bp' d (Planar.U j s x y))
    (nativeSample e' bp' d (Planar.V j s x y))
  have b1 : r' = r := a1.elim id fun h => absurd h.2 t1
  have b2 : g' = g := a2.elim id fun h => absurd h.2 t2
  have b3 : b' = b := a3.elim id fun h => absurd h.2 t3
  rw [q1, q2, b1, b2, b3]

/-- A one-pixel 10-bit picture in the two layouts. -/
def tieNV : BiPlanar :=
  { y := [180], yStride := 1, uv := [512, 596], uvStride := 2, width := 1, height := 1 }
def tieI010 : Planar :=
  { y := [180], yStride := 1, u := [512], uStride := 1, v := [596], vStride := 1
    width := 1, height := 1 }

/-- C31 fails: the two layouts of one picture decode differently (red 287 against 286). -/
theorem c31_tie_differs :
    nvP16ToRgb16 x64 .uv .little .lsb 10 .rgb .yuv444 noSimdNV tieNV [0, 0, 0] 3 .limited .bt709
      = .ok [287, 91, 135] ∧
    p16ToRgb16 x64 .little .lsb 10 .rgb .yuv444 noSimd tieI010 [0, 0, 0] 3 .limited .bt709
      = .ok [286, 91, 135] := by decide +kernel

/-! ## C32 -/

/-- The image with every sample replaced by `f`. -/
def Planar.mapSamples (f : Nat → Nat) (i : Planar) : Planar :=
  { i with y := i.y.map f, u := i.u.map f, v := i.v.map f }
def BiPlanar.mapSamples (f : Nat → Nat) (i : BiPlanar) : BiPlanar :=
  { i with y := i.y.map f, uv := i.uv.map f }

theorem at'_map {f : Nat → Nat} (hf : f 0 = 0) (l : Buf) (st x y : Nat) :
    at' (l.map f) st x y = f (at' l st x y) := by
  simp only [at', List.getD_eq_getElem?_getD, List.getElem?_map]
  cases l[y * st + x]? <;> simp [hf]

theorem GoodPlane.mapS {l : Buf} {st c r B B' : Nat} {f : Nat → Nat} (h : GoodPlane l st c r B)
    (hf : ∀ a, a < B → f a < B') : GoodPlane (l.map f) st c r B' :=
  ⟨h.1, h.2, by rw [List.length_map]; exact h.3, fun a ha => by
    obtain ⟨b, hb, rfl⟩ := List.mem_map.1 ha
    exact hf b (h.4 b hb)⟩

theorem native_map_good {i : Planar} {s : Sampling} (e : Endianness) (bp : BytesPacking) (d : Nat)
    (hi : GoodPlanar i s 65536) :
    GoodPlanar (Planar.mapSamples (nativeSample e bp d) i) s 65536 :=
  have hf : ∀ a, a < 65536 → nativeSample e bp d a < 65536 := fun _ h => nativeSample_lt e bp h
  ⟨hi.1, hi.2, hi.3, hi.4, GoodPlane.mapS hi.5 hf, GoodPlane.mapS hi.6 hf, GoodPlane.mapS hi.7 hf⟩

theorem native_map_goodBi {i : BiPlanar} {s : Sampling} (e : Endianness) (bp : BytesPacking)
    (d : Nat) (hi : GoodBiPlanar i s 65536) :
    GoodBiPlanar (BiPlanar.mapSamples (nativeSample e bp d) i) s 65536 :=
  have hf : ∀ a, a < 65536 → nativeSample e bp d a < 65536 := fun _ h => nativeSample_lt e bp h
  ⟨hi.1, hi.2, hi.3, hi.4, GoodPlane.mapS hi.5 hf, hi.6, hi.7,
    by show (i.uv.map _).length = _; rw [List.length_map]; exact hi.8,
    fun a ha => by
      obtain ⟨b, hb, rfl⟩ := List.mem_map.1 ha
      exact hf b (hi.9 b hb)⟩

theorem nativeSample_zero (e : Endianness) (bp : BytesPacking) (d : Nat) :
    nativeSample e bp d 0 = 0 := by
  cases e <;> cases bp <;> simp [nativeSample]

/-- C32: decoding in any byte order and packing equals decoding, as little-endian samples in the
low bits, the image whose samples have been byte-swapped and shifted accordingly. -/
theorem c32_planar_representation (e : Endianness) (bp : BytesPacking) (d : Nat) (hd : Depth d)
    (ch : Channels) (s : Sampling) (i : Planar) (rgba : Buf) (stride : Nat) (rg : YuvRange)
    (m : Matrix) (hi : GoodPlanar i s 65536)
    (hdst : GoodDst rgba.length stride i.width i.height ch.count) :
    ∃ out, p16ToRgb16 x64 e bp d ch s noSimd i rgba stride rg m = .ok out ∧
      p16ToRgb16 x64 .little .lsb d ch s noSimd (Planar.mapSamples (nativeSample e bp d) i) rgba
        stride rg m = .ok out := by
  obtain ⟨out, e1, hr⟩ := c28_planar_decode_exact e bp d hd ch s i rgba stride rg m hi hdst
  obtain ⟨out', e2, hr'⟩ := c28_planar_decode_exact .little .lsb d hd ch s
    (Planar.mapSamples (nativeSample e bp d) i) rgba stride rg m (native_map_good e bp d hi) hdst
  refine ⟨out, e1, ?_⟩
  rw [e2]; congr 1
  refine frameSpec_unique hr' ⟨hr.1, fun x y c hx hy hc => ?_, hr.2.2⟩
  rw [hr.2.1 x y c hx hy hc]
  have hz := nativeSample_zero e bp d
  unfold deepPlanarPixel
  simp only [Planar.Y, Planar.U, Planar.V, Planar.mapSamples, at'_map hz]
  rfl

/-- C32 for the bi-planar formats. -/
theorem c32_nv_representation (o : NVOrder) (e : Endianness) (bp : BytesPacking) (d : Nat)
    (hd : Depth d) (ch : Channels) (s : Sampling) (i : BiPlanar) (rgba : Buf) (stride : Nat)
    (rg : YuvRange) (m : Matrix) (hi : GoodBiPlanar i s 65536)
    (hdst : GoodDst rgba.length stride i.width i.height ch.count) :
    ∃ out, nvP16ToRgb16 x64 o e bp d ch s noSimdNV i rgba stride rg m = .ok out ∧
      nvP16ToRgb16 x64 o .little .lsb d ch s noSimdNV
        (BiPlanar.mapSamples (nativeSample e bp d) i) rgba stride rg m = .ok out := by
  obtain ⟨out, e1, hr⟩ := c28_nv_decode_exact o e bp d hd ch s i rgba stride rg m hi hdst
  obtain ⟨out', e2, hr'⟩ := c28_nv_decode_exact o .little .lsb d hd ch s
    (BiPlanar.mapSamples (nativeSample e bp d) i) rgba stride rg m (native_map_goodBi e bp d hi) hdst
  refine ⟨out, e1, ?_⟩
  rw [e2]; congr 1
  refine frameSpec_unique hr' ⟨hr.1, fun x y c hx hy hc => ?_, hr.2.2⟩
  rw [hr.2.1 x y c hx hy hc]
  have hz := nativeSample_zero e bp d
  unfold deepNvPixel
  cases o <;>
    simp only [BiPlanar.Y, BiPlanar.U, BiPlanar.V, BiPlanar.C, BiPlanar.mapSamples, at'_map hz] <;>
    rfl

/-! ## C29: 10- and 12-bit input, 8-bit output -/

theorem putNvP10_ok (md : Mode) (e : Endianness) (ch : Channels) (rg : YuvRange) (m : Matrix) :
    PutOk 65536 ch.count (putDeep (qrshr (nvP10Precision md + 2) 8) asU8
        (fun v => toNe e .msb v (16 - 10)) (searchInverse (nvP10Precision md) 10 rg m)
        (getYuvRange 10 rg) ch 255)
      (fun y u v => deepPixel (2 ^ (nvP10Precision md + 1) - 1) (nvP10Precision md)
        (nvP10Precision md + 2) 10 8 ch rg m (toNe e .msb y (16 - 10)) (toNe e .msb u (16 - 10))
        (toNe e .msb v (16 - 10))) := by
  have hf : ∀ m ∈ allMatrix, ∀ rg ∈ allRange,
      Fits (searchInverse 13 10 rg m) (2 ^ 10) (2 ^ 9) (2 ^ 16) ∧
      Fits (searchInverse 14 10 rg m) (2 ^ 10) (2 ^ 9) (2 ^ 16) := by decide +kernel
  have hf' : Fits (searchInverse (nvP10Precision md) 10 rg m) (2 ^ 10) (2 ^ 9) (2 ^ 16) := by
    cases md
    · exact (forall_mr hf m rg).1
    · exact (forall_mr hf m rg).1
    · exact (forall_mr hf m rg).2
  have hp : (2 : Int) ^ (nvP10Precision md + 2) ≤ 2 ^ 16 := by cases md <;> decide
  have h := putDeep_ok (cast := asU8) (ne := fun v => toNe e .msb v (16 - 10)) (B := 65536)
    (c := getYuvRange 10 rg) (QOk.mono (qrshr_QOk (nvP10Precision md + 2) 8) hp) hf'
    (fun y u v hy hu hv => by
      refine near_of_lt (d := 10) (by decide) rg ?_ ?_ ?_ <;>
        rw [toNe_eq e .msb (d := 10) (by assumption)] <;>
        exact nativeSample_msb_lt e (by decide) (by assumption)) ch 255
  simp only [qr, asU8_sat] at h
  exact h

/-- C29 for P010, P210 and P410: in every mode, every pixel is the 8-bit rounding of the decoded
colour saturated to `[0, 255]`, with opaque alpha, or what the vector code guarantees. -/
theorem c29_nv_decode (md : Mode) (o : NVOrder) (e : Endianness) (ch : Channels) (s : Sampling)
    (i : BiPlanar) (rgba : Buf) (stride : Nat) (rg : YuvRange) (m : Matrix)
    (hi : GoodBiPlanar i s 65536) (hdst : GoodDst rgba.length stride i.width i.height ch.count)
    (R : Nat → Nat → Nat → Buf → Prop) (h : RowHandlerNV)
    (hh : h.Ok 65536 ch.count i.width (hdiv s) o.uPos o.vPos R) :
    let p := nvP10Precision md
    ∃ out, nvP10ToRgb8 x64 md o e .msb ch s h i rgba stride rg m = .ok out ∧
      FrameRel out rgba stride i.width i.height ch.count (fun x y px =>
        px = deepPixel (2 ^ (p + 1) - 1) p (p + 2) 10 8 ch rg m
          (nativeSample e .msb 10 (BiPlanar.Y i x y)) (nativeSample e .msb 10 (BiPlanar.U i s o x y))
          (nativeSample e .msb 10 (BiPlanar.V i s o x y)) ∨
        R (BiPlanar.Y i x y) (BiPlanar.U i s o x y) (BiPlanar.V i s o x y) px) := by
  intro p
  obtain ⟨out, e1, hr⟩ := nvDeep_spec (guard := true) hi hdst (putNvP10_ok md e ch rg m) hh
  refine ⟨out, e1, hr.1, fun x y hx hy => ?_, hr.2.2⟩
  obtain ⟨b1, b2, b3⟩ := bi_sample_lt (by decide) hi o x y
  have := hr.2.1 x y hx hy
  simp only [toNe_eq e .msb b1, toNe_eq e .msb b2, toNe_eq e .msb b3] at this
  exact this

/-- C29: the 8-bit components are within 0.54 code values of a quarter of the exact 10-bit
ITU-R result, saturated to `[0, 255]`. -/
theorem c29_close (md : Mode) (ch : Channels) (rg : YuvRange) (m : Matrix) (y u v : Nat)
    (hy : y < 1024) (hu : u < 1024) (hv : v < 1024) :
    let p := nvP10Precision md
    ∃ r g b : Nat, deepPixel (2 ^ (p + 1) - 1) p (p + 2) 10 8 ch rg m y u v
        = layout ch r g b 255 ∧
      |(r : Rat) - satQ 8 (exactR 10 rg m y u v / 4)| ≤ 54 / 100 ∧
      |(g : Rat) - satQ 8 (exactG 10 rg m y u v / 4)| ≤ 54 / 100 ∧
      |(b : Rat) - satQ 8 (exactB 10 rg m y u v / 4)| ≤ 54 / 100 := by
  intro p
  have hc : DecodeCfg p 10 := by
    cases md
    · exact Or.inr (Or.inl ⟨rfl, Or.inr (Or.inl rfl)⟩)
    · exact Or.inr (Or.inl ⟨rfl, Or.inr (Or.inl rfl)⟩)
    · exact Or.inr (Or.inr ⟨rfl, Or.inr (Or.inl rfl), by decide⟩)
  have h6 : p ≠ 6 := by cases md <;> decide
  have hb : (2 : Rat) ^ 10 / 2 ^ p / 4 ≤ 4 / 100 := by
    have : p = 13 ∨ p = 14 := by cases md <;> simp [p, nvP10Precision]
    rcases this with h | h <;> rw [h] <;> norm_num
  obtain ⟨c1, c2, c3⟩ := sums_close hc h6 rg m (y := y) (u := u) (v := v) hy hu hv
  have key : ∀ (s : Int) (E : Rat), |(s : Rat) / 2 ^ p - E| ≤ 2 ^ 10 / 2 ^ p →
      |((saturate 8 (roundShift (2 ^ (p + 1) - 1) (p + 2) s) : Nat) : Rat) - satQ 8 (E / 4)|
        ≤ 54 / 100 := by
    intro s E h
    have h4 : (s : Rat) / 2 ^ (p + 2) - E / 4 = ((s : Rat) / 2 ^ p - E) / 4 := by
      rw [pow_add]; field_simp; ring
    have h5 : |(s : Rat) / 2 ^ (p + 2) - E / 4| ≤ 4 / 100 := by
      rw [h4, abs_div, abs_of_pos (show (0 : Rat) < 4 by norm_num)]
      linarith [div_le_div_of_nonneg_right h (show (0 : Rat) ≤ 4 by norm_num)]
    have h7 := saturate_close (dOut := 8) (k := p + 2) (half := 2 ^ (p + 1) - 1) (by omega)
      (Or.inl rfl) h5
    linarith
  exact ⟨_, _, _, rfl, key _ _ c1, key _ _ c2, key _ _ c3⟩

theorem saturate_mono (d : Nat) {a b : Int} (h : a ≤ b) : saturate d a ≤ saturate d b := by
  unfold saturate; omega

theorem roundShift_mono (half : Int) (k : Nat) {a b : Int} (h : a ≤ b) :
    roundShift half k a ≤ roundShift half k b := by
  have := one_le_two_pow k
  exact Int.ediv_le_ediv (by omega) (by omega)

/-- C29, C14 at any depth: raising luma never lowers a component. -/
theorem c29_monotone (half : Int) (p k d dOut : Nat) (h : DecodeCfg p d) (ch : Channels)
    (rg : YuvRange) (m : Matrix) (y y' u v : Nat) (hy : y ≤ y') :
    ∃ r g b r' g' b', deepPixel half p k d dOut ch rg m y u v = layout ch r g b (2 ^ dOut - 1) ∧
      deepPixel half p k d dOut ch rg m y' u v = layout ch r' g' b' (2 ^ dOut - 1) ∧
      r ≤ r' ∧ g ≤ g' ∧ b ≤ b' := by
  have h0 := (fits_search h rg m).y0
  have e : ((y : Int) - (getYuvRange d rg).biasY) * (searchInverse p d rg m).y ≤
      ((y' : Int) - (getYuvRange d rg).biasY) * (searchInverse p d rg m).y :=
    Int.mul_le_mul_of_nonneg_right (by omega) h0
  refine ⟨_, _, _, _, _, _, rfl, rfl, saturate_mono _ (roundShift_mono _ _ ?_),
    saturate_mono _ (roundShift_mono _ _ ?_), saturate_mono _ (roundShift_mono _ _ ?_)⟩
  · unfold linR; omega
  · unfold linG; omega
  · unfold linB; omega

/-- P010 full-range white and black. -/
def whiteP010 : BiPlanar :=
  { y := [65472, 0], yStride := 2, uv := [32768, 32768, 32768, 32768], uvStride := 4
    width := 2, height := 1 }

example : GoodBiPlanar whiteP010 .yuv444 65536 where
  wpos := by decide
  hpos := by decide
  w32 := by unfold U32; decide
  h32 := by unfold U32; decide
  y := ⟨by unfold U32; decide, by decide, by unfold FullRows; decide, by decide⟩
  uvStride32 := by unfold U32; decide
  uvStride := by decide
  uvLen := by decide
  uvBound := by decide

example : nvP10ToRgb8 x64 .balanced .uv .little .msb .rgba .yuv444 noSimdNV whiteP010
    (List.replicate 8 7) 8 .full .bt709 = .ok [255, 255, 255, 255, 0, 0, 0, 255] := by
  decide +kernel

/-- Full-range 10-bit white in planar form. -/
def whiteI410 : Planar :=
  { y := [1023, 0], yStride := 2, u := [512, 512], uStride := 2, v := [512, 512], vStride := 2
    width := 2, height := 1 }

/-- C29 fails for the planar formats: full-range white comes out black, so the brighter of the
two pixels is not brighter than the other. -/
theorem c29_planar_white_is_black :
    p16ToRgb8 x64 .little .lsb 10 .rgb .yuv444 noSimd whiteI410 (List.replicate 6 7) 6 .full .bt709
      = .ok [0, 0, 0, 0, 0, 0] := by decide +kernel

/-- Limited-range 10-bit white in planar form. -/
def whiteLimited : Planar :=
  { y := [940], yStride := 1, u := [512], uStride := 1, v := [512], vStride := 1
    width := 1, height := 1 }

/-- C29 also fails for the planar formats with the matrices that have no stored coefficients:
nominal white decodes to 3. -/
theorem c29_planar_smpte240_dark :
    p16ToRgb8 x64 .little .lsb 10 .rgb .yuv444 noSimd whiteLimited [7, 7, 7] 3 .limited .smpte240
      = .ok [3, 3, 3] := by decide +kernel

/-- The matrices with stored coefficients. -/
def Stored : Matrix → Prop
  | .bt601 | .bt709 | .bt2020 => True
  | _ => False

theorem p10Inverse_stored {d : Nat} (hd : d = 10 ∨ d = 12) (rg : YuvRange) {m : Matrix}
    (hm : Stored m) : p10Inverse d rg m = searchInverse 13 d rg m := by
  rcases hd with rfl | rfl <;> cases m <;> first | exact hm.elim | (cases rg <;> decide +kernel)

/-- What the planar 8-bit converters store for the unrounded sum `s`: the value rounded to 8 bits,
saturated at the *source* depth, modulo 256. -/
def p10Wrap (d : Nat) (s : Int) : Nat :=
  saturate d (roundShift (2 ^ (13 + (d - 8) - 1)) (13 + (d - 8)) s) % 256

/-- The exact pixel of the planar 8-bit converters. -/
def p10Pixel (d : Nat) (ch : Channels) (rg : YuvRange) (m : Matrix) (y u v : Nat) : Buf :=
  let t := p10Inverse d rg m
  let c := getYuvRange d rg
  layout ch (p10Wrap d (linR t c.biasY c.biasUv y v)) (p10Wrap d (linG t c.biasY c.biasUv y u v))
    (p10Wrap d (linB t c.biasY c.biasUv y u)) 255

theorem p10Qrshr_QOk {d : Nat} (hd : d = 10 ∨ d = 12) : QOk (p10Qrshr d) (fun v =>
    max (min ((v + 2 ^ (13 + (d - 8) - 1)) / 2 ^ (13 + (d - 8))) (2 ^ d - 1)) 0) (2 ^ 17) := by
  intro v h1 h2
  have hk : (0 : Int) ≤ 2 ^ (13 + (d - 8) - 1) ∧ (2 : Int) ^ (13 + (d - 8) - 1) ≤ 2 ^ 17 := by
    rcases hd with rfl | rfl <;> decide
  unfold p10Qrshr
  rw [add32_ok (by omega) (by omega)]
  rfl

theorem p10Wrap_eq {d : Nat} (s : Int) :
    asU8 (max (min ((s + 2 ^ (13 + (d - 8) - 1)) / 2 ^ (13 + (d - 8))) (2 ^ d - 1)) 0)
      = p10Wrap d s := by
  unfold asU8 p10Wrap saturate roundShift
  omega

/-- Below 255.5 nothing wraps. -/
theorem p10Wrap_sat {d : Nat} (hd : d = 10 ∨ d = 12) {t : Int}
    (ht : t < 255 * 2 ^ (13 + (d - 8)) + 2 ^ (13 + (d - 8) - 1)) :
    p10Wrap d t = saturate 8 (roundShift (2 ^ (13 + (d - 8) - 1)) (13 + (d - 8)) t) := by
  unfold p10Wrap saturate roundShift
  rcases hd with rfl | rfl
  · omega
  · omega

theorem fits_p10 {d : Nat} (hd : d = 10 ∨ d = 12) (rg : YuvRange) (m : Matrix) :
    Fits (p10Inverse d rg m) 65536 65536 (2 ^ 17) ∧
    Fits (searchInverse 13 d rg m) 65536 65536 (2 ^ 17) := by
  have hf : ∀ m ∈ allMatrix, ∀ rg ∈ allRange,
      (Fits (p10Inverse 10 rg m) 65536 65536 (2 ^ 17) ∧
        Fits (searchInverse 13 10 rg m) 65536 65536 (2 ^ 17)) ∧
      (Fits (p10Inverse 12 rg m) 65536 65536 (2 ^ 17) ∧
        Fits (searchInverse 13 12 rg m) 65536 65536 (2 ^ 17)) := by decide +kernel
  rcases hd with rfl | rfl
  · exact (forall_mr hf m rg).1
  · exact (forall_mr hf m rg).2

theorem putP10_ok {d : Nat} (hd : d = 10 ∨ d = 12) (e : Endianness) (bp : BytesPacking)
    (ch : Channels) (rg : YuvRange) (m : Matrix) :
    PutOk 65536 ch.count (putDeep (p10Qrshr d) asU8 (fun v => toNe e bp v (16 - d))
        (p10Inverse d rg m) (getYuvRange d rg) ch 255)
      (fun y u v => p10Pixel d ch rg m (toNe e bp y (16 - d)) (toNe e bp u (16 - d))
        (toNe e bp v (16 - d))) := by
  have hdd : Depth d := by rcases hd with rfl | rfl <;> simp [Depth]
  have h := putDeep_ok (cast := asU8) (ne := fun v => toNe e bp v (16 - d)) (B := 65536)
    (c := getYuvRange d rg) (p10Qrshr_QOk hd) (fits_p10 hd rg m).1
    (fun y u v hy hu hv => near_u16 hdd rg (toNe_lt e bp hy) (toNe_lt e bp hu) (toNe_lt e bp hv))
    ch 255
  simp only [p10Wrap_eq] at h
  exact h

/-- What the planar converters do for every image: each pixel is the decoding of its samples,
rounded to 8 bits but wrapped instead of saturated.  (C29 asks for saturation.) -/
theorem c29_planar_decode_wraps (e : Endianness) (bp : BytesPacking) (d : Nat)
    (hd : d = 10 ∨ d = 12) (ch : Channels) (s : Sampling) (i : Planar) (rgba : Buf) (stride : Nat)
    (rg : YuvRange) (m : Matrix) (hi : GoodPlanar i s 65536)
    (hdst : GoodDst rgba.length stride i.width i.height ch.count)
    (R : Nat → Nat → Nat → Buf → Prop) (h : RowHandler)
    (hh : h.Ok 65536 ch.count i.width (hdiv s) R) :
    ∃ out, p16ToRgb8 x64 e bp d ch s h i rgba stride rg m = .ok out ∧
      FrameRel out rgba stride i.width i.height ch.count (fun x y p =>
        p = p10Pixel d ch rg m (nativeSample e bp d (Planar.Y i x y))
          (nativeSample e bp d (Planar.U i s x y)) (nativeSample e bp d (Planar.V i s x y)) ∨
        R (Planar.Y i x y) (Planar.U i s x y) (Planar.V i s x y) p) := by
  obtain ⟨out, e1, hr⟩ := planarDeep_spec (guard := false) hi hdst (putP10_ok hd e bp ch rg m) hh
  refine ⟨out, e1, hr.1, fun x y hx hy => ?_, hr.2.2⟩
  obtain ⟨b1, b2, b3⟩ := hi.sample_lt hx hy
  have := hr.2.1 x y hx hy
  simp only [toNe_eq e bp b1, toNe_eq e bp b2, toNe_eq e bp b3] at this
  exact this

/-- The unrounded components stay below 255.5 code values of the 8-bit output. -/
def NoOverflow8 (d : Nat) (rg : YuvRange) (m : Matrix) (y u v : Nat) : Prop :=
  let t := searchInverse 13 d rg m
  let c := getYuvRange d rg
  let top : Int := 255 * 2 ^ (13 + (d - 8)) + 2 ^ (13 + (d - 8) - 1)
  linR t c.biasY c.biasUv y v < top ∧ linG t c.biasY c.biasUv y u v < top ∧
  linB t c.biasY c.biasUv y u < top

/-- C29, the part that holds for the planar formats: with BT.601, BT.709 and BT.2020, where no
component rounds to 256 or more, the pixel is the saturated 8-bit rounding of the decoded colour. -/
theorem c29_planar_decode_partial (e : Endianness) (bp : BytesPacking) (d : Nat)
    (hd : d = 10 ∨ d = 12) (ch : Channels) (s : Sampling) (i : Planar) (rgba : Buf) (stride : Nat)
    (rg : YuvRange) (m : Matrix) (hm : Stored m) (hi : GoodPlanar i s 65536)
    (hno : ∀ x y, x < i.width → y < i.height → NoOverflow8 d rg m
      (nativeSample e bp d (Planar.Y i x y)) (nativeSample e bp d (Planar.U i s x y))
      (nativeSample e bp d (Planar.V i s x y)))
    (hdst : GoodDst rgba.length stride i.width i.height ch.count) :
    ∃ out, p16ToRgb8 x64 e bp d ch s noSimd i rgba stride rg m = .ok out ∧
      FrameSpec out rgba stride i.width i.height ch.count (fun x y =>
        deepPixel (2 ^ (13 + (d - 8) - 1)) 13 (13 + (d - 8)) d 8 ch rg m
          (nativeSample e bp d (Planar.Y i x y)) (nativeSample e bp d (Planar.U i s x y))
          (nativeSample e bp d (Planar.V i s x y))) := by
  obtain ⟨out, e1, hr⟩ := c29_planar_decode_wraps e bp d hd ch s i rgba stride rg m hi hdst
    (fun _ _ _ _ => False) noSimd noSimd_ok
  refine ⟨out, e1, frameRel_or_eq hr fun x y p hx hy hp => ?_⟩
  simp only [or_false] at hp
  rw [hp]
  obtain ⟨h1, h2, h3⟩ := hno x y hx hy
  unfold p10Pixel deepPixel
  rw [p10Inverse_stored hd rg hm]
  simp only [p10Wrap_sat hd h1, p10Wrap_sat hd h2, p10Wrap_sat hd h3]

/-- Mid-gray and a saturated colour meet the hypothesis of the partial theorem. -/
example : NoOverflow8 10 .limited .bt709 512 512 512 ∧ NoOverflow8 12 .full .bt601 1500 900 3000 := by
  unfold NoOverflow8; decide +kernel

end Verif
