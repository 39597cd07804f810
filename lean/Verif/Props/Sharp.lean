import Verif.Lemmas.SharpFrames
import Verif.Props.DeepErrors
import Verif.Lemmas.Gray
/-!
# C44: sharp YUV
-/
namespace Verif
open Spec

/-- The planes `out` of a sharp encoding of `rgba` into an image with the geometry of `i`. -/
structure SharpEncoded (T : GammaTables) (ch : Channels) (s : SharpSampling) (rg : YuvRange)
    (m : Matrix) (rgba : Buf) (stride : Nat) (i out : Planar) : Prop where
  geometry : out.width = i.width ∧ out.height = i.height ∧ out.yStride = i.yStride ∧
    out.uStride = i.uStride ∧ out.vStride = i.vStride
  y : FrameSpec out.y i.y i.yStride i.width i.height 1 fun x y =>
    [luma8 13 ch rg m (pixelAt rgba stride ch.count x y)]
  u : FrameSpec out.u i.u i.uStride (cover i.width 2) (cover i.height (vdiv s.sampling)) 1 fun cx cy =>
    let k := fun f => sharpColour T s f rgba stride ch.count i.width i.height cx cy
    [low8 (cbVal 13 8 rg m (k (red ch)) (k (green ch)) (k (blue ch)))]
  v : FrameSpec out.v i.v i.vStride (cover i.width 2) (cover i.height (vdiv s.sampling)) 1 fun cx cy =>
    let k := fun f => sharpColour T s f rgba stride ch.count i.width i.height cx cy
    [low8 (crVal 13 8 rg m (k (red ch)) (k (green ch)) (k (blue ch)))]

section
variable {T : GammaTables} {ch : Channels} {s : SharpSampling} {i : Planar} {rgba : Buf}
  {stride : Nat} {rg : YuvRange} {m : Matrix} {D : Nat}

/-- C44: sharp encoding of a good buffer into a good 4:2:0 or 4:2:2 image succeeds and determines all
three planes, for every pair of tables: luma is that of each pixel, chroma that of the colour mixed
in linear light from the pixels the sample covers; nothing else is written. -/
theorem c44_sharp_encode (T : GammaTables) (ch : Channels) (s : SharpSampling) (i : Planar)
    (rgba : Buf) (stride : Nat) (rg : YuvRange) (m : Matrix) (D : Nat) (hT : GoodTables T)
    (hi : GoodPlanar i s.sampling D) (hsrc : GoodDst rgba.length stride i.width i.height ch.count)
    (hb : Bytes rgba) :
    ∃ out, rgbxToSharp x64 ch s T i rgba stride rg m = .ok out ∧
      SharpEncoded T ch s rg m rgba stride i out := by
  have hr := hi.rows
  have hcn := count_pos ch
  obtain ⟨lay, el, hL⟩ := linearize_ok hT (ch := ch) hi.wpos hsrc hb
  have fin : ∀ o : Outcome (Buf × Buf × Buf), SharpPlanes T s ch rg m i rgba stride o →
      ∃ out, (o >>= fun x => pure { i with y := x.1, u := x.2.1, v := x.2.2 }) = Outcome.ok out ∧
      SharpEncoded T ch s rg m rgba stride i out := by
    intro o ⟨y, u, v, e, ly, lu, lv⟩
    refine ⟨{ i with y, u, v }, by rw [e]; rfl, ⟨rfl, rfl, rfl, rfl, rfl⟩, ly, ?_, ?_⟩
    · rw [show cover i.width 2 = ceil2 i.width from cover_hdiv (s := .yuv420) hi.wpos,
        cover_vdiv hi.hpos]
      exact lu
    · rw [show cover i.width 2 = ceil2 i.width from cover_hdiv (s := .yuv420) hi.wpos,
        cover_vdiv hi.hpos]
      exact lv
  unfold rgbxToSharp
  rw [hsrc.accepted hi.wpos hi.hpos hi.w32 hi.h32 hcn (count_le ch), hi.accepted, el]
  simp only [Outcome.bind_ok]
  cases s with
  | yuv420 => exact fin _ (sharp420_ok hT rg m hr hsrc hb hL)
  | yuv422 => exact fin _ (sharp422_ok hT rg m hr hsrc hb hL)

/-- C44: whatever the tables, the luma plane is byte for byte the one the plain encoder writes. -/
theorem c44_luma_is_plain_luma (hT : GoodTables T) (hi : GoodPlanar i s.sampling D)
    (hsrc : GoodDst rgba.length stride i.width i.height ch.count) (hb : Bytes rgba) :
    ∃ sharp plain, rgbxToSharp x64 ch s T i rgba stride rg m = .ok sharp ∧
      rgbxToYuv x64 .balanced ch s.sampling noEnc noEnc420 i rgba stride rg m = .ok plain ∧
      sharp.y = plain.y := by
  obtain ⟨a, ea, ha⟩ := c44_sharp_encode T ch s i rgba stride rg m D hT hi hsrc hb
  obtain ⟨b, eb, hb'⟩ := c20_planar_encode_exact .balanced ch s.sampling i rgba stride rg m D hi hsrc hb
  exact ⟨a, b, ea, eb, frameSpec_unique ha.y hb'.y⟩

theorem sharpComp_lt (hT : GoodTables T) {f : Buf → Nat} {w h vd cx cy cn : Nat} :
    sharpComp T f rgba stride cn w h vd cx cy < 256 := GoodTables.gam_lt hT _

/-- The colour behind a chroma sample is made of bytes. -/
theorem sharpColour_lt (hT : GoodTables T) (hb : Bytes rgba) {w h cx cy cn : Nat} :
    sharpColour T s (red ch) rgba stride cn w h cx cy < 256 ∧
    sharpColour T s (green ch) rgba stride cn w h cx cy < 256 ∧
    sharpColour T s (blue ch) rgba stride cn w h cx cy < 256 := by
  have hx := fun x => comps_lt (ch := ch) (B := 256) (px := pixelAt rgba stride cn x cy) (by omega)
    (bnd_take (bnd_drop hb))
  unfold sharpColour
  refine ⟨?_, ?_, ?_⟩ <;> split
  · exact (hx _).1
  · exact sharpComp_lt hT
  · exact (hx _).2.1
  · exact sharpComp_lt hT
  · exact (hx _).2.2
  · exact sharpComp_lt hT

theorem nominal8 (rg : YuvRange) (m : Matrix) {r g b : Nat} (hr : r < 256) (hg : g < 256)
    (hb : b < 256) :
    let c := getYuvRange 8 rg
    (c.biasY ≤ low8 (lumaVal 13 8 rg m r g b) ∧ low8 (lumaVal 13 8 rg m r g b) ≤ c.biasY + c.rangeY) ∧
    (c.biasY ≤ low8 (cbVal 13 8 rg m r g b) ∧ low8 (cbVal 13 8 rg m r g b) ≤ c.biasY + c.rangeUv) ∧
    (c.biasY ≤ low8 (crVal 13 8 rg m r g b) ∧ low8 (crVal 13 8 rg m r g b) ≤ c.biasY + c.rangeUv) := by
  obtain ⟨c1, c2, c3⟩ := encode_closed (p := 13) (by simp [EncPrec]) rg m r g b (by omega) (by omega)
    (by omega)
  obtain ⟨y, cb, cr, e1, e2, e3, ⟨y1, y2⟩, ⟨b1, b2⟩, ⟨r1, r2⟩, -⟩ :=
    c09_encode_in_nominal_range 13 (Or.inl rfl) rg m r g b (by omega) (by omega) (by omega)
  obtain ⟨⟨l1, l2, l3⟩, -⟩ := low8_encode (p := 13) (Or.inl rfl) rg m hr hg hb
  have f1 : lumaVal 13 8 rg m r g b = y := by rw [c1] at e1; injection e1
  have f2 : cbVal 13 8 rg m r g b = cb := by rw [c2] at e2; injection e2
  have f3 : crVal 13 8 rg m r g b = cr := by rw [c3] at e3; injection e3
  have hc : ((getYuvRange 8 rg).biasY = 0 ∧ (getYuvRange 8 rg).biasUv = 128 ∧
      (getYuvRange 8 rg).rangeUv = 255) ∨ ((getYuvRange 8 rg).biasY = 16 ∧
      (getYuvRange 8 rg).biasUv = 128 ∧ (getYuvRange 8 rg).rangeUv = 224) := by
    cases rg <;> decide
  simp only []
  omega

/-- C44: every luma and chroma sample lies in the nominal range, whatever the tables. -/
theorem c44_samples_in_range (hT : GoodTables T) (hi : GoodPlanar i s.sampling D)
    (hsrc : GoodDst rgba.length stride i.width i.height ch.count) (hb : Bytes rgba) :
    let c := getYuvRange 8 rg
    ∃ out, rgbxToSharp x64 ch s T i rgba stride rg m = .ok out ∧
      (∀ x y, x < i.width → y < i.height →
        c.biasY ≤ at' out.y i.yStride x y ∧ at' out.y i.yStride x y ≤ c.biasY + c.rangeY) ∧
      (∀ x y, x < cover i.width 2 → y < cover i.height (vdiv s.sampling) →
        (c.biasY ≤ at' out.u i.uStride x y ∧ at' out.u i.uStride x y ≤ c.biasY + c.rangeUv) ∧
        (c.biasY ≤ at' out.v i.vStride x y ∧ at' out.v i.vStride x y ≤ c.biasY + c.rangeUv)) := by
  obtain ⟨a, ea, ha⟩ := c44_sharp_encode T ch s i rgba stride rg m D hT hi hsrc hb
  refine ⟨a, ea, fun x y hx hy => ?_, fun x y hx hy => ?_⟩
  · rw [frameSpec_at ha.y hx hy]
    obtain ⟨h1, h2, h3⟩ := comps_lt (ch := ch) (B := 256) (px := pixelAt rgba stride ch.count x y)
      (by omega) (bnd_take (bnd_drop hb))
    exact (nominal8 rg m h1 h2 h3).1
  · obtain ⟨h1, h2, h3⟩ := sharpColour_lt (T := T) (ch := ch) (s := s) (stride := stride) (w := i.width)
      (h := i.height) (cx := x) (cy := y) (cn := ch.count) hT hb
    rw [frameSpec_at ha.u hx hy, frameSpec_at ha.v hx hy]
    exact (nominal8 rg m h1 h2 h3).2

/-- Chroma is within 0.55 of the exact chroma of the colour behind it. -/
theorem c44_chroma_close (hT : GoodTables T) (hi : GoodPlanar i s.sampling D)
    (hsrc : GoodDst rgba.length stride i.width i.height ch.count) (hb : Bytes rgba) :
    ∃ out, rgbxToSharp x64 ch s T i rgba stride rg m = .ok out ∧
      ∀ x y, x < cover i.width 2 → y < cover i.height (vdiv s.sampling) →
        let k := fun f => sharpColour T s f rgba stride ch.count i.width i.height x y
        |(at' out.u i.uStride x y : Rat) - exactCb 8 rg m (k (red ch)) (k (green ch)) (k (blue ch))|
          ≤ 55 / 100 ∧
        |(at' out.v i.vStride x y : Rat) - exactCr 8 rg m (k (red ch)) (k (green ch)) (k (blue ch))|
          ≤ 55 / 100 := by
  obtain ⟨a, ea, ha⟩ := c44_sharp_encode T ch s i rgba stride rg m D hT hi hsrc hb
  refine ⟨a, ea, fun x y hx hy => ?_⟩
  obtain ⟨h1, h2, h3⟩ := sharpColour_lt (T := T) (ch := ch) (s := s) (stride := stride) (w := i.width)
      (h := i.height) (cx := x) (cy := y) (cn := ch.count) hT hb
  rw [frameSpec_at ha.u hx hy, frameSpec_at ha.v hx hy]
  exact (low8_encode (p := 13) (Or.inl rfl) rg m h1 h2 h3).2.2

theorem mixed_const (T : GammaTables) (a : Nat) : mixed T a a a a = mapped T a := by
  unfold mixed mapped
  simp only []
  congr 1
  omega

/-- Pixel `(x, y)` of a `w × h` image lies under chroma sample `(cx, cy)`. -/
def Covered (s : SharpSampling) (w h cx cy x y : Nat) : Prop :=
  x / 2 = cx ∧ y / vdiv s.sampling = cy ∧ x < w ∧ y < h

/-- C44, constant regions: where all pixels a chroma sample covers have the colour `(r, g, b)`, the
sample is the chroma of that colour taken through the two tables.  Partial: the last column of a
4:2:2 image of odd width is excluded, see `c44_odd_tail_bypasses_tables`. -/
theorem c44_constant_colour_partial (hT : GoodTables T) (hi : GoodPlanar i s.sampling D)
    (hsrc : GoodDst rgba.length stride i.width i.height ch.count) (hb : Bytes rgba) :
    ∃ out, rgbxToSharp x64 ch s T i rgba stride rg m = .ok out ∧
      ∀ cx cy r g b, cx < cover i.width 2 → cy < cover i.height (vdiv s.sampling) →
        ¬ (s = .yuv422 ∧ 2 * cx + 1 = i.width) →
        (∀ x y, Covered s i.width i.height cx cy x y →
          let px := pixelAt rgba stride ch.count x y
          red ch px = r ∧ green ch px = g ∧ blue ch px = b) →
        at' out.u i.uStride cx cy = low8 (cbVal 13 8 rg m (mapped T r) (mapped T g) (mapped T b)) ∧
        at' out.v i.vStride cx cy = low8 (crVal 13 8 rg m (mapped T r) (mapped T g) (mapped T b)) := by
  obtain ⟨a, ea, ha⟩ := c44_sharp_encode T ch s i rgba stride rg m D hT hi hsrc hb
  refine ⟨a, ea, fun cx cy r g b hx hy hn hc => ?_⟩
  rw [frameSpec_at ha.u hx hy, frameSpec_at ha.v hx hy]
  have hw := hi.wpos
  have hh := hi.hpos
  have key : ∀ (f : Buf → Nat) (q : Nat),
      (∀ x y, Covered s i.width i.height cx cy x y → f (pixelAt rgba stride ch.count x y) = q) →
      sharpColour T s f rgba stride ch.count i.width i.height cx cy = mapped T q := by
    intro f q hq
    unfold sharpColour
    rw [if_neg (by simpa [rawTail] using hn)]
    unfold sharpComp
    simp only []
    unfold cover at hx hy
    have hv : vdiv s.sampling = 1 ∨ vdiv s.sampling = 2 := by cases s <;> simp [SharpSampling.sampling, vdiv]
    have hv1 : s.sampling = .yuv420 ∨ s.sampling = .yuv422 := by cases s <;> simp [SharpSampling.sampling]
    unfold Covered at hq
    generalize vdiv s.sampling = d at *
    rcases hv with rfl | rfl
    · rw [hq _ _ (by omega), hq _ _ (by omega), hq _ _ (by omega), hq _ _ (by omega), mixed_const]
    · rw [hq _ _ (by omega), hq _ _ (by omega), hq _ _ (by omega), hq _ _ (by omega), mixed_const]
  simp only []
  rw [key _ r fun x y h => (hc x y h).1, key _ g fun x y h => (hc x y h).2.1,
    key _ b fun x y h => (hc x y h).2.2]
  exact ⟨rfl, rfl⟩

/-- C05, sharp encode: an error is returned exactly when the source or the image does not fit. -/
theorem c05_sharp_rejects (i : Planar) (rgba : Buf) (hi : i.U32s) (hs : U32 stride) :
    (∃ e, rgbxToSharp x64 ch s T i rgba stride rg m = .err e) ↔
      ¬ (RgbFits rgba.length stride i.width i.height ch.count ∧ PlanarFits i s.sampling) := by
  have hcn : 0 < ch.count ∧ ch.count ≤ 4 := by cases ch <;> decide
  obtain ⟨h1, h2, h3, h4, h5⟩ := id hi
  have n4 : ∀ a b c d, NoErr (mix4 a b c d) := fun _ _ _ _ => by unfold mix4; no_err
  have n2 : ∀ a b, NoErr (mix2 a b) := fun _ _ => by unfold mix2; no_err
  have ny : ∀ p t c px, NoErr (sharpLuma p t c px) := fun _ _ _ _ => by
    unfold sharpLuma; no_err [NoErr.encodeY]
  have nc : ∀ p t c px, NoErr (sharpChroma p t c px) := fun _ _ _ _ => by
    unfold sharpChroma; no_err [NoErr.encodeCb, NoErr.encodeCr]
  have nr : ∀ T r g b, NoErr (regamma T r g b) := fun _ _ _ _ => by unfold regamma; no_err
  have nq : ∀ p t c ch T a b, NoErr (sharpQuadC p t c ch T a b) := fun _ _ _ _ _ _ _ => by
    unfold sharpQuadC; no_err [NoErr.readRgb, n4, nr, nc]
  have nd : ∀ p t c ch T a b, NoErr (sharpDuoC p t c ch T a b) := fun _ _ _ _ _ _ _ => by
    unfold sharpDuoC; no_err [NoErr.readRgb, n2, nr, nc]
  have np : ∀ p t c ch a, NoErr (sharpPairY p t c ch a) := fun _ _ _ _ _ => by
    unfold sharpPairY; no_err [NoErr.readRgb, ny]
  have n420 : ∀ p t c ch T r w y u v q a b, NoErr (sharpRow420 p t c ch T r w y u v q a b) :=
    fun _ _ _ _ _ _ _ _ _ _ _ _ _ => by
      unfold sharpRow420; no_err [NoErr.readRgb, ny, nc, nq, nd, np]
  have n422 : ∀ p t c ch T w y u v q a, NoErr (sharpRow422 p t c ch T w y u v q a) :=
    fun _ _ _ _ _ _ _ _ _ _ _ => by
      unfold sharpRow422; no_err [NoErr.readRgb, ny, nc, nq, nd, np]
  have nl : ∀ w l r, NoErr (linLane w l r) := fun _ _ _ => by unfold linLane; no_err
  have nlane : ∀ p t c ch T w h l r y u v q, NoErr (sharpLane420 p t c ch T w h l r y u v q) :=
    fun _ _ _ _ _ _ _ _ _ _ _ _ _ => by
      unfold sharpLane420; no_err [nl, NoErr.onRow3, n420]
  refine rejects_iff ?_ (checkRgba_no_panic hs h4 h5 hcn.1 hcn.2)
    (c01_planar_check_no_panic i s.sampling hi) (c02_rgba_check_iff _ _ _ _ _ hs h4 h5 hcn.1 hcn.2)
    (c01_planar_check_iff i s.sampling hi)
  refine .bind (.mapFrame (fun _ _ => .ok) fun _ _ => ?_) fun _ => ?_
  · unfold linearizeBody; no_err
  cases s
  · refine .bind ?_ fun _ => .pure
    unfold sharp420; no_err [nlane, NoErr.rows3, NoErr.onRow3, n420]
  · refine .bind ?_ fun _ => .pure
    unfold sharp422; no_err [nl, NoErr.rows3, NoErr.onRow3, n422]

end

/-- Tables of a gamma of one: 16-bit linear light, one step per 257. -/
def demoTables : GammaTables := ⟨(List.range 256).map (· * 257), (List.range 65536).map (· / 257)⟩

theorem map_range_bound {n B : Nat} {f : Nat → Nat} (h : ∀ b, b < n → f b < B) :
    ∀ a ∈ (List.range n).map f, a < B := by
  intro a ha
  obtain ⟨b, h1, rfl⟩ := List.mem_map.1 ha
  exact h b (List.mem_range.1 h1)

theorem goodTables_map {a b : Nat} (ha : a = 256) (hb : b = 65536) {f g : Nat → Nat}
    (hf : ∀ k, k < a → f k < 65536) (hg : ∀ k, k < b → g k < 256) :
    GoodTables ⟨(List.range a).map f, (List.range b).map g⟩ where
  lin := by rw [List.length_map, List.length_range, ha]
  lin16 := map_range_bound hf
  gam := by rw [List.length_map, List.length_range, hb]
  gam8 := map_range_bound hg

theorem demoTables_good : GoodTables demoTables :=
  goodTables_map rfl rfl (fun k hk => by omega) (fun k hk => by omega)

/-- The hypotheses of C44 are met by a 3×3 source with padded rows and padded planes. -/
example : GoodTables demoTables ∧ GoodPlanar demoDst420 SharpSampling.yuv420.sampling 256 ∧
    GoodDst demoRgb.length 11 3 3 3 ∧ Bytes demoRgb :=
  ⟨demoTables_good, demoDst420_good,
    ⟨by unfold U32; decide, by decide, by unfold FullRows; decide, by decide⟩, by unfold Bytes; decide⟩

/-- Tables that send every colour to black. -/
def blackTables : GammaTables := ⟨List.replicate 256 0, List.replicate 65536 0⟩

theorem blackTables_good : GoodTables blackTables where
  lin := List.length_replicate ..
  lin16 a h := by rw [(List.mem_replicate.1 h).2]; omega
  gam := List.length_replicate ..
  gam8 a h := by rw [(List.mem_replicate.1 h).2]; omega

/-- A row of three pixels in 4:2:2. -/
def demoRow422 : Planar :=
  { y := [7, 7, 7], yStride := 3, u := [7, 7], uStride := 2, v := [7, 7], vStride := 2
    width := 3, height := 1 }

/-- C44 fails at the last column of a 4:2:2 image of odd width: the sample is computed from the pixel
itself, not from its value taken through the tables.  Three blue pixels, tables sending every colour
to black: the first sample is neutral, the last one is blue. -/
theorem c44_odd_tail_bypasses_tables :
    rgbxToSharp x64 .rgb .yuv422 blackTables demoRow422 [0, 0, 255, 0, 0, 255, 0, 0, 255] 9 .limited
      .bt601 = .ok { demoRow422 with y := [41, 41, 41], u := [128, 240], v := [128, 110] } ∧
    ¬ ∀ cx, cx < 2 → at' [128, 240] 2 cx 0
      = low8 (cbVal 13 8 .limited .bt601 (mapped blackTables 0) (mapped blackTables 0)
          (mapped blackTables 255)) := by
  refine ⟨by decide +kernel, ?_⟩
  intro h
  have := h 1 (by omega)
  revert this
  decide +kernel

end Verif
