import Verif.Model.X86Rdp
import Verif.Model.DeepToRgba
/-!
# The planar 10- to 16-bit decoders for x86: AVX2 and SSE4.1

/repo/src/sse/yuv_p16_to_rgb16.rs, /repo/src/avx2/yuv_p16_to_rgb16.rs and
/repo/src/avx2/yuv_p16_to_rgb_d16.rs, with the choice made by
`WideRowAnyHandler::default` (/repo/src/yuv_p16_rgba_p16.rs:97-208).  The
byte swaps of the kernels are compiled with the feature `big_endian` only, as are
the functions that take big-endian images; the model has the feature on.  The
precision is 13 and the kernels are started at `cx = ux = 0`
(/repo/src/yuv_p16_rgba_p16.rs:237-254, 281).
-/
namespace Verif.X86

/-! ## 16-bit elements -/

/-- A load of `n` elements at element `p` of a `u16` slice; the elements above are zero
(`_mm_loadu_si128`, `_mm256_loadu_si256`, `_mm_loadu_si64`). -/
def load16 (n : Nat) (l : Buf) (p : Nat) : Outcome Reg :=
  if p + n ≤ l.length then .ok (mk16 fun k => if k < n then (l.getD (p + k) 0 : Int) else 0)
  else .panic
/-- `_mm_subs_epu16`: unsigned saturating. -/
def subsU16 (a b : Reg) : Reg := mk16 fun k => ((w16 a k - w16 b k : Nat) : Int)
/-- `_mm_min_epu16`. -/
def minU16 (a b : Reg) : Reg := mk16 fun k => ((min (w16 a k) (w16 b k) : Nat) : Int)
/-- `_mm_or_si128`, on 16-bit elements. -/
def or16 (a b : Reg) : Reg := mk16 fun k => ((w16 a k ||| w16 b k : Nat) : Int)
/-- `_mm_mullo_epi32`. -/
def mullo32 (a b : Reg) : Reg := mk32 fun k => s32 a k * s32 b k
/-- `_mm_blend_epi16::<imm>`. -/
def blend16 (imm : Nat) (a b : Reg) : Reg := fun i => if imm / 2 ^ (i / 2) % 2 = 1 then b i else a i

/-- The mask `big_endian_shuffle_flag`, /repo/src/avx2/yuv_p16_to_rgb16.rs:125-128 (its first half is
that of the 128-bit kernels, /repo/src/sse/yuv_p16_to_rgb16.rs:123-125). -/
def swapMask : Reg := setr8 [1, 0, 3, 2, 5, 4, 7, 6, 9, 8, 11, 10, 13, 12, 15, 14,
  1, 0, 3, 2, 5, 4, 7, 6, 9, 8, 11, 10, 13, 12, 15, 14]

/-- Models `_mm_from_msb_epi16`, /repo/src/sse/utils.rs:718-728, `_mm256_from_msb_epi16`,
/repo/src/avx2/avx2_utils.rs:856-866, and `_avx_from_msb_epi16`, lines 1290-1300. -/
def fromMsb (d : Nat) (a : Reg) : Reg :=
  if d = 10 then srli16 6 a else if d = 12 then srli16 4 a else if d = 14 then srli16 2 a else a

/-- Loaded words to native samples: /repo/src/sse/yuv_p16_to_rgb16.rs:131-137 and the same lines of
the other kernels. -/
def nativeReg (e : Endianness) (bp : BytesPacking) (d : Nat) (a : Reg) : Reg :=
  let a := match e with
    | .big => shuffle8 a swapMask
    | .little => a
  match bp with
  | .msb => fromMsb d a
  | .lsb => a

/-- Models `_mm_expand_bp_by2`, /repo/src/sse/utils.rs:859-867, and `_mm256_expand_bp_by2`,
/repo/src/avx2/avx2_utils.rs:1189-1197. -/
def expandBp (d : Nat) (v : Reg) : Reg :=
  if d = 10 then or16 (slli16 2 v) (srli16 8 v)
  else if d = 12 then or16 (slli16 2 v) (srli16 10 v)
  else v

/-! ## Interleaving stores of 16-bit components -/

/-- Models `_mm_interleave_rgb_epi16`, /repo/src/sse/utils.rs:332-348. -/
def sseInterleaveRgb16 (a b c : Reg) : Reg × Reg × Reg :=
  let a0 := shuffle8 a (setr8 [0, 1, 6, 7, 12, 13, 2, 3, 8, 9, 14, 15, 4, 5, 10, 11])
  let b0 := shuffle8 b (setr8 [10, 11, 0, 1, 6, 7, 12, 13, 2, 3, 8, 9, 14, 15, 4, 5])
  let c0 := shuffle8 c (setr8 [4, 5, 10, 11, 0, 1, 6, 7, 12, 13, 2, 3, 8, 9, 14, 15])
  (blend16 0x24 (blend16 0x92 a0 b0) c0, blend16 0x24 (blend16 0x92 c0 a0) b0,
    blend16 0x24 (blend16 0x92 b0 c0) a0)

/-- Models `_mm_interleave_rgba_epi16`, /repo/src/sse/utils.rs:351-371. -/
def sseInterleaveRgba16 (a b c d : Reg) : Reg × Reg × Reg × Reg :=
  let u0 := unpacklo 2 a c
  let u1 := unpackhi 2 a c
  let u2 := unpacklo 2 b d
  let u3 := unpackhi 2 b d
  (unpacklo 2 u0 u2, unpackhi 2 u0 u2, unpacklo 2 u1 u3, unpackhi 2 u1 u3)

/-- The three stores of /repo/src/sse/utils.rs:616-619. -/
def sseStoreRgb16 (p : Nat) (r g b : Reg) (row : Buf) : Outcome Buf := do
  let v := sseInterleaveRgb16 r g b
  let row ← store16 8 v.1 p row
  let row ← store16 8 v.2.1 (p + 8) row
  store16 8 v.2.2 (p + 16) row

/-- The four stores of /repo/src/sse/utils.rs:628-632. -/
def sseStoreRgba16 (p : Nat) (r g b a : Reg) (row : Buf) : Outcome Buf := do
  let v := sseInterleaveRgba16 r g b a
  let row ← store16 8 v.1 p row
  let row ← store16 8 v.2.1 (p + 8) row
  let row ← store16 8 v.2.2.1 (p + 16) row
  store16 8 v.2.2.2 (p + 24) row

/-- Models `_mm_store_interleave_rgb16_for_yuv`, /repo/src/sse/utils.rs:605-642. -/
def sseStore16 (ch : Channels) (p : Nat) (r g b a : Reg) (row : Buf) : Outcome Buf :=
  match ch with
  | .rgb => sseStoreRgb16 p r g b row
  | .bgr => sseStoreRgb16 p b g r row
  | .rgba => sseStoreRgba16 p r g b a row
  | .bgra => sseStoreRgba16 p b g r a row

/-- Models `_mm256_interleave_rgb_epi16`, /repo/src/avx2/avx2_utils.rs:425-463. -/
def avx2InterleaveRgb16 (a b c : Reg) : Reg × Reg × Reg :=
  let b0 := shuffle8 a (setr8 [0, 1, 6, 7, 12, 13, 2, 3, 8, 9, 14, 15, 4, 5, 10, 11,
    0, 1, 6, 7, 12, 13, 2, 3, 8, 9, 14, 15, 4, 5, 10, 11])
  let g0 := shuffle8 b (setr8 [10, 11, 0, 1, 6, 7, 12, 13, 2, 3, 8, 9, 14, 15, 4, 5,
    10, 11, 0, 1, 6, 7, 12, 13, 2, 3, 8, 9, 14, 15, 4, 5])
  let r0 := shuffle8 c (setr8 [4, 5, 10, 11, 0, 1, 6, 7, 12, 13, 2, 3, 8, 9, 14, 15,
    4, 5, 10, 11, 0, 1, 6, 7, 12, 13, 2, 3, 8, 9, 14, 15])
  let m0 := setr8 [0, 0, 255, 255, 0, 0, 0, 0, 255, 255, 0, 0, 0, 0, 255, 255,
    0, 0, 0, 0, 255, 255, 0, 0, 0, 0, 255, 255, 0, 0, 0, 0]
  let m1 := setr8 [0, 0, 0, 0, 255, 255, 0, 0, 0, 0, 255, 255, 0, 0, 0, 0,
    255, 255, 0, 0, 0, 0, 255, 255, 0, 0, 0, 0, 255, 255, 0, 0]
  let p0 := blendv (blendv b0 g0 m0) r0 m1
  let p1 := blendv (blendv g0 r0 m0) b0 m1
  let p2 := blendv (blendv r0 b0 m0) g0 m1
  (permute2x128 32 p0 p2, p1, permute2x128 49 p0 p2)

/-- Models `_mm256_interleave_rgba_epi16`, /repo/src/avx2/avx2_utils.rs:401-422. -/
def avx2InterleaveRgba16 (a b c d : Reg) : Reg × Reg × Reg × Reg :=
  let bg0 := unpacklo 2 a b
  let bg1 := unpackhi 2 a b
  let ra0 := unpacklo 2 c d
  let ra1 := unpackhi 2 c d
  let q0 := unpacklo 4 bg0 ra0
  let q1 := unpackhi 4 bg0 ra0
  let q2 := unpacklo 4 bg1 ra1
  let q3 := unpackhi 4 bg1 ra1
  (permute2x128 32 q0 q1, permute2x128 32 q2 q3, permute2x128 49 q0 q1, permute2x128 49 q2 q3)

/-- The three stores of /repo/src/avx2/avx2_utils.rs:635-638. -/
def avx2StoreRgb16 (p : Nat) (r g b : Reg) (row : Buf) : Outcome Buf := do
  let v := avx2InterleaveRgb16 r g b
  let row ← store16 16 v.1 p row
  let row ← store16 16 v.2.1 (p + 16) row
  store16 16 v.2.2 (p + 32) row

/-- The four stores of /repo/src/avx2/avx2_utils.rs:647-651. -/
def avx2StoreRgba16 (p : Nat) (r g b a : Reg) (row : Buf) : Outcome Buf := do
  let v := avx2InterleaveRgba16 r g b a
  let row ← store16 16 v.1 p row
  let row ← store16 16 v.2.1 (p + 16) row
  let row ← store16 16 v.2.2.1 (p + 32) row
  store16 16 v.2.2.2 (p + 48) row

/-- Models `_mm256_store_interleave_rgb16_for_yuv`, /repo/src/avx2/avx2_utils.rs:624-661. -/
def avx2Store16 (ch : Channels) (p : Nat) (r g b a : Reg) (row : Buf) : Outcome Buf :=
  match ch with
  | .rgb => avx2StoreRgb16 p r g b row
  | .bgr => avx2StoreRgb16 p b g r row
  | .rgba => avx2StoreRgba16 p r g b a row
  | .bgra => avx2StoreRgba16 p b g r a row

/-! ## Chroma -/

/-- Chroma words of 8 pixels: /repo/src/sse/yuv_p16_to_rgb16.rs:143-181. -/
def sseDeepChroma (s : Sampling) (e : Endianness) (bp : BytesPacking) (d : Nat) (c : Buf) (ux : Nat) :
    Outcome Reg :=
  match s with
  | .yuv420 | .yuv422 => do
    let r ← load16 4 c ux
    return unpacklo 2 (nativeReg e bp d r) (nativeReg e bp d r)
  | .yuv444 => do
    let r ← load16 8 c ux
    return nativeReg e bp d r

/-- Chroma words of 16 pixels: /repo/src/avx2/yuv_p16_to_rgb16.rs:321-372 and
/repo/src/avx2/yuv_p16_to_rgb_d16.rs:158-208. -/
def avx2DeepChroma (s : Sampling) (e : Endianness) (bp : BytesPacking) (d : Nat) (c : Buf) (ux : Nat) :
    Outcome Reg :=
  match s with
  | .yuv420 | .yuv422 => do
    let r ← load16 8 c ux
    let r := nativeReg e bp d r
    return insertHi (unpacklo 2 r r) (unpackhi 2 r r)
  | .yuv444 => do
    let r ← load16 16 c ux
    return nativeReg e bp d r

/-- Models `_mm256_interleave_epi16`, /repo/src/avx2/avx2_utils.rs:846-853. -/
def avx2Interleave16 (x y : Reg) : Reg × Reg :=
  (permute2x128 32 (unpacklo 2 x y) (unpackhi 2 x y),
    permute2x128 49 (unpacklo 2 x y) (unpackhi 2 x y))

/-- Chroma words of 32 pixels, in two registers: /repo/src/avx2/yuv_p16_to_rgb16.rs:164-226. -/
def avx2DeepChroma2 (s : Sampling) (e : Endianness) (bp : BytesPacking) (d : Nat) (c : Buf)
    (ux : Nat) : Outcome (Reg × Reg) :=
  match s with
  | .yuv420 | .yuv422 => do
    let r ← load16 16 c ux
    let r := nativeReg e bp d r
    return avx2Interleave16 r r
  | .yuv444 => do
    let r0 ← load16 16 c ux
    let r1 ← load16 16 c (ux + 16)
    return (nativeReg e bp d r0, nativeReg e bp d r1)

/-! ## Arithmetic -/

/-- Red, green and blue words from native luma and chroma words:
/repo/src/sse/yuv_p16_to_rgb16.rs:139, 161-200 and the same lines of
/repo/src/avx2/yuv_p16_to_rgb16.rs. -/
def deepRgb (d : Nat) (rg : ChromaRange) (t : InvCoef) (y u v : Reg) : Reg × Reg × Reg :=
  let yv := mulhrs16 (expandBp d (subsU16 y (set1_16 rg.biasY))) (set1_16 (asI16 t.y))
  let u := slli16 2 (sub16 u (set1_16 rg.biasUv))
  let v := slli16 2 (sub16 v (set1_16 rg.biasUv))
  let lim := fun x => minU16 (max16 x zero) (set1_16 (2 ^ d - 1))
  (lim (add16 yv (mulhrs16 v (set1_16 (asI16 t.cr)))),
    lim (add16 (add16 yv (mulhrs16 v (set1_16 (-(asI16 t.g1))))) (mulhrs16 u (set1_16 (-(asI16 t.g2))))),
    lim (add16 yv (mulhrs16 u (set1_16 (asI16 t.cb)))))

/-- Luma words times the luma coefficient, plus the rounding constant, for one half of the lanes:
/repo/src/avx2/yuv_p16_to_rgb_d16.rs:217-229 (`y` already unpacked with zeros). -/
def wideLuma (d : Nat) (t : InvCoef) (y : Reg) : Reg :=
  let base := set1_32 (2 ^ 12 - 1)
  if d = 16 then add32v base (mullo32 y (set1_32 t.y))
  else add32v base (madd16 y (set1_16 (asI16 t.y)))

/-- Red, green and blue words from native luma and chroma words with 32-bit sums:
/repo/src/avx2/yuv_p16_to_rgb_d16.rs:106-121, 154, 210-271. -/
def wideRgb (d : Nat) (rg : ChromaRange) (t : InvCoef) (y u v : Reg) : Reg × Reg × Reg :=
  let y := subsU16 y (set1_16 rg.biasY)
  let u := permute4x64 0xd8 (sub16 u (set1_16 rg.biasUv))
  let v := permute4x64 0xd8 (sub16 v (set1_16 rg.biasUv))
  let uv := avx2Interleave16 u v
  let y0 := wideLuma d t (unpacklo 2 y zero)
  let y1 := wideLuma d t (unpackhi 2 y zero)
  let comp := fun w : Reg =>
    let x := packus32 (srai32 13 (add32v y0 (madd16 uv.1 w))) (srai32 13 (add32v y1 (madd16 uv.2 w)))
    if d = 16 then x else minU16 x (set1_16 (2 ^ d - 1))
  (comp (set1_32 (interleaved 0 t.cr)), comp (set1_32 (interleaved (-t.g2) (-t.g1))),
    comp (set1_32 (interleaved t.cb 0)))

/-! ## Rows -/

/-- The 8-pixel body of `sse_yuv_p16_to_rgba_row_impl`, /repo/src/sse/yuv_p16_to_rgb16.rs:127-209. -/
def sseDeepBody (s : Sampling) (e : Endianness) (bp : BytesPacking) (d : Nat) (ch : Channels)
    (rg : ChromaRange) (t : InvCoef) (y u v : Buf) (cx ux p : Nat) (row : Buf) : Outcome Buf := do
  let yv ← load16 8 y cx
  let uv ← sseDeepChroma s e bp d u ux
  let vv ← sseDeepChroma s e bp d v ux
  let c := deepRgb d rg t (nativeReg e bp d yv) uv vv
  sseStore16 ch p c.1 c.2.1 c.2.2 (set1_16 (2 ^ d - 1)) row

/-- The last pixels of a row, at most `N`, through zeroed buffers of `N` and `4 N` elements on the
stack: /repo/src/sse/yuv_p16_to_rgb16.rs:222-345 (`N` = 8) and
/repo/src/avx2/yuv_p16_to_rgb16.rs:408-534, /repo/src/avx2/yuv_p16_to_rgb_d16.rs:291-448 (`N` = 16);
`f` is the `N`-pixel body.  The AVX2 kernels read the chroma of 4:4:4 images at `cx` (`atCx`). -/
def deepTail (N : Nat) (atCx : Bool) (s : Sampling) (ch : Channels) (width : Nat)
    (f : Buf → Buf → Buf → Buf → Outcome Buf) (y u v : Buf) (row : Buf) (cx ux : Nat) :
    Outcome (Buf × Nat × Nat) :=
  if cx < width then do
    let diff := width - cx
    if N < diff then .panic
    let yb ← copyIn y cx diff (List.replicate N 0)
    let ud := chromaStep s diff
    let up := if s = .yuv444 ∧ atCx then cx else ux
    let ub ← copyIn u up ud (List.replicate N 0)
    let vb ← copyIn v up ud (List.replicate N 0)
    let db ← f yb ub vb (List.replicate (N * 4) 0)
    let row ← copyOut db (diff * ch.count) row (cx * ch.count)
    return (row, cx + diff, ux + ud)
  else .ok (row, cx, ux)

/-- Models `sse_yuv_p16_to_rgba_row_impl`, /repo/src/sse/yuv_p16_to_rgb16.rs:73-348. -/
def sseDeepRow (s : Sampling) (e : Endianness) (bp : BytesPacking) (d : Nat) (ch : Channels)
    (rg : ChromaRange) (t : InvCoef) (width : Nat) (y u v row : Buf) (cx ux : Nat) :
    Outcome (Buf × Nat × Nat) := do
  let r ← vwhile 8 (chromaStep s 8) width
    (fun cx ux row => sseDeepBody s e bp d ch rg t y u v cx ux (cx * ch.count) row) cx ux row
  deepTail 8 false s ch width (fun y u v r => sseDeepBody s e bp d ch rg t y u v 0 0 0 r) y u v r.1
    r.2.1 r.2.2

/-- The 16-pixel body of `avx_yuv_p16_to_rgba_row_impl`, /repo/src/avx2/yuv_p16_to_rgb16.rs:303-396. -/
def avx2DeepBody (s : Sampling) (e : Endianness) (bp : BytesPacking) (d : Nat) (ch : Channels)
    (rg : ChromaRange) (t : InvCoef) (y u v : Buf) (cx ux p : Nat) (row : Buf) : Outcome Buf := do
  let yv ← load16 16 y cx
  let uv ← avx2DeepChroma s e bp d u ux
  let vv ← avx2DeepChroma s e bp d v ux
  let c := deepRgb d rg t (nativeReg e bp d yv) uv vv
  avx2Store16 ch p c.1 c.2.1 c.2.2 (set1_16 (2 ^ d - 1)) row

/-- The 32-pixel body of `avx_yuv_p16_to_rgba_row_impl`, /repo/src/avx2/yuv_p16_to_rgb16.rs:136-288. -/
def avx2DeepBody2 (s : Sampling) (e : Endianness) (bp : BytesPacking) (d : Nat) (ch : Channels)
    (rg : ChromaRange) (t : InvCoef) (y u v : Buf) (cx ux p : Nat) (row : Buf) : Outcome Buf := do
  let y0 ← load16 16 y cx
  let y1 ← load16 16 y (cx + 16)
  let uv ← avx2DeepChroma2 s e bp d u ux
  let vv ← avx2DeepChroma2 s e bp d v ux
  let c0 := deepRgb d rg t (nativeReg e bp d y0) uv.1 vv.1
  let c1 := deepRgb d rg t (nativeReg e bp d y1) uv.2 vv.2
  let row ← avx2Store16 ch p c0.1 c0.2.1 c0.2.2 (set1_16 (2 ^ d - 1)) row
  avx2Store16 ch (p + 16 * ch.count) c1.1 c1.2.1 c1.2.2 (set1_16 (2 ^ d - 1)) row

/-- Models `avx_yuv_p16_to_rgba_row_impl`, /repo/src/avx2/yuv_p16_to_rgb16.rs:76-537. -/
def avx2DeepRow (s : Sampling) (e : Endianness) (bp : BytesPacking) (d : Nat) (ch : Channels)
    (rg : ChromaRange) (t : InvCoef) (width : Nat) (y u v row : Buf) (cx ux : Nat) :
    Outcome (Buf × Nat × Nat) := do
  let r ← vwhile 32 (chromaStep s 32) width
    (fun cx ux row => avx2DeepBody2 s e bp d ch rg t y u v cx ux (cx * ch.count) row) cx ux row
  let r ← vwhile 16 (chromaStep s 16) width
    (fun cx ux row => avx2DeepBody s e bp d ch rg t y u v cx ux (cx * ch.count) row) r.2.1 r.2.2 r.1
  deepTail 16 true s ch width (fun y u v r => avx2DeepBody s e bp d ch rg t y u v 0 0 0 r) y u v r.1
    r.2.1 r.2.2

/-- The 16-pixel body of `avx_yuv_p16_to_rgba_row_d16_impl`,
/repo/src/avx2/yuv_p16_to_rgb_d16.rs:137-279. -/
def avx2WideBody (s : Sampling) (e : Endianness) (bp : BytesPacking) (d : Nat) (ch : Channels)
    (rg : ChromaRange) (t : InvCoef) (y u v : Buf) (cx ux p : Nat) (row : Buf) : Outcome Buf := do
  let yv ← load16 16 y cx
  let uv ← avx2DeepChroma s e bp d u ux
  let vv ← avx2DeepChroma s e bp d v ux
  let c := wideRgb d rg t (nativeReg e bp d yv) uv vv
  avx2Store16 ch p c.1 c.2.1 c.2.2 (set1_16 (2 ^ d - 1)) row

/-- Models `avx_yuv_p16_to_rgba_row_d16_impl`, /repo/src/avx2/yuv_p16_to_rgb_d16.rs:76-451. -/
def avx2WideRow (s : Sampling) (e : Endianness) (bp : BytesPacking) (d : Nat) (ch : Channels)
    (rg : ChromaRange) (t : InvCoef) (width : Nat) (y u v row : Buf) (cx ux : Nat) :
    Outcome (Buf × Nat × Nat) := do
  let r ← vwhile 16 (chromaStep s 16) width
    (fun cx ux row => avx2WideBody s e bp d ch rg t y u v cx ux (cx * ch.count) row) cx ux row
  deepTail 16 true s ch width (fun y u v r => avx2WideBody s e bp d ch rg t y u v 0 0 0 r) y u v r.1
    r.2.1 r.2.2

/-! ## Dispatch -/

/-- Models `WideRowAnyHandler::default` and `handle_row`, /repo/src/yuv_p16_rgba_p16.rs:97-256 (the
`nightly_avx512` feature is off by default). -/
def deepHandler (cpu : Cpu) (s : Sampling) (e : Endianness) (bp : BytesPacking) (d : Nat)
    (ch : Channels) (rg : ChromaRange) (t : InvCoef) (width : Nat) : RowHandler := fun y u v row =>
  match cpu with
  | .avx2 =>
    if d = 10 then done (avx2DeepRow s e bp d ch rg t width y u v row 0 0)
    else done (avx2WideRow s e bp d ch rg t width y u v row 0 0)
  | .sse41 =>
    if d ≤ 12 then done (sseDeepRow s e bp d ch rg t width y u v row 0 0)
    else noSimd y u v row
  | .plain => noSimd y u v row

/-- `yuv_p16_to_image_p16_ant` (`Verif.p16ToRgb16`) on a processor. -/
def p16ToRgb16On (cpu : Cpu) (e : Endianness) (bp : BytesPacking) (d : Nat) (ch : Channels)
    (s : Sampling) (i : Planar) (rgba : Buf) (stride : Nat) (rg : YuvRange) (m : Matrix) :
    Outcome Buf :=
  p16ToRgb16 x64 e bp d ch s
    (deepHandler cpu s e bp d ch (getYuvRange d rg) (searchInverse 13 d rg m) i.width) i rgba stride
    rg m

end Verif.X86
