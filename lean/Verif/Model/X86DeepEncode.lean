import Verif.Model.X86Encode
import Verif.Model.X86Deep
import Verif.Model.DeepFromRgba
/-!
# The planar 10- to 16-bit encoders for x86: AVX2 and SSE4.1

/repo/src/avx2/rgb_to_yuv_p16.rs, rgb_to_yuv_p16_420.rs, rgb_to_yuv_p16_d16.rs,
rgb_to_yuv_p16_420_d16.rs and /repo/src/sse/rgb_to_yuv_p16.rs, rgb_to_yuv_p16_420.rs, with the choice
made by `RgbEncoder::default` and `RgbEncoder420::default` (/repo/src/rgb16_to_yuv_p16.rs).  The
precision is 15 and the kernels are started at `cx = ux = 0`.  The byte swaps are compiled with the
feature `big_endian` only; the model has the feature on.  The `HAS_DOT`
branches exist with the feature `nightly_avx512` only, which is off by default.

All six kernels have the shape of the 8-bit ones: a loop over `n` pixels while more than `n` remain,
and the last pixels through buffers on the stack (`encTail`, `encTail420`).  What differs is collected
in `DeepKernel`.
-/
namespace Verif.X86

/-! ## Instructions -/

/-- `_mm_slli_epi32::<n>`. -/
def slli32 (n : Nat) (a : Reg) : Reg := mk32 fun k => ((w32 a k * 2 ^ n : Nat) : Int)
/-- `_mm_avg_epu16`. -/
def avgU16 (a b : Reg) : Reg := mk16 fun k => (((w16 a k + w16 b k + 1) / 2 : Nat) : Int)

/-! ## Loads of 16-bit pixels -/

/-- Models `_mm256_deinterleave_rgba_epi16`, /repo/src/avx2/avx2_utils.rs:723-755. -/
def avx2DeinterleaveRgba16 (a b c d : Reg) : Reg × Reg × Reg × Reg :=
  let sh := setr8 [0, 1, 8, 9, 2, 3, 10, 11, 4, 5, 12, 13, 6, 7, 14, 15,
    0, 1, 8, 9, 2, 3, 10, 11, 4, 5, 12, 13, 6, 7, 14, 15]
  let p0 := shuffle8 a sh
  let p1 := shuffle8 b sh
  let p2 := shuffle8 c sh
  let p3 := shuffle8 d sh
  let p01l := unpacklo 4 p0 p1
  let p01h := unpackhi 4 p0 p1
  let p23l := unpacklo 4 p2 p3
  let p23h := unpackhi 4 p2 p3
  let pll := permute2x128 32 p01l p23l
  let plh := permute2x128 49 p01l p23l
  let phl := permute2x128 32 p01h p23h
  let phh := permute2x128 49 p01h p23h
  (unpacklo 4 pll plh, unpackhi 4 pll plh, unpacklo 4 phl phh, unpackhi 4 phl phh)

/-- Models `_mm256_deinterleave_rgb_epi16`, /repo/src/avx2/avx2_utils.rs:758-798. -/
def avx2DeinterleaveRgb16 (a b c : Reg) : Reg × Reg × Reg :=
  let s02Low := permute2x128 32 a c
  let s02High := permute2x128 49 a c
  let m0 := setr8 [0, 0, 255, 255, 0, 0, 0, 0, 255, 255, 0, 0, 0, 0, 255, 255,
    0, 0, 0, 0, 255, 255, 0, 0, 0, 0, 255, 255, 0, 0, 0, 0]
  let m1 := setr8 [0, 0, 0, 0, 255, 255, 0, 0, 0, 0, 255, 255, 0, 0, 0, 0,
    255, 255, 0, 0, 0, 0, 255, 255, 0, 0, 0, 0, 255, 255, 0, 0]
  let b0 := blendv (blendv s02Low s02High m0) b m1
  let g0 := blendv (blendv b s02Low m0) s02High m1
  let r0 := blendv (blendv s02High s02Low m1) b m0
  (shuffle8 b0 (setr8 [0, 1, 6, 7, 12, 13, 2, 3, 8, 9, 14, 15, 4, 5, 10, 11,
      0, 1, 6, 7, 12, 13, 2, 3, 8, 9, 14, 15, 4, 5, 10, 11]),
    shuffle8 g0 (setr8 [2, 3, 8, 9, 14, 15, 4, 5, 10, 11, 0, 1, 6, 7, 12, 13,
      2, 3, 8, 9, 14, 15, 4, 5, 10, 11, 0, 1, 6, 7, 12, 13]),
    shuffle8 r0 (setr8 [4, 5, 10, 11, 0, 1, 6, 7, 12, 13, 2, 3, 8, 9, 14, 15,
      4, 5, 10, 11, 0, 1, 6, 7, 12, 13, 2, 3, 8, 9, 14, 15]))

/-- Models `_mm256_load_deinterleave_rgb16_for_yuv`, /repo/src/avx2/avx2_utils.rs:801-842: 16 pixels at
element `p` as red, green and blue. -/
def avx2Load16 (ch : Channels) (l : Buf) (p : Nat) : Outcome (Reg × Reg × Reg) := do
  let r0 ← load16 16 l p
  let r1 ← load16 16 l (p + 16)
  let r2 ← load16 16 l (p + 32)
  match ch with
  | .rgb => return avx2DeinterleaveRgb16 r0 r1 r2
  | .bgr => do
    let v := avx2DeinterleaveRgb16 r0 r1 r2
    return (v.2.2, v.2.1, v.1)
  | .rgba => do
    let r3 ← load16 16 l (p + 48)
    let v := avx2DeinterleaveRgba16 r0 r1 r2 r3
    return (v.1, v.2.1, v.2.2.1)
  | .bgra => do
    let r3 ← load16 16 l (p + 48)
    let v := avx2DeinterleaveRgba16 r0 r1 r2 r3
    return (v.2.2.1, v.2.1, v.1)

/-- Models `_mm_deinterleave_rgba_epi16`, /repo/src/sse/utils.rs:282-303. -/
def sseDeinterleaveRgba16 (r0 r1 r2 r3 : Reg) : Reg × Reg × Reg × Reg :=
  let v0 := unpacklo 2 r0 r2
  let v1 := unpackhi 2 r0 r2
  let v2 := unpacklo 2 r1 r3
  let v3 := unpackhi 2 r1 r3
  let u0 := unpacklo 2 v0 v2
  let u1 := unpacklo 2 v1 v3
  let u2 := unpackhi 2 v0 v2
  let u3 := unpackhi 2 v1 v3
  (unpacklo 2 u0 u1, unpackhi 2 u0 u1, unpacklo 2 u2 u3, unpackhi 2 u2 u3)

/-- Models `_mm_deinterleave_rgb_epi16`, /repo/src/sse/utils.rs:306-322. -/
def sseDeinterleaveRgb16 (r0 r1 r2 : Reg) : Reg × Reg × Reg :=
  let a0 := blend16 0x24 (blend16 0x92 r0 r1) r2
  let b0 := blend16 0x24 (blend16 0x92 r2 r0) r1
  let c0 := blend16 0x24 (blend16 0x92 r1 r2) r0
  (shuffle8 a0 (setr8 [0, 1, 6, 7, 12, 13, 2, 3, 8, 9, 14, 15, 4, 5, 10, 11]),
    shuffle8 b0 (setr8 [2, 3, 8, 9, 14, 15, 4, 5, 10, 11, 0, 1, 6, 7, 12, 13]),
    shuffle8 c0 (setr8 [4, 5, 10, 11, 0, 1, 6, 7, 12, 13, 2, 3, 8, 9, 14, 15]))

/-- Models `_mm_load_deinterleave_rgb16_for_yuv`, /repo/src/sse/utils.rs:560-602: 8 pixels at element
`p` as red, green and blue. -/
def sseLoad16 (ch : Channels) (l : Buf) (p : Nat) : Outcome (Reg × Reg × Reg) := do
  let r0 ← load16 8 l p
  let r1 ← load16 8 l (p + 8)
  let r2 ← load16 8 l (p + 16)
  match ch with
  | .rgb => return sseDeinterleaveRgb16 r0 r1 r2
  | .bgr => do
    let v := sseDeinterleaveRgb16 r0 r1 r2
    return (v.2.2, v.2.1, v.1)
  | .rgba => do
    let r3 ← load16 8 l (p + 24)
    let v := sseDeinterleaveRgba16 r0 r1 r2 r3
    return (v.1, v.2.1, v.2.2.1)
  | .bgra => do
    let r3 ← load16 8 l (p + 24)
    let v := sseDeinterleaveRgba16 r0 r1 r2 r3
    return (v.2.2.1, v.2.1, v.1)

/-! ## Arithmetic -/

/-- `range.bias_y as i32 * (1 << PRECISION) + rounding_const_bias`, with
`rounding_const_bias = (1 << (PRECISION - 1)) - 1`, /repo/src/avx2/rgb_to_yuv_p16_d16.rs:179-181 and
the same lines of the other kernels. -/
def deepBias (bias : Nat) : Int := (bias : Int) * 2 ^ 15 + (2 ^ 14 - 1)

/-- Models `_mm256_to_msb_epi16`, /repo/src/avx2/avx2_utils.rs:869-880, and `_mm_to_msb_epi16`,
/repo/src/sse/utils.rs:705-715. -/
def toMsb (d : Nat) (a : Reg) : Reg :=
  if d = 10 then slli16 6 a else if d = 12 then slli16 4 a else if d = 14 then slli16 2 a else a

/-- Native samples to stored words: /repo/src/avx2/rgb_to_yuv_p16.rs:219-226 and the same lines of the
other kernels. -/
def storedReg (e : Endianness) (bp : BytesPacking) (d : Nat) (a : Reg) : Reg :=
  let a := match bp with
    | .msb => toMsb d a
    | .lsb => a
  match e with
  | .big => shuffle8 a swapMask
  | .little => a

/-- The weighted sum of words `r`, `g` (interleaved) and `b` (with zeros) in 32 bits, shifted:
/repo/src/avx2/avx2_utils.rs:1000-1008 and /repo/src/sse/utils.rs:814-825. -/
def affSum (bias : Int) (w0 w1 rg b : Reg) : Reg :=
  srli32 15 (add32v (set1_32 bias) (add32v (madd16 rg w0) (madd16 b w1)))

/-- Models `_mm256_affine_uv_dot`, /repo/src/avx2/avx2_utils.rs:958-1012, and `_mm_affine_v_dot`,
/repo/src/sse/utils.rs:805-826, on the halves the callers make of `c`
(/repo/src/avx2/rgb_to_yuv_p16.rs:207-217): one word per pixel.  `wb` is the register made of the
weight of blue. -/
def affDot (wb : Int → Reg) (bias : Int) (k : Int × Int × Int) (c : Reg × Reg × Reg) : Reg :=
  let w0 := set1_32 (interleaved k.1 k.2.1)
  packus32 (affSum bias w0 (wb k.2.2) (unpacklo 2 c.1 c.2.1) (unpacklo 2 c.2.2 zero))
    (affSum bias w0 (wb k.2.2) (unpackhi 2 c.1 c.2.1) (unpackhi 2 c.2.2 zero))

/-- Models `_mm256_havg_epi16_epi32`, /repo/src/avx2/avx2_utils.rs:56-59, and `_mm_havg_epi16_epi32`,
/repo/src/sse/utils.rs:227-230. -/
def havg (a : Reg) : Reg := srli32 1 (add32v (madd16 a (set1_16 1)) (set1_32 1))

/-- One 32-bit sum per two pixels: /repo/src/avx2/rgb_to_yuv_p16.rs:268-272 with the sums of
`_mm256_affine_transform` (/repo/src/avx2/avx2_utils.rs:897-931) or `_mm_affine_transform`
(/repo/src/sse/utils.rs:829-842). -/
def affHalf (wb : Int → Reg) (bias : Int) (k : Int × Int × Int) (c : Reg × Reg × Reg) : Reg :=
  affSum bias (set1_32 (interleaved k.1 k.2.1)) (wb k.2.2)
    (or16 (havg c.1) (slli32 16 (havg c.2.1))) (havg c.2.2)

/-- Models `avx2_pack_u32(j, j)`, /repo/src/avx2/avx2_utils.rs:48-53. -/
def avx2Pack32 (j : Reg) : Reg := permute4x64 0xD8 (packus32 j j)
/-- `_mm_packus_epi32(j, j)`, /repo/src/sse/utils.rs:829-842. -/
def ssePack32 (j : Reg) : Reg := packus32 j j

/-- The sums of one half of the register in the 16-bit kernel, in the order of
/repo/src/avx2/rgb_to_yuv_p16_d16.rs:216-236 (luma) and 261-292 (chroma without subsampling). -/
def wideSum (bias : Int) (k : Int × Int × Int) (r g b : Reg) : Reg :=
  srai32 15 (add32v (add32v (add32v (mullo32 r (set1_32 k.1)) (mullo32 g (set1_32 k.2.1)))
    (set1_32 bias)) (mullo32 b (set1_32 k.2.2)))
/-- One word per pixel in the 16-bit kernel: /repo/src/avx2/rgb_to_yuv_p16_d16.rs:199-238, 261-298, and
/repo/src/avx2/rgb_to_yuv_p16_420_d16.rs:197-257. -/
def wideDot (bias : Int) (k : Int × Int × Int) (c : Reg × Reg × Reg) : Reg :=
  packus32 (wideSum bias k (unpacklo 2 c.1 zero) (unpacklo 2 c.2.1 zero) (unpacklo 2 c.2.2 zero))
    (wideSum bias k (unpackhi 2 c.1 zero) (unpackhi 2 c.2.1 zero) (unpackhi 2 c.2.2 zero))

/-- Models `_mm256_rphadd_epi32_epi16`, /repo/src/avx2/avx2_utils.rs:61-74. -/
def rphadd (a : Reg) : Reg :=
  let v := shuffle8 a (setr8 [0, 1, 4, 5, 8, 9, 12, 13, 2, 3, 6, 7, 10, 11, 14, 15,
    0, 1, 4, 5, 8, 9, 12, 13, 2, 3, 6, 7, 10, 11, 14, 15])
  srli32 1 (add32v (add32v (unpacklo 2 v zero) (unpackhi 2 v zero)) (set1_32 1))

/-- One 32-bit sum per two pixels in the 16-bit kernel, in the order of
/repo/src/avx2/rgb_to_yuv_p16_d16.rs:323-346. -/
def widePairSum (bias : Int) (k : Int × Int × Int) (c : Reg × Reg × Reg) : Reg :=
  srai32 15 (add32v (add32v (add32v (mullo32 (rphadd c.1) (set1_32 k.1)) (set1_32 bias))
    (mullo32 (rphadd c.2.1) (set1_32 k.2.1))) (mullo32 (rphadd c.2.2) (set1_32 k.2.2)))

/-- The channels of two rows averaged: `_mm256_avg_epu16`, /repo/src/avx2/rgb_to_yuv_p16_420.rs:235-237. -/
def avgRows16 (c d : Reg × Reg × Reg) : Reg × Reg × Reg :=
  (avgU16 c.1 d.1, avgU16 c.2.1 d.2.1, avgU16 c.2.2 d.2.2)

/-- `_mm256_set1_epi16(transform.yb as i16)`, /repo/src/avx2/rgb_to_yuv_p16.rs:188 (and the other two
weights of blue, and the 4:2:0 kernels). -/
def blueWord (k : Int) : Reg := set1_16 (asI16 k)
/-- `_mm_set1_epi32(transform.yb)`, /repo/src/sse/rgb_to_yuv_p16.rs:109 (and the other two weights of
blue). -/
def blueDword (k : Int) : Reg := set1_32 k

/-! ## The kernels -/

/-- What distinguishes the kernels. -/
structure DeepKernel where
  /-- Pixels per step. -/
  n : Nat
  /-- The load. -/
  load : Channels → Buf → Nat → Outcome (Reg × Reg × Reg)
  /-- One word per pixel. -/
  dot : Int → Int × Int × Int → Reg × Reg × Reg → Reg
  /-- One word per two pixels. -/
  pairs : Int → Int × Int × Int → Reg × Reg × Reg → Reg
  /-- Two rows at once: the registers from which luma of the second row is computed. -/
  second : Reg × Reg × Reg → Reg × Reg × Reg → Reg × Reg × Reg

/-- /repo/src/avx2/rgb_to_yuv_p16.rs:154-450 and rgb_to_yuv_p16_420.rs:136-419 (there `second` is the
second row, /repo/src/avx2/rgb_to_yuv_p16_420.rs:202-211). -/
def avx2Deep : DeepKernel where
  n := 16
  load := avx2Load16
  dot := affDot blueWord
  pairs bias k c := avx2Pack32 (affHalf blueWord bias k c)
  second _ c1 := c1

/-- /repo/src/avx2/rgb_to_yuv_p16_d16.rs:154-604 and rgb_to_yuv_p16_420_d16.rs:151-556. -/
def avx2Deep16 : DeepKernel where
  n := 16
  load := avx2Load16
  dot := wideDot
  pairs bias k c := avx2Pack32 (widePairSum bias k c)
  second _ c1 := c1

/-- /repo/src/sse/rgb_to_yuv_p16.rs:76-356. -/
def sseDeep : DeepKernel where
  n := 8
  load := sseLoad16
  dot := affDot blueDword
  pairs bias k c := ssePack32 (affHalf blueDword bias k c)
  second _ c1 := c1

/-- /repo/src/sse/rgb_to_yuv_p16_420.rs:69-312.  Luma of the second row is computed with the green of
the first: `_mm_interleave_epi16(r_values1, g_values0)`, lines 129 and 243. -/
def sseDeep420 : DeepKernel where
  n := 8
  load := sseLoad16
  dot := affDot blueWord
  pairs bias k c := ssePack32 (affHalf blueWord bias k c)
  second c0 c1 := (c1.1, c0.2.1, c1.2.2)

/-- What an encoder is asked for: byte order, packing, depth, layout, range, weights. -/
structure DeepConf where
  e : Endianness
  bp : BytesPacking
  d : Nat
  ch : Channels
  rg : ChromaRange
  t : FwdCoef

/-- The body of the loop of a one-row kernel: `n` pixels at element `p`.
/repo/src/avx2/rgb_to_yuv_p16.rs:202-300, /repo/src/avx2/rgb_to_yuv_p16_d16.rs:194-373,
/repo/src/sse/rgb_to_yuv_p16.rs:124-217; the tails repeat it on the buffers. -/
def deepEnc (K : DeepKernel) (s : Sampling) (q : DeepConf) (src : Buf) (p : Nat) (o : Planes)
    (cx ux : Nat) : Outcome Planes := do
  let c ← K.load q.ch src p
  let out := storedReg q.e q.bp q.d
  let y ← store16 K.n (out (K.dot (deepBias q.rg.biasY) (kLuma q.t) c)) cx o.1
  match s with
  | .yuv444 => do
    let u ← store16 K.n (out (K.dot (deepBias q.rg.biasUv) (kCb q.t) c)) ux o.2.1
    let v ← store16 K.n (out (K.dot (deepBias q.rg.biasUv) (kCr q.t) c)) ux o.2.2
    return (y, u, v)
  | .yuv420 | .yuv422 => do
    let u ← store16 (K.n / 2) (out (K.pairs (deepBias q.rg.biasUv) (kCb q.t) c)) ux o.2.1
    let v ← store16 (K.n / 2) (out (K.pairs (deepBias q.rg.biasUv) (kCr q.t) c)) ux o.2.2
    return (y, u, v)

/-- A one-row kernel: /repo/src/avx2/rgb_to_yuv_p16.rs:154-450,
/repo/src/avx2/rgb_to_yuv_p16_d16.rs:154-604, /repo/src/sse/rgb_to_yuv_p16.rs:76-356. -/
def deepEncRow (K : DeepKernel) (s : Sampling) (q : DeepConf) (width : Nat) (rgba : Buf) (o : Planes)
    (cx ux : Nat) : Outcome (Planes × Nat × Nat) := do
  let r ← vwhile K.n (chromaStep s K.n) width
    (fun cx ux o => deepEnc K s q rgba (cx * q.ch.count) o cx ux) cx ux o
  encTail K.n s q.ch.count width (fun sb b => deepEnc K s q sb 0 b 0 0) rgba r.1 r.2.1 r.2.2

/-- The body of the loop of a two-row kernel: /repo/src/avx2/rgb_to_yuv_p16_420.rs:183-275,
/repo/src/avx2/rgb_to_yuv_p16_420_d16.rs:189-347, /repo/src/sse/rgb_to_yuv_p16_420.rs:114-192. -/
def deepEnc420 (K : DeepKernel) (q : DeepConf) (src0 src1 : Buf) (p : Nat) (o : Planes4)
    (cx ux : Nat) : Outcome Planes4 := do
  let c0 ← K.load q.ch src0 p
  let c1 ← K.load q.ch src1 p
  let out := storedReg q.e q.bp q.d
  let y0 ← store16 K.n (out (K.dot (deepBias q.rg.biasY) (kLuma q.t) c0)) cx o.1
  let y1 ← store16 K.n (out (K.dot (deepBias q.rg.biasY) (kLuma q.t) (K.second c0 c1))) cx o.2.1
  let u ← store16 (K.n / 2) (out (K.pairs (deepBias q.rg.biasUv) (kCb q.t) (avgRows16 c0 c1))) ux
    o.2.2.1
  let v ← store16 (K.n / 2) (out (K.pairs (deepBias q.rg.biasUv) (kCr q.t) (avgRows16 c0 c1))) ux
    o.2.2.2
  return (y0, y1, u, v)

/-- A two-row kernel: /repo/src/avx2/rgb_to_yuv_p16_420.rs:136-419,
/repo/src/avx2/rgb_to_yuv_p16_420_d16.rs:151-556, /repo/src/sse/rgb_to_yuv_p16_420.rs:69-312. -/
def deepEncRow420 (K : DeepKernel) (q : DeepConf) (width : Nat) (rgba0 rgba1 : Buf) (o : Planes4)
    (cx ux : Nat) : Outcome (Planes4 × Nat × Nat) := do
  let r ← vwhile K.n (K.n / 2) width
    (fun cx ux o => deepEnc420 K q rgba0 rgba1 (cx * q.ch.count) o cx ux) cx ux o
  encTail420 K.n q.ch.count width (fun s0 s1 b => deepEnc420 K q s0 s1 0 b 0 0) rgba0 rgba1 r.1
    r.2.1 r.2.2

/-! ## Dispatch -/

/-- A one-row kernel as a row encoder. -/
def deepRow (K : DeepKernel) (s : Sampling) (q : DeepConf) (width : Nat) : RowEncoder :=
  fun y u v rgba => do
    let r ← deepEncRow K s q width rgba (y, u, v) 0 0
    return (r.1.1, r.1.2.1, r.1.2.2, r.2.1)
/-- A two-row kernel as a row encoder. -/
def deepRow420 (K : DeepKernel) (q : DeepConf) (width : Nat) : RowEncoder420 :=
  fun y0 y1 u v rgba0 rgba1 => do
    let r ← deepEncRow420 K q width rgba0 rgba1 (y0, y1, u, v) 0 0
    return (r.1.1, r.1.2.1, r.1.2.2.1, r.1.2.2.2, r.2.1)

/-- Models `RgbEncoder::default`, /repo/src/rgb16_to_yuv_p16.rs:124-240: the AVX2 kernel for at most 15
bits, the other AVX2 kernel for 16, the SSE4.1 kernel for at most 15 bits. -/
def deepRowEncoder (cpu : Cpu) (s : Sampling) (q : DeepConf) (width : Nat) : RowEncoder :=
  match cpu with
  | .avx2 => if q.d ≤ 15 then deepRow avx2Deep s q width else deepRow avx2Deep16 s q width
  | .sse41 => if q.d ≤ 15 then deepRow sseDeep s q width else noEnc
  | .plain => noEnc

/-- Models `RgbEncoder420::default`, /repo/src/rgb16_to_yuv_p16.rs:290-425. -/
def deepRowEncoder420 (cpu : Cpu) (q : DeepConf) (width : Nat) : RowEncoder420 :=
  match cpu with
  | .avx2 => if q.d ≤ 15 then deepRow420 avx2Deep q width else deepRow420 avx2Deep16 q width
  | .sse41 => if q.d ≤ 15 then deepRow420 sseDeep420 q width else noEnc420
  | .plain => noEnc420

/-- The `rgb[a]{10,12,14,16}_to_i{0,2,4}{10,12,14,16}[_be]` functions on a processor of class `cpu`. -/
def rgb16ToP16On (cpu : Cpu) (e : Endianness) (bp : BytesPacking) (d : Nat) (ch : Channels)
    (s : Sampling) (i : Planar) (rgba : Buf) (stride : Nat) (rg : YuvRange) (m : Matrix) :
    Outcome Planar :=
  let q : DeepConf := ⟨e, bp, d, ch, getYuvRange d rg, computedForward 15 d rg m⟩
  rgb16ToP16 x64 e bp d ch s (deepRowEncoder cpu s q i.width) (deepRowEncoder420 cpu q i.width) i
    rgba stride rg m

end Verif.X86
