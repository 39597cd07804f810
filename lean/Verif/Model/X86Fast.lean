import Verif.Model.X86Parts
import Verif.Model.X86Yuy2
import Verif.Model.X86YuyRgb
/-!
# The 8-bit encoders of the fast mode for x86

/repo/src/avx2/rgba_to_yuv_fast.rs, rgba_to_yuv_fast420.rs, rgba_to_nv_fast.rs, rgba_to_nv_fast420.rs and
the same files of /repo/src/sse, with the choice made by `RgbEncoderFast::default`,
`RgbEncoderFast420::default` (/repo/src/rgba_to_yuv.rs:195-273, 574-663), `SemiPlanarEncoderFast::default`
and `SemiPlanar420EncoderFast::default` (/repo/src/rgba_to_nv.rs:444-500, 186-243).  The feature
`fast_mode` is on, `nightly_avx512` is off: the functions modelled are those named `…_ubs`.  The loop
bodies and the code for the last pixels compute the same; in the eight files they differ only in where
they load from and store to.
-/
namespace Verif.X86

/-! ## Moves -/

/-- `_mm256_permutevar8x32_epi32` with the indices `l`. -/
def permutevar32 (l : List Nat) (a : Reg) : Reg := fun i => a (l.getD (i / 4) 0 % 8 * 4 + i % 4)
/-- `_mm_shuffle_epi32::<imm>`. -/
def shuffle32 (imm : Nat) (a : Reg) : Reg := fun i => a (i / 16 * 16 + imm / 4 ^ (i % 16 / 4) % 4 * 4 + i % 4)
/-- `_mm256_extracti128_si256::<1>`. -/
def extractHi (a : Reg) : Reg := fun i => a (16 + i)

/-- Four registers of RGBA pixels. -/
abbrev Quad := Reg × Reg × Reg × Reg

/-- Twelve bytes of each lane as four pixels of four bytes: `rgb_shuffle`,
/repo/src/avx2/avx2_utils.rs:1257-1260 and /repo/src/sse/rgba_to_yuv_fast.rs:134. -/
def rgbShuffle : Reg := setr8 [0, 1, 2, 255, 3, 4, 5, 255, 6, 7, 8, 255, 9, 10, 11, 255,
  0, 1, 2, 255, 3, 4, 5, 255, 6, 7, 8, 255, 9, 10, 11, 255]

/-- Models `_mm256_expand_rgb_to_rgba`, /repo/src/avx2/avx2_utils.rs:1242-1287. -/
def avx2Expand (m0 m1 m2 : Reg) : Quad :=
  let blend1 := setr8 (List.replicate 8 0 ++ List.replicate 24 255)
  let blend2 := setr8 (List.replicate 20 0 ++ List.replicate 12 255)
  (shuffle8 (permutevar32 [0, 1, 2, 3, 3, 4, 5, 6] m0) rgbShuffle,
    shuffle8 (blendv (permutevar32 [6, 7, 0, 0, 0, 0, 0, 0] m0) (permutevar32 [0, 0, 0, 1, 1, 2, 3, 4] m1)
      blend1) rgbShuffle,
    shuffle8 (blendv (permutevar32 [4, 5, 6, 7, 7, 0, 0, 0] m1) (permutevar32 [0, 0, 0, 0, 0, 0, 1, 2] m2)
      blend2) rgbShuffle,
    shuffle8 (permutevar32 [2, 3, 4, 5, 5, 6, 7, 0] m2) rgbShuffle)

/-- Three-byte pixels with SSE4.1: /repo/src/sse/rgba_to_yuv_fast.rs:157-163 (`_mm_srli_si128::<4>` is
`alignr` with zero). -/
def sseExpand (j0 j1 j2 : Reg) : Quad :=
  (shuffle8 j0 rgbShuffle, shuffle8 (alignr 12 j1 j0) rgbShuffle, shuffle8 (alignr 8 j2 j1) rgbShuffle,
    shuffle8 (alignr 4 zero j2) rgbShuffle)

/-- The load of a step at byte `p`; `n` is the width of a register, 32 or 16:
/repo/src/avx2/rgba_to_yuv_fast.rs:150-169, /repo/src/sse/rgba_to_yuv_fast.rs:140-166. -/
def fastLoad (n : Nat) (expand : Reg → Reg → Reg → Quad) (ch : Channels) (l : Buf) (p : Nat) :
    Outcome Quad :=
  match ch with
  | .rgba | .bgra => do
    let v0 ← load n l p
    let v1 ← load n l (p + n)
    let v2 ← load n l (p + 2 * n)
    let v3 ← load n l (p + 3 * n)
    return (v0, v1, v2, v3)
  | .rgb | .bgr => do
    let m0 ← load n l p
    let m1 ← load n l (p + n)
    let m2 ← load n l (p + 2 * n)
    return expand m0 m1 m2

/-! ## Arithmetic -/

/-- The weights in the order of the components in memory, then 0 for alpha: `_mm256_set4r_epi8`,
/repo/src/avx2/avx2_utils.rs:1234-1240, `_mm_set4r_epi`, /repo/src/sse/utils.rs:869-874, called at
/repo/src/avx2/rgba_to_yuv_fast.rs:94-142. -/
def fastWeights (ch : Channels) (k : Int × Int × Int) : Reg := fun i =>
  asU8 ((match ch with
    | .rgb | .rgba => [k.1, k.2.1, k.2.2, 0]
    | .bgr | .bgra => [k.2.2, k.2.1, k.1, 0]).getD (i % 4) 0)

/-- `bias * (1 << 7) + (1 << 6) - 1`, /repo/src/avx2/rgba_to_yuv_fast.rs:90-92. -/
def fastBias (bias : Nat) : Int := (bias : Int) * 128 + 63

/-- One word per pixel of two registers: /repo/src/avx2/rgba_to_yuv_fast.rs:171-203. -/
def fastWords (bias : Nat) (w a b : Reg) : Reg :=
  srai16 7 (add16 (hadd16 (maddubs a w) (maddubs b w)) (set1_16 (fastBias bias)))

/-- One byte per pixel with AVX2: /repo/src/avx2/rgba_to_yuv_fast.rs:171-208 (luma), 212-247 (chroma). -/
def avx2FastBytes (ch : Channels) (bias : Nat) (k : Int × Int × Int) (c : Quad) : Reg :=
  let w := fastWeights ch k
  avx2PackU16 (permute4x64 0xD8 (fastWords bias w c.1 c.2.1))
    (permute4x64 0xD8 (fastWords bias w c.2.2.1 c.2.2.2))
/-- One byte per pixel with SSE4.1: /repo/src/sse/rgba_to_yuv_fast.rs:168-205 (luma), 209-238 (chroma). -/
def sseFastBytes (ch : Channels) (bias : Nat) (k : Int × Int × Int) (c : Quad) : Reg :=
  let w := fastWeights ch k
  packus16 (fastWords bias w c.1 c.2.1) (fastWords bias w c.2.2.1 c.2.2.2)

/-- Two rows averaged: /repo/src/avx2/rgba_to_yuv_fast420.rs:189-192. -/
def fastAvg (c d : Quad) : Quad :=
  (avg8 c.1 d.1, avg8 c.2.1 d.2.1, avg8 c.2.2.1 d.2.2.1, avg8 c.2.2.2 d.2.2.2)

/-- The neighbours of a register averaged, AVX2: the even pixels in the lower half, the odd ones in the
upper half, /repo/src/avx2/rgba_to_yuv_fast.rs:176-195, 256-264. -/
def avx2Half (v : Reg) : Reg :=
  let s := permutevar32 [0, 2, 4, 6, 1, 3, 5, 7] v
  avg8 s (extractHi s)
/-- The same with SSE4.1: /repo/src/sse/rgba_to_yuv_fast.rs:173-194, 248-256. -/
def sseHalf (v : Reg) : Reg :=
  let s := shuffle32 0xD8 v
  avg8 s (unpackhi 8 s s)

/-- The words of pairs of neighbours, AVX2: /repo/src/avx2/rgba_to_yuv_fast.rs:266-286
(`_mm256_set_m128i` puts its second argument into the lower half). -/
def avx2FastPairs (ch : Channels) (bias : Nat) (k : Int × Int × Int) (c : Quad) : Reg :=
  let f := permute4x64 0xD8 (fastWords bias (fastWeights ch k) (insertHi (avx2Half c.1) (avx2Half c.2.1))
    (insertHi (avx2Half c.2.2.1) (avx2Half c.2.2.2)))
  avx2PackU16 f f
/-- The words of pairs of neighbours, SSE4.1: /repo/src/sse/rgba_to_yuv_fast.rs:258-276. -/
def sseFastPairs (ch : Channels) (bias : Nat) (k : Int × Int × Int) (c : Quad) : Reg :=
  let f := fastWords bias (fastWeights ch k) (unpacklo 8 (sseHalf c.1) (sseHalf c.2.1))
    (unpacklo 8 (sseHalf c.2.2.1) (sseHalf c.2.2.2))
  packus16 f f

/-! ## The steps -/

/-- The fast step with AVX2: the loop body /repo/src/avx2/rgba_to_yuv_fast.rs:149-303 and those of
rgba_to_yuv_fast420.rs, rgba_to_nv_fast.rs, rgba_to_nv_fast420.rs. -/
def avx2Fast (ch : Channels) (rg : ChromaRange) (t : FwdCoef) : Part Quad where
  n := 32
  load := fastLoad 32 avx2Expand ch
  luma := avx2FastBytes ch rg.biasY (kLuma t)
  cb := avx2FastBytes ch rg.biasUv (kCb t)
  cr := avx2FastBytes ch rg.biasUv (kCr t)
  avg := fastAvg
  cbPairs := avx2FastPairs ch rg.biasUv (kCb t)
  crPairs := avx2FastPairs ch rg.biasUv (kCr t)
  inter := avx2Interleave2
  uvBuf := 32

/-- The fast step with SSE4.1: the loop body /repo/src/sse/rgba_to_yuv_fast.rs:139-284 and those of
rgba_to_yuv_fast420.rs, rgba_to_nv_fast.rs, rgba_to_nv_fast420.rs. -/
def sseFast (ch : Channels) (rg : ChromaRange) (t : FwdCoef) : Part Quad where
  n := 16
  load := fastLoad 16 sseExpand ch
  luma := sseFastBytes ch rg.biasY (kLuma t)
  cb := sseFastBytes ch rg.biasUv (kCb t)
  cr := sseFastBytes ch rg.biasUv (kCr t)
  avg := fastAvg
  cbPairs := sseFastPairs ch rg.biasUv (kCb t)
  crPairs := sseFastPairs ch rg.biasUv (kCr t)
  inter := sseInterleave2
  uvBuf := 16

/-- `rgbx_to_yuv8`, /repo/src/rgba_to_yuv.rs:1030-1090, in the fast mode, with the row encoders
`RgbEncoderFast::default` (:195-273) and `RgbEncoderFast420::default` (:574-663) choose on a processor of
class `cpu`. -/
def rgbxToYuvFastOn (cpu : Cpu) (ch : Channels) (s : Sampling) (i : Planar) (rgba : Buf) (stride : Nat)
    (rg : YuvRange) (m : Matrix) : Outcome Planar :=
  let c := getYuvRange 8 rg
  let t := searchForward 7 8 rg m
  match cpu with
  | .avx2 => (avx2Fast ch c t).toYuv .fast ch s i rgba stride rg m
  | .sse41 => (sseFast ch c t).toYuv .fast ch s i rgba stride rg m
  | .plain => rgbxToYuv x64 .fast ch s noEnc noEnc420 i rgba stride rg m

/-- `rgbx_to_nv`, /repo/src/rgba_to_nv.rs:920-984, in the fast mode, with the row encoders
`SemiPlanarEncoderFast::default` (:444-500) and `SemiPlanar420EncoderFast::default` (:186-243) choose on a
processor of class `cpu`. -/
def rgbxToNvFastOn (cpu : Cpu) (od : NVOrder) (ch : Channels) (s : Sampling) (i : BiPlanar) (rgba : Buf)
    (stride : Nat) (rg : YuvRange) (m : Matrix) : Outcome BiPlanar :=
  let c := getYuvRange 8 rg
  let t := searchForward 7 8 rg m
  match cpu with
  | .avx2 => (avx2Fast ch c t).toNv .fast od ch s i rgba stride rg m
  | .sse41 => (sseFast ch c t).toNv .fast od ch s i rgba stride rg m
  | .plain => rgbxToNv x64 .fast od ch s noEncNV noEncNV420 i rgba stride rg m

end Verif.X86
