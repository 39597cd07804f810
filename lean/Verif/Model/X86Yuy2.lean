import Verif.Model.X86Load
import Verif.Model.X86Decode
import Verif.Model.Yuy2
/-!
# The 8-bit packers to and unpackers from packed 4:2:2 for x86: AVX2 and SSE4.1

/repo/src/avx2/yuv_to_yuv2.rs, /repo/src/sse/yuv_to_yuy2.rs, /repo/src/avx2/yuy2_to_yuv.rs and
/repo/src/sse/yuy2_to_yuv.rs, with the choice made by `process_wide_row`
(/repo/src/yuv_to_yuy2.rs:83-142, /repo/src/yuy2_to_yuv.rs:61-104): a processor with AVX2 runs
the AVX2 code and then the SSE4.1 code on what is left.
-/
namespace Verif.X86

/-! ## Moves -/

/-- `_mm256_hadd_epi16`: per lane, the pair sums of `a` then those of `b`, wrapping. -/
def hadd16 (a b : Reg) : Reg := mk16 fun k =>
  let r := if k % 8 < 4 then a else b
  let j := k / 8 * 8 + k % 4 * 2
  s16 r j + s16 r (j + 1)

/-- Half of the sums of neighbouring bytes, halves up: `_mm_maddubs_epi16` with ones, plus one,
shifted; /repo/src/avx2/avx2_utils.rs:467-470 and /repo/src/sse/utils.rs:208-211. -/
def pairAvg (a : Reg) : Reg := srli16 1 (add16 (maddubs a (set1_8 1)) (set1_16 1))

/-- Models `_mm256_havg_epu8`, /repo/src/avx2/avx2_utils.rs:466-474, with
`avx_pairwise_avg_epi16`, /repo/src/avx2/avx2_utils.rs:340-343. -/
def avx2Havg (a b : Reg) : Reg :=
  srli16 1 (add16 (hadd16 (pairAvg a) (pairAvg b)) (set1_16 1))

/-- Models `_mm_havg_epu8`, /repo/src/sse/utils.rs:207-215. -/
def sseHavg (a b : Reg) : Reg := packus16 (pairAvg a) (pairAvg b)

/-- Models `_mm_getlow_epi8`, /repo/src/sse/utils.rs:269-274. -/
def getLow (a : Reg) : Reg := unpacklo 8 a zero

/-- Models `_mm_gethigh_epi8`, /repo/src/sse/utils.rs:277-279 (`_mm_srli_si128::<8>`). -/
def getHigh (a : Reg) : Reg := alignr 8 zero a

/-- The 16 even bytes, then the odd ones of each lane, /repo/src/sse/yuv_to_yuy2.rs:84-85 and
/repo/src/avx2/avx2_utils.rs:377-380. -/
def evenOdd : Reg := setr8 [0, 2, 4, 6, 8, 10, 12, 14, 1, 3, 5, 7, 9, 11, 13, 15,
  0, 2, 4, 6, 8, 10, 12, 14, 1, 3, 5, 7, 9, 11, 13, 15]

/-- Models `_mm256_deinterleave_x2_epi8`, /repo/src/avx2/avx2_utils.rs:376-388. -/
def avx2De2 (a b : Reg) : Reg × Reg :=
  let p0 := shuffle8 a evenOdd
  let p1 := shuffle8 b evenOdd
  let pl := permute2x128 32 p0 p1
  let ph := permute2x128 49 p0 p1
  (unpacklo 8 pl ph, unpackhi 8 pl ph)

/-- Models `_mm256_interleave_epi8`, /repo/src/avx2/avx2_utils.rs:77-83, and
`_mm256_interleave_x2_epi8`, /repo/src/avx2/avx2_utils.rs:391-398. -/
def avx2In2 (a b : Reg) : Reg × Reg :=
  (permute2x128 32 (unpacklo 1 a b) (unpackhi 1 a b),
    permute2x128 49 (unpacklo 1 a b) (unpackhi 1 a b))

/-! ## Packing -/

/-- The order of the four registers, /repo/src/avx2/yuv_to_yuv2.rs:109-114,
/repo/src/sse/yuv_to_yuy2.rs:113-118, 163-168. -/
def yuyOrder : Yuy2 → Reg → Reg → Reg → Reg → Reg × Reg × Reg × Reg
  | .yuyv, y0, y1, u, v => (y0, u, y1, v)
  | .uyvy, y0, y1, u, v => (u, y0, v, y1)
  | .yvyu, y0, y1, u, v => (y0, v, y1, u)
  | .vyuy, y0, y1, u, v => (v, y0, u, y1)

/-- Chroma positions per `n` luma positions, /repo/src/avx2/yuv_to_yuv2.rs:69-72,
/repo/src/sse/yuv_to_yuy2.rs:72-80 (and /repo/src/avx2/yuy2_to_yuv.rs:129-132,
/repo/src/sse/yuy2_to_yuv.rs:133-136, 192-195). -/
def yuyStep (s : Sampling) (n : Nat) : Nat := match s with | .yuv444 => n | _ => n / 2

/-- The chroma of 32 pairs, /repo/src/avx2/yuv_to_yuv2.rs:88-105. -/
def avx2PackChroma (s : Sampling) (c : Buf) (ux : Nat) : Outcome Reg :=
  match s with
  | .yuv444 => do
    let a ← load 32 c ux
    let b ← load 32 c (ux + 32)
    return avx2Havg a b
  | _ => load 32 c ux

/-- 64 pixels, /repo/src/avx2/yuv_to_yuv2.rs:75-127. -/
def avx2Pack (s : Sampling) (t : Yuy2) (y u v : Buf) (cx ux : Nat) (yuy : Buf) : Outcome Buf := do
  let y0 ← load 32 y cx
  let y1 ← load 32 y (cx + 32)
  let cu ← avx2PackChroma s u ux
  let cv ← avx2PackChroma s v ux
  let p := avx2De2 y0 y1
  let q := yuyOrder t p.1 p.2 cu cv
  avx2StoreRgba (cx * 2) q.1 q.2.1 q.2.2.1 q.2.2.2 yuy

/-- Models `yuv_to_yuy2_avx2_row_impl`, /repo/src/avx2/yuv_to_yuv2.rs:55-138; the position in the
packed row is twice the luma position, so `nav.x` is not kept. -/
def avx2PackRow (s : Sampling) (t : Yuy2) (width : Nat) (y u v yuy : Buf) (cx ux : Nat) :
    Outcome (Buf × Nat × Nat) :=
  vwhile 64 (yuyStep s 64) width (fun cx ux yuy => avx2Pack s t y u v cx ux yuy) cx ux yuy

/-- The chroma of 16 pairs, /repo/src/sse/yuv_to_yuy2.rs:96-105. -/
def ssePackChroma (s : Sampling) (c : Buf) (ux : Nat) : Outcome Reg :=
  match s with
  | .yuv444 => do
    let a ← load 16 c ux
    let b ← load 16 c (ux + 16)
    return sseHavg a b
  | _ => load 16 c ux

/-- 32 pixels, /repo/src/sse/yuv_to_yuy2.rs:88-127; `_mm_combinel_epi8` and `_mm_combineh_epi8`
(/repo/src/sse/utils.rs:245-258) join the low and the high halves. -/
def ssePack (s : Sampling) (t : Yuy2) (y u v : Buf) (cx ux : Nat) (yuy : Buf) : Outcome Buf := do
  let y0 ← load 16 y cx
  let y1 ← load 16 y (cx + 16)
  let cu ← ssePackChroma s u ux
  let cv ← ssePackChroma s v ux
  let a := shuffle8 y0 evenOdd
  let b := shuffle8 y1 evenOdd
  let q := yuyOrder t (unpacklo 8 a b) (unpackhi 8 a b) cu cv
  sseStoreRgba (cx * 2) q.1 q.2.1 q.2.2.1 q.2.2.2 yuy

/-- The chroma of eight pairs, /repo/src/sse/yuv_to_yuy2.rs:141-156. -/
def ssePackChromaHalf (s : Sampling) (c : Buf) (ux : Nat) : Outcome Reg :=
  match s with
  | .yuv444 => do
    let a ← load 16 c ux
    return sseHavg (getLow a) (getHigh a)
  | _ => load 8 c ux

/-- 16 pixels, /repo/src/sse/yuv_to_yuy2.rs:131-181. -/
def ssePackHalf (s : Sampling) (t : Yuy2) (y u v : Buf) (cx ux : Nat) (yuy : Buf) : Outcome Buf := do
  let y0 ← load 16 y cx
  let cu ← ssePackChromaHalf s u ux
  let cv ← ssePackChromaHalf s v ux
  let a := shuffle8 y0 evenOdd
  let q := yuyOrder t (getLow a) (getHigh a) cu cv
  let r := sseInterleaveRgba q.1 q.2.1 q.2.2.1 q.2.2.2
  let yuy ← store 16 r.1 (cx * 2) yuy
  store 16 r.2.1 (cx * 2 + 16) yuy

/-- Models `yuv_to_yuy2_sse_impl`, /repo/src/sse/yuv_to_yuy2.rs:57-192. -/
def ssePackRow (s : Sampling) (t : Yuy2) (width : Nat) (y u v yuy : Buf) (cx ux : Nat) :
    Outcome (Buf × Nat × Nat) := do
  let r ← vwhile 32 (yuyStep s 32) width (fun cx ux yuy => ssePack s t y u v cx ux yuy) cx ux yuy
  vwhile 16 (yuyStep s 16) width (fun cx ux yuy => ssePackHalf s t y u v cx ux yuy) r.2.1 r.2.2 r.1

/-- Models `process_wide_row` of the packers for `u8`, /repo/src/yuv_to_yuy2.rs:83-142, on a processor
of the given kind. -/
def packer (cpu : Cpu) (s : Sampling) (t : Yuy2) (width : Nat) : YuyPacker := fun yuy y u v =>
  match cpu with
  | .avx2 => do
    let r ← avx2PackRow s t width y u v yuy 0 0
    let q ← ssePackRow s t width y u v r.1 r.2.1 r.2.2
    return (q.1, q.2.1)
  | .sse41 => do
    let q ← ssePackRow s t width y u v yuy 0 0
    return (q.1, q.2.1)
  | .plain => .ok (yuy, 0)

/-- Models `yuv_to_yuy2_impl` for `u8`, /repo/src/yuv_to_yuy2.rs:156-507, on an x86 processor of the
given kind. -/
def yuvToYuy2On (cpu : Cpu) (s : Sampling) (t : Yuy2) (i : Planar) (d : Packed) : Outcome Buf :=
  yuvToYuy2 x64 s t (packer cpu s t i.width) i d

/-! ## Unpacking -/

/-- Which of the four deinterleaved registers hold the first luma, the second luma, Cb and Cr:
/repo/src/avx2/yuy2_to_yuv.rs:84-106, /repo/src/sse/yuy2_to_yuv.rs:83-108, 153-175. -/
def yuyPick (t : Yuy2) (p : Reg × Reg × Reg × Reg) : Reg × Reg × Reg × Reg :=
  match t with
  | .yuyv => (p.1, p.2.2.1, p.2.1, p.2.2.2)
  | .uyvy => (p.2.1, p.2.2.2, p.1, p.2.2.1)
  | .yvyu => (p.1, p.2.2.1, p.2.2.2, p.2.1)
  | .vyuy => (p.2.1, p.2.2.2, p.2.2.1, p.1)

/-- The store of one chroma plane, 32 pairs: /repo/src/avx2/yuy2_to_yuv.rs:108-122. -/
def avx2PutChroma (s : Sampling) (c : Reg) (ux : Nat) (l : Buf) : Outcome Buf :=
  match s with
  | .yuv444 => do
    let l ← store 32 (avx2In2 c c).1 ux l
    store 32 (avx2In2 c c).2 (ux + 32) l
  | _ => store 32 c ux l

/-- 64 pixels, /repo/src/avx2/yuy2_to_yuv.rs:71-133. -/
def avx2Unpack (s : Sampling) (t : Yuy2) (yuy : Buf) (cx ux : Nat) (p : Buf × Buf × Buf) :
    Outcome (Buf × Buf × Buf) := do
  let j0 ← load 32 yuy (cx * 2)
  let j1 ← load 32 yuy (cx * 2 + 32)
  let j2 ← load 32 yuy (cx * 2 + 64)
  let j3 ← load 32 yuy (cx * 2 + 96)
  let q := yuyPick t (avx2DeRgba j0 j1 j2 j3)
  let r := avx2In2 q.1 q.2.1
  let u ← avx2PutChroma s q.2.2.1 ux p.2.1
  let v ← avx2PutChroma s q.2.2.2 ux p.2.2
  let y ← store 32 r.1 cx p.1
  let y ← store 32 r.2 (cx + 32) y
  return (y, u, v)

/-- Models `yuy2_to_yuv_avx_impl`, /repo/src/avx2/yuy2_to_yuv.rs:55-143. -/
def avx2UnpackRow (s : Sampling) (t : Yuy2) (width : Nat) (yuy : Buf) (p : Buf × Buf × Buf)
    (cx ux : Nat) : Outcome ((Buf × Buf × Buf) × Nat × Nat) :=
  vwhile 64 (yuyStep s 64) width (fun cx ux p => avx2Unpack s t yuy cx ux p) cx ux p

/-- The store of one chroma plane, 16 pairs: /repo/src/sse/yuy2_to_yuv.rs:110-126. -/
def ssePutChroma (s : Sampling) (c : Reg) (ux : Nat) (l : Buf) : Outcome Buf :=
  match s with
  | .yuv444 => do
    let l ← store 16 (unpacklo 1 c c) ux l
    store 16 (unpackhi 1 c c) (ux + 16) l
  | _ => store 16 c ux l

/-- 32 pixels, /repo/src/sse/yuy2_to_yuv.rs:70-137. -/
def sseUnpack (s : Sampling) (t : Yuy2) (yuy : Buf) (cx ux : Nat) (p : Buf × Buf × Buf) :
    Outcome (Buf × Buf × Buf) := do
  let j0 ← load 16 yuy (cx * 2)
  let j1 ← load 16 yuy (cx * 2 + 16)
  let j2 ← load 16 yuy (cx * 2 + 32)
  let j3 ← load 16 yuy (cx * 2 + 48)
  let q := yuyPick t (sseDeRgba j0 j1 j2 j3)
  let u ← ssePutChroma s q.2.2.1 ux p.2.1
  let v ← ssePutChroma s q.2.2.2 ux p.2.2
  let y ← store 16 (unpacklo 1 q.1 q.2.1) cx p.1
  let y ← store 16 (unpackhi 1 q.1 q.2.1) (cx + 16) y
  return (y, u, v)

/-- The store of one chroma plane, eight pairs: /repo/src/sse/yuy2_to_yuv.rs:182-190. -/
def ssePutChromaHalf (s : Sampling) (c : Reg) (ux : Nat) (l : Buf) : Outcome Buf :=
  match s with
  | .yuv444 => store 16 (unpacklo 1 c c) ux l
  | _ => store 8 c ux l

/-- 16 pixels, /repo/src/sse/yuy2_to_yuv.rs:141-196. -/
def sseUnpackHalf (s : Sampling) (t : Yuy2) (yuy : Buf) (cx ux : Nat) (p : Buf × Buf × Buf) :
    Outcome (Buf × Buf × Buf) := do
  let j0 ← load 16 yuy (cx * 2)
  let j1 ← load 16 yuy (cx * 2 + 16)
  let q := yuyPick t (sseDeRgba j0 j1 zero zero)
  let y ← store 16 (unpacklo 1 q.1 q.2.1) cx p.1
  let u ← ssePutChromaHalf s q.2.2.1 ux p.2.1
  let v ← ssePutChromaHalf s q.2.2.2 ux p.2.2
  return (y, u, v)

/-- Models `yuy2_to_yuv_sse_impl`, /repo/src/sse/yuy2_to_yuv.rs:53-207. -/
def sseUnpackRow (s : Sampling) (t : Yuy2) (width : Nat) (yuy : Buf) (p : Buf × Buf × Buf)
    (cx ux : Nat) : Outcome ((Buf × Buf × Buf) × Nat × Nat) := do
  let r ← vwhile 32 (yuyStep s 32) width (fun cx ux p => sseUnpack s t yuy cx ux p) cx ux p
  vwhile 16 (yuyStep s 16) width (fun cx ux p => sseUnpackHalf s t yuy cx ux p) r.2.1 r.2.2 r.1

/-- Models `process_wide_row` of the unpackers, /repo/src/yuy2_to_yuv.rs:61-104, on a processor of the
given kind. -/
def unpacker (cpu : Cpu) (s : Sampling) (t : Yuy2) (width : Nat) : YuyUnpacker := fun y u v yuy =>
  match cpu with
  | .avx2 => do
    let r ← avx2UnpackRow s t width yuy (y, u, v) 0 0
    let q ← sseUnpackRow s t width yuy r.1 r.2.1 r.2.2
    return (q.1.1, q.1.2.1, q.1.2.2, q.2.1)
  | .sse41 => do
    let q ← sseUnpackRow s t width yuy (y, u, v) 0 0
    return (q.1.1, q.1.2.1, q.1.2.2, q.2.1)
  | .plain => .ok (y, u, v, 0)

/-- Models `yuy2_to_yuv_impl`, /repo/src/yuy2_to_yuv.rs:41-322, on an x86 processor of the given
kind. -/
def yuy2ToYuvOn (cpu : Cpu) (s : Sampling) (t : Yuy2) (i : Planar) (d : Packed) :
    Outcome (Buf × Buf × Buf) :=
  yuy2ToYuv x64 s t (unpacker cpu s t i.width) i d

end Verif.X86
