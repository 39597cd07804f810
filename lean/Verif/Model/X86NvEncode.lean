import Verif.Model.X86Encode
/-!
# The 8-bit semi-planar encoders for x86: AVX2 and SSE4.1

/repo/src/avx2/rgb_to_nv.rs, rgb_to_nv420.rs, /repo/src/sse/rgb_to_nv.rs, rgb_to_nv420.rs, with the
choice made by `SemiPlanarEncoder::default` and `SemiPlanar420Encoder::default`
(/repo/src/rgba_to_nv.rs).  The precision is 13 (the balanced mode).  The arithmetic is that of the
planar encoders, `Model/X86Encode`.
-/
namespace Verif.X86

/-- The luma plane and the interleaved chroma plane. -/
abbrev Planes2 := Buf × Buf
/-- Luma of two rows and the interleaved chroma. -/
abbrev Planes3 := Buf × Buf × Buf

/-- Models `_mm256_interleave_x2_epi8`, /repo/src/avx2/avx2_utils.rs:391-398. -/
def avx2Interleave2 (a b : Reg) : Reg × Reg :=
  let l := unpacklo 1 a b
  let h := unpackhi 1 a b
  (permute2x128 32 l h, permute2x128 49 l h)

/-- `_mm_unpacklo_epi8`, `_mm_unpackhi_epi8`: the two registers of interleaved bytes,
/repo/src/sse/rgb_to_nv.rs:172-179. -/
def sseInterleave2 (a b : Reg) : Reg × Reg := (unpacklo 1 a b, unpackhi 1 a b)

/-- Cb and Cr in memory order: `match order`, /repo/src/avx2/rgb_to_nv.rs:125-128. -/
def inOrder (o : NVOrder) (cb cr : Reg) : Reg × Reg :=
  match o with
  | .uv => (cb, cr)
  | .vu => (cr, cb)

/-- Models `encode_32_part`, /repo/src/avx2/rgb_to_nv.rs:66-170: 32 pixels at byte `p`. -/
def avx2NvEnc (o : NVOrder) (s : Sampling) (ch : Channels) (rg : ChromaRange) (t : FwdCoef)
    (src : Buf) (p : Nat) (d : Planes2) (cx ux : Nat) : Outcome Planes2 := do
  let c ← avx2Load ch src p
  let y ← store 32 (dotBytes (biasLuma rg) (kLuma t) c) cx d.1
  match s with
  | .yuv444 => do
    let q := inOrder o (dotBytes (biasChroma rg) (kCb t) c) (dotBytes (biasChroma rg) (kCr t) c)
    let uv ← store 32 (avx2Interleave2 q.1 q.2).1 ux d.2
    let uv ← store 32 (avx2Interleave2 q.1 q.2).2 (ux + 32) uv
    return (y, uv)
  | .yuv420 | .yuv422 => do
    let q := inOrder o (avx2Pairs (biasChroma rg) (kCb t) c) (avx2Pairs (biasChroma rg) (kCr t) c)
    let uv ← store 32 (avx2Interleave2 q.1 q.2).1 ux d.2
    return (y, uv)

/-- Models `encode_16_part`, /repo/src/sse/rgb_to_nv.rs:63-214: 16 pixels at byte `p`. -/
def sseNvEnc (o : NVOrder) (s : Sampling) (ch : Channels) (rg : ChromaRange) (t : FwdCoef)
    (src : Buf) (p : Nat) (d : Planes2) (cx ux : Nat) : Outcome Planes2 := do
  let c ← sseLoad ch src p
  let y ← store 16 (dotBytes (biasLuma rg) (kLuma t) c) cx d.1
  match s with
  | .yuv444 => do
    let q := inOrder o (dotBytes (biasChroma rg) (kCb t) c) (dotBytes (biasChroma rg) (kCr t) c)
    let uv ← store 16 (sseInterleave2 q.1 q.2).1 ux d.2
    let uv ← store 16 (sseInterleave2 q.1 q.2).2 (ux + 16) uv
    return (y, uv)
  | .yuv420 | .yuv422 => do
    let q := inOrder o (ssePairs (biasChroma rg) (kCb t) c) (ssePairs (biasChroma rg) (kCr t) c)
    let uv ← store 16 (sseInterleave2 q.1 q.2).1 ux d.2
    return (y, uv)

/-- Models `encode_32_part`, /repo/src/avx2/rgb_to_nv420.rs:66-172: 32 pixels of two rows. -/
def avx2NvEnc420 (o : NVOrder) (ch : Channels) (rg : ChromaRange) (t : FwdCoef)
    (src0 src1 : Buf) (p : Nat) (d : Planes3) (cx ux : Nat) : Outcome Planes3 := do
  let c0 ← avx2Load ch src0 p
  let c1 ← avx2Load ch src1 p
  let y0 ← store 32 (dotBytes (biasLuma rg) (kLuma t) c0) cx d.1
  let y1 ← store 32 (dotBytes (biasLuma rg) (kLuma t) c1) cx d.2.1
  let a := avgRows c0 c1
  let q := inOrder o (avx2Pairs (biasChroma rg) (kCb t) a) (avx2Pairs (biasChroma rg) (kCr t) a)
  let uv ← store 32 (avx2Interleave2 q.1 q.2).1 ux d.2.2
  return (y0, y1, uv)

/-- Models `encode_16_part`, /repo/src/sse/rgb_to_nv420.rs:62-199: 16 pixels of two rows. -/
def sseNvEnc420 (o : NVOrder) (ch : Channels) (rg : ChromaRange) (t : FwdCoef)
    (src0 src1 : Buf) (p : Nat) (d : Planes3) (cx ux : Nat) : Outcome Planes3 := do
  let c0 ← sseLoad ch src0 p
  let y0 ← store 16 (dotBytes (biasLuma rg) (kLuma t) c0) cx d.1
  let c1 ← sseLoad ch src1 p
  let y1 ← store 16 (dotBytes (biasLuma rg) (kLuma t) c1) cx d.2.1
  let a := avgRows c0 c1
  let q := inOrder o (ssePairs (biasChroma rg) (kCb t) a) (ssePairs (biasChroma rg) (kCr t) a)
  let uv ← store 16 (sseInterleave2 q.1 q.2).1 ux d.2.2
  return (y0, y1, uv)

/-- The last pixels of a row (at most `n`), through buffers on the stack; `f` is the `n`-pixel body.
/repo/src/avx2/rgb_to_nv.rs:217-269 (`n` is 32) and /repo/src/sse/rgb_to_nv.rs:260-312 (`n` is
16). -/
def nvEncTail (n : Nat) (s : Sampling) (cn width : Nat) (f : Buf → Planes2 → Outcome Planes2)
    (rgba : Buf) (d : Planes2) (cx ux : Nat) : Outcome (Planes2 × Nat × Nat) :=
  if cx < width then do
    let diff := width - cx
    if n < diff then .panic
    let sb ← tailSrc n (s != .yuv444) cn width rgba cx
    let b ← f sb (List.replicate n 0, List.replicate (n * 2) 0)
    let sz := chromaStep s diff * 2
    let y ← copyOut b.1 diff d.1 cx
    let uv ← copyOut b.2 sz d.2 ux
    return ((y, uv), cx + diff, ux + sz)
  else .ok (d, cx, ux)

/-- The same for two rows: /repo/src/avx2/rgb_to_nv420.rs:214-284 and
/repo/src/sse/rgb_to_nv420.rs:241-311. -/
def nvEncTail420 (n cn width : Nat) (f : Buf → Buf → Planes3 → Outcome Planes3)
    (rgba0 rgba1 : Buf) (d : Planes3) (cx ux : Nat) : Outcome (Planes3 × Nat × Nat) :=
  if cx < width then do
    let diff := width - cx
    if n < diff then .panic
    let sb0 ← tailSrc n true cn width rgba0 cx
    let sb1 ← tailSrc n true cn width rgba1 cx
    let b ← f sb0 sb1 (List.replicate n 0, List.replicate n 0, List.replicate (n * 2) 0)
    let sz := ceil2 diff * 2
    let y0 ← copyOut b.1 diff d.1 cx
    let y1 ← copyOut b.2.1 diff d.2.1 cx
    let uv ← copyOut b.2.2 sz d.2.2 ux
    return ((y0, y1, uv), cx + diff, ux + sz)
  else .ok (d, cx, ux)

/-- Models `avx2_rgba_to_nv_impl`, /repo/src/avx2/rgb_to_nv.rs:173-272. -/
def avx2NvEncRow (o : NVOrder) (s : Sampling) (ch : Channels) (rg : ChromaRange) (t : FwdCoef)
    (width : Nat) (rgba : Buf) (d : Planes2) (cx ux : Nat) : Outcome (Planes2 × Nat × Nat) := do
  let r ← vwhile 32 (chromaStep s 32 * 2) width
    (fun cx ux d => avx2NvEnc o s ch rg t rgba (cx * ch.count) d cx ux) cx ux d
  nvEncTail 32 s ch.count width (fun sb b => avx2NvEnc o s ch rg t sb 0 b 0 0) rgba r.1 r.2.1 r.2.2

/-- Models `sse_rgba_to_nv_row_impl`, /repo/src/sse/rgb_to_nv.rs:217-315. -/
def sseNvEncRow (o : NVOrder) (s : Sampling) (ch : Channels) (rg : ChromaRange) (t : FwdCoef)
    (width : Nat) (rgba : Buf) (d : Planes2) (cx ux : Nat) : Outcome (Planes2 × Nat × Nat) := do
  let r ← vwhile 16 (chromaStep s 16 * 2) width
    (fun cx ux d => sseNvEnc o s ch rg t rgba (cx * ch.count) d cx ux) cx ux d
  nvEncTail 16 s ch.count width (fun sb b => sseNvEnc o s ch rg t sb 0 b 0 0) rgba r.1 r.2.1 r.2.2

/-- Models `avx2_rgba_to_nv_impl`, /repo/src/avx2/rgb_to_nv420.rs:175-287. -/
def avx2NvEncRow420 (o : NVOrder) (ch : Channels) (rg : ChromaRange) (t : FwdCoef) (width : Nat)
    (rgba0 rgba1 : Buf) (d : Planes3) (cx ux : Nat) : Outcome (Planes3 × Nat × Nat) := do
  let r ← vwhile 32 32 width
    (fun cx ux d => avx2NvEnc420 o ch rg t rgba0 rgba1 (cx * ch.count) d cx ux) cx ux d
  nvEncTail420 32 ch.count width (fun s0 s1 b => avx2NvEnc420 o ch rg t s0 s1 0 b 0 0) rgba0 rgba1 r.1
    r.2.1 r.2.2

/-- Models `sse_rgba_to_nv_row_impl420`, /repo/src/sse/rgb_to_nv420.rs:202-314. -/
def sseNvEncRow420 (o : NVOrder) (ch : Channels) (rg : ChromaRange) (t : FwdCoef) (width : Nat)
    (rgba0 rgba1 : Buf) (d : Planes3) (cx ux : Nat) : Outcome (Planes3 × Nat × Nat) := do
  let r ← vwhile 16 16 width
    (fun cx ux d => sseNvEnc420 o ch rg t rgba0 rgba1 (cx * ch.count) d cx ux) cx ux d
  nvEncTail420 16 ch.count width (fun s0 s1 b => sseNvEnc420 o ch rg t s0 s1 0 b 0 0) rgba0 rgba1 r.1
    r.2.1 r.2.2

/-- Models `SemiPlanarEncoder::default` and `handle_row` for `PRECISION` 13,
/repo/src/rgba_to_nv.rs:382-443, 545-575. -/
def rowEncoderNV (cpu : Cpu) (o : NVOrder) (s : Sampling) (ch : Channels) (rg : ChromaRange)
    (t : FwdCoef) (width : Nat) : RowEncoderNV := fun y uv rgba =>
  match cpu with
  | .avx2 => do
    let r ← avx2NvEncRow o s ch rg t width rgba (y, uv) 0 0
    return (r.1.1, r.1.2, r.2.1)
  | .sse41 => do
    let r ← sseNvEncRow o s ch rg t width rgba (y, uv) 0 0
    return (r.1.1, r.1.2, r.2.1)
  | .plain => noEncNV y uv rgba

/-- Models `SemiPlanar420Encoder::default` and `handle_rows` for `PRECISION` 13 (used for 4:2:0
only), /repo/src/rgba_to_nv.rs:105-186, 312-345 (the `nightly_avx512` feature is off by default). -/
def rowEncoderNV420 (cpu : Cpu) (o : NVOrder) (ch : Channels) (rg : ChromaRange)
    (t : FwdCoef) (width : Nat) : RowEncoderNV420 := fun y0 y1 uv rgba0 rgba1 =>
  match cpu with
  | .avx2 => do
    let r ← avx2NvEncRow420 o ch rg t width rgba0 rgba1 (y0, y1, uv) 0 0
    return (r.1.1, r.1.2.1, r.1.2.2, r.2.1)
  | .sse41 => do
    let r ← sseNvEncRow420 o ch rg t width rgba0 rgba1 (y0, y1, uv) 0 0
    return (r.1.1, r.1.2.1, r.1.2.2, r.2.1)
  | .plain => noEncNV420 y0 y1 uv rgba0 rgba1

/-- The 8-bit semi-planar encoder in the balanced mode on a processor of class `cpu`: `rgbx_to_nv`,
/repo/src/rgba_to_nv.rs, with the row encoders chosen by run-time feature detection. -/
def rgbxToNvOn (cpu : Cpu) (o : NVOrder) (ch : Channels) (s : Sampling) (i : BiPlanar) (rgba : Buf)
    (stride : Nat) (rg : YuvRange) (m : Matrix) : Outcome BiPlanar :=
  let c := getYuvRange 8 rg
  let t := searchForward 13 8 rg m
  rgbxToNv x64 .balanced o ch s (rowEncoderNV cpu o s ch c t i.width)
    (rowEncoderNV420 cpu o ch c t i.width) i rgba stride rg m

end Verif.X86
