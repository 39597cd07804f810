import Verif.Model.X86NvEncode
/-!
# Row encoders made of one step of `n` pixels

The 8-bit encoders of the professional mode (`rgb_to_yuv_prof.rs`, `rgb_to_yuv420_prof.rs`,
`rgb_to_nv_prof.rs`, `rgb_to_nv420_prof.rs`) and of the fast mode (`rgba_to_yuv_fast.rs`,
`rgba_to_yuv_fast420.rs`, `rgba_to_nv_fast.rs`, `rgba_to_nv_fast420.rs`) of /repo/src/avx2 and
/repo/src/sse all have one shape: a loop over `n` pixels (32 with AVX2, 16 with SSE4.1) while more than
`n` remain, then the last pixels with the same step through buffers on the stack.  The step loads `n`
pixels, stores one luma byte for each and either one Cb and one Cr byte for each (4:4:4) or one for
every two.  `Part` holds what differs: the load and the arithmetic.
-/
namespace Verif.X86

/-- The load and the arithmetic of a step. -/
structure Part (C : Type) where
  /-- Pixels per step. -/
  n : Nat
  /-- The load of `n` pixels at a byte position. -/
  load : Buf → Nat → Outcome C
  /-- Luma, one byte per pixel. -/
  luma : C → Reg
  /-- Cb, one byte per pixel. -/
  cb : C → Reg
  /-- Cr, one byte per pixel. -/
  cr : C → Reg
  /-- The pixels of two rows averaged. -/
  avg : C → C → C
  /-- Cb, one byte per two pixels. -/
  cbPairs : C → Reg
  /-- Cr, one byte per two pixels. -/
  crPairs : C → Reg
  /-- The bytes of two registers interleaved, in two registers. -/
  inter : Reg → Reg → Reg × Reg
  /-- Length of the chroma buffer for the last pixels of two rows in the semi-planar encoder. -/
  uvBuf : Nat

namespace Part
variable {C : Type} (P : Part C)

/-- `n` pixels at byte `p`: `encode_32_part`, /repo/src/avx2/rgb_to_yuv_prof.rs:72-172,
`encode_16_part`, /repo/src/sse/rgb_to_yuv_prof.rs:66-152, and the loop bodies
/repo/src/avx2/rgba_to_yuv_fast.rs:149-303 and /repo/src/sse/rgba_to_yuv_fast.rs:139-284. -/
def enc (s : Sampling) (src : Buf) (p : Nat) (o : Planes) (cx ux : Nat) : Outcome Planes := do
  let c ← P.load src p
  let y ← store P.n (P.luma c) cx o.1
  match s with
  | .yuv444 => do
    let u ← store P.n (P.cb c) ux o.2.1
    let v ← store P.n (P.cr c) ux o.2.2
    return (y, u, v)
  | .yuv420 | .yuv422 => do
    let u ← store (P.n / 2) (P.cbPairs c) ux o.2.1
    let v ← store (P.n / 2) (P.crPairs c) ux o.2.2
    return (y, u, v)

/-- A row: /repo/src/avx2/rgb_to_yuv_prof.rs:217-326, /repo/src/sse/rgb_to_yuv_prof.rs:154-262,
/repo/src/avx2/rgba_to_yuv_fast.rs:68-518 and /repo/src/sse/rgba_to_yuv_fast.rs:58-490. -/
def encRow (s : Sampling) (cn width : Nat) (rgba : Buf) (o : Planes) (cx ux : Nat) :
    Outcome (Planes × Nat × Nat) := do
  let r ← vwhile P.n (chromaStep s P.n) width (fun cx ux o => P.enc s rgba (cx * cn) o cx ux) cx ux o
  encTail P.n s cn width (fun sb b => P.enc s sb 0 b 0 0) rgba r.1 r.2.1 r.2.2

/-- `n` pixels of two rows: `encode_32_part`, /repo/src/avx2/rgb_to_yuv420_prof.rs:71-169,
`encode_16_part`, /repo/src/sse/rgb_to_yuv420_prof.rs:64-157, and the loop bodies
/repo/src/avx2/rgba_to_yuv_fast420.rs:151-286 and /repo/src/sse/rgba_to_yuv_fast420.rs:140-273. -/
def enc420 (src0 src1 : Buf) (p : Nat) (o : Planes4) (cx ux : Nat) : Outcome Planes4 := do
  let c0 ← P.load src0 p
  let c1 ← P.load src1 p
  let y0 ← store P.n (P.luma c0) cx o.1
  let y1 ← store P.n (P.luma c1) cx o.2.1
  let u ← store (P.n / 2) (P.cbPairs (P.avg c0 c1)) ux o.2.2.1
  let v ← store (P.n / 2) (P.crPairs (P.avg c0 c1)) ux o.2.2.2
  return (y0, y1, u, v)

/-- Two rows: /repo/src/avx2/rgb_to_yuv420_prof.rs:212-334, /repo/src/sse/rgb_to_yuv420_prof.rs:159-277,
/repo/src/avx2/rgba_to_yuv_fast420.rs:70-477 and /repo/src/sse/rgba_to_yuv_fast420.rs:59-463. -/
def encRow420 (cn width : Nat) (rgba0 rgba1 : Buf) (o : Planes4) (cx ux : Nat) :
    Outcome (Planes4 × Nat × Nat) := do
  let r ← vwhile P.n (P.n / 2) width (fun cx ux o => P.enc420 rgba0 rgba1 (cx * cn) o cx ux) cx ux o
  encTail420 P.n cn width (fun s0 s1 b => P.enc420 s0 s1 0 b 0 0) rgba0 rgba1 r.1 r.2.1 r.2.2

/-- `n` pixels at byte `p` into a semi-planar image: `encode_32_part`,
/repo/src/avx2/rgb_to_nv_prof.rs:72-182, `encode_16_part`, /repo/src/sse/rgb_to_nv_prof.rs:66-167, and the
loop bodies /repo/src/avx2/rgba_to_nv_fast.rs:154-322 and /repo/src/sse/rgba_to_nv_fast.rs:144-310. -/
def encNv (od : NVOrder) (s : Sampling) (src : Buf) (p : Nat) (d : Planes2) (cx ux : Nat) :
    Outcome Planes2 := do
  let c ← P.load src p
  let y ← store P.n (P.luma c) cx d.1
  match s with
  | .yuv444 => do
    let q := inOrder od (P.cb c) (P.cr c)
    let uv ← store P.n (P.inter q.1 q.2).1 ux d.2
    let uv ← store P.n (P.inter q.1 q.2).2 (ux + P.n) uv
    return (y, uv)
  | .yuv420 | .yuv422 => do
    let q := inOrder od (P.cbPairs c) (P.crPairs c)
    let uv ← store P.n (P.inter q.1 q.2).1 ux d.2
    return (y, uv)

/-- A row: /repo/src/avx2/rgb_to_nv_prof.rs:227-328, /repo/src/sse/rgb_to_nv_prof.rs:169-269,
/repo/src/avx2/rgba_to_nv_fast.rs:71-533 and /repo/src/sse/rgba_to_nv_fast.rs:61-519. -/
def encRowNv (od : NVOrder) (s : Sampling) (cn width : Nat) (rgba : Buf) (d : Planes2) (cx ux : Nat) :
    Outcome (Planes2 × Nat × Nat) := do
  let r ← vwhile P.n (chromaStep s P.n * 2) width
    (fun cx ux d => P.encNv od s rgba (cx * cn) d cx ux) cx ux d
  nvEncTail P.n s cn width (fun sb b => P.encNv od s sb 0 b 0 0) rgba r.1 r.2.1 r.2.2

/-- `n` pixels of two rows into a semi-planar image: `encode_32_part`,
/repo/src/avx2/rgb_to_nv420_prof.rs:73-181, `encode_16_part`, /repo/src/sse/rgb_to_nv420_prof.rs:66-164,
and the loop bodies /repo/src/avx2/rgba_to_nv_fast420.rs:146-282 and
/repo/src/sse/rgba_to_nv_fast420.rs:135-275. -/
def encNv420 (od : NVOrder) (src0 src1 : Buf) (p : Nat) (d : Planes3) (cx ux : Nat) :
    Outcome Planes3 := do
  let c0 ← P.load src0 p
  let c1 ← P.load src1 p
  let y0 ← store P.n (P.luma c0) cx d.1
  let y1 ← store P.n (P.luma c1) cx d.2.1
  let q := inOrder od (P.cbPairs (P.avg c0 c1)) (P.crPairs (P.avg c0 c1))
  let uv ← store P.n (P.inter q.1 q.2).1 ux d.2.2
  return (y0, y1, uv)

/-- The last pixels of two rows, through buffers on the stack:
/repo/src/avx2/rgb_to_nv420_prof.rs:269-339 (the chroma buffer has 64 bytes),
/repo/src/sse/rgb_to_nv420_prof.rs:206-276 (32), /repo/src/avx2/rgba_to_nv_fast420.rs:284-463 (32) and
/repo/src/sse/rgba_to_nv_fast420.rs:277-460 (16). -/
def nvTail420 (cn width : Nat) (f : Buf → Buf → Planes3 → Outcome Planes3)
    (rgba0 rgba1 : Buf) (d : Planes3) (cx ux : Nat) : Outcome (Planes3 × Nat × Nat) :=
  if cx < width then do
    let diff := width - cx
    if P.n < diff then .panic
    let sb0 ← tailSrc P.n true cn width rgba0 cx
    let sb1 ← tailSrc P.n true cn width rgba1 cx
    let b ← f sb0 sb1 (List.replicate P.n 0, List.replicate P.n 0, List.replicate P.uvBuf 0)
    let sz := ceil2 diff * 2
    let y0 ← copyOut b.1 diff d.1 cx
    let y1 ← copyOut b.2.1 diff d.2.1 cx
    let uv ← copyOut b.2.2 sz d.2.2 ux
    return ((y0, y1, uv), cx + diff, ux + sz)
  else .ok (d, cx, ux)

/-- Two rows: /repo/src/avx2/rgb_to_nv420_prof.rs:228-342, /repo/src/sse/rgb_to_nv420_prof.rs:166-279,
/repo/src/avx2/rgba_to_nv_fast420.rs:68-466 and /repo/src/sse/rgba_to_nv_fast420.rs:57-463. -/
def encRowNv420 (od : NVOrder) (cn width : Nat) (rgba0 rgba1 : Buf) (d : Planes3) (cx ux : Nat) :
    Outcome (Planes3 × Nat × Nat) := do
  let r ← vwhile P.n P.n width (fun cx ux d => P.encNv420 od rgba0 rgba1 (cx * cn) d cx ux) cx ux d
  P.nvTail420 cn width (fun s0 s1 b => P.encNv420 od s0 s1 0 b 0 0) rgba0 rgba1 r.1 r.2.1 r.2.2

/-- `handle_row`, /repo/src/rgba_to_yuv.rs:79-114, with such a handler. -/
def rowEncoder (s : Sampling) (cn width : Nat) : RowEncoder := fun y u v rgba => do
  let r ← P.encRow s cn width rgba (y, u, v) 0 0
  return (r.1.1, r.1.2.1, r.1.2.2, r.2.1)
/-- `handle_row`, /repo/src/rgba_to_yuv.rs:474-512, with such a handler. -/
def rowEncoder420 (cn width : Nat) : RowEncoder420 := fun y0 y1 u v rgba0 rgba1 => do
  let r ← P.encRow420 cn width rgba0 rgba1 (y0, y1, u, v) 0 0
  return (r.1.1, r.1.2.1, r.1.2.2.1, r.1.2.2.2, r.2.1)
/-- `handle_row`, /repo/src/rgba_to_nv.rs:545-575, with such a handler. -/
def rowEncoderNv (od : NVOrder) (s : Sampling) (cn width : Nat) : RowEncoderNV := fun y uv rgba => do
  let r ← P.encRowNv od s cn width rgba (y, uv) 0 0
  return (r.1.1, r.1.2, r.2.1)
/-- `handle_rows`, /repo/src/rgba_to_nv.rs:312-345, with such a handler. -/
def rowEncoderNv420 (od : NVOrder) (cn width : Nat) : RowEncoderNV420 := fun y0 y1 uv rgba0 rgba1 => do
  let r ← P.encRowNv420 od cn width rgba0 rgba1 (y0, y1, uv) 0 0
  return (r.1.1, r.1.2.1, r.1.2.2, r.2.1)

/-- `rgbx_to_yuv8_impl`, /repo/src/rgba_to_yuv.rs:668-1028, with these row encoders. -/
def toYuv (md : Mode) (ch : Channels) (s : Sampling) (i : Planar) (rgba : Buf) (stride : Nat)
    (rg : YuvRange) (m : Matrix) : Outcome Planar :=
  rgbxToYuv x64 md ch s (P.rowEncoder s ch.count i.width) (P.rowEncoder420 ch.count i.width) i rgba
    stride rg m
/-- `rgbx_to_nv_impl`, /repo/src/rgba_to_nv.rs:581-918, with these row encoders. -/
def toNv (md : Mode) (od : NVOrder) (ch : Channels) (s : Sampling) (i : BiPlanar) (rgba : Buf)
    (stride : Nat) (rg : YuvRange) (m : Matrix) : Outcome BiPlanar :=
  rgbxToNv x64 md od ch s (P.rowEncoderNv od s ch.count i.width) (P.rowEncoderNv420 od ch.count i.width)
    i rgba stride rg m

end Part

end Verif.X86
