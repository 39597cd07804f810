import Verif.Model.X86NvDecode
import Verif.Model.X86YuyRgb
import Verif.Model.X86Yuy2
import Verif.Model.X86Rdp
import Verif.Model.X86Fast
/-!
# The 8-bit semi-planar decoders of the professional and fast modes for x86

/repo/src/avx2/yuv_nv_to_rgba_prof.rs, yuv_nv_to_rgba420_prof.rs, yuv_nv_to_rgba_fast.rs,
yuv_nv_to_rgba_fast420.rs and the same files of /repo/src/sse, with the choice made by the `default`
functions of /repo/src/yuv_nv_to_rgba.rs:244-375 and 597-730.  The features `professional_mode` and
`fast_mode` are on, `nightly_avx512` is off: the `HAS_DOT` branches are not compiled.
-/
namespace Verif.X86

/-- `_mm_sub_epi8`, `_mm256_sub_epi8`. -/
def sub8 (a b : Reg) : Reg := fun i => asU8 ((a i : Int) - b i)
/-- `_mm_cvtepi8_epi16`, `_mm256_cvtepi8_epi16` of the low half of a register. -/
def cvtI8 (a : Reg) : Reg := mk16 fun k => asI8 (a k)

/-! ## What the kernels share -/

/-- A kernel: `n` pixels per step, stack buffers for `tail` pixels, the colours of `n` pixels from
their luma bytes and their chroma bytes (one register, or two for 4:4:4), and the interleaved store. -/
structure NvKernel where
  n : Nat
  tail : Nat
  rgb : Sampling → NVOrder → ChromaRange → InvCoef → Reg → Reg → Reg → Reg × Reg × Reg
  store : Channels → Nat → Reg → Reg → Reg → Reg → Buf → Outcome Buf

namespace NvKernel

/-- The loads of the chroma: /repo/src/avx2/yuv_nv_to_rgba_prof.rs:110-142,
/repo/src/avx2/yuv_nv_to_rgba_fast.rs:117-141. -/
def chroma (K : NvKernel) (s : Sampling) (uv : Buf) (ux : Nat) : Outcome (Reg × Reg) :=
  match s with
  | .yuv420 | .yuv422 => do
    let r ← load K.n uv ux
    return (r, zero)
  | .yuv444 => do
    let a ← load K.n uv ux
    let b ← load K.n uv (ux + K.n)
    return (a, b)

/-- One step of a row, destination written at byte `p`: /repo/src/avx2/yuv_nv_to_rgba_prof.rs:107-239
(and 280-402), /repo/src/avx2/yuv_nv_to_rgba_fast.rs:114-212 (and 252-346). -/
def body (K : NvKernel) (s : Sampling) (o : NVOrder) (ch : Channels) (rg : ChromaRange) (t : InvCoef)
    (y uv : Buf) (cx ux p : Nat) (row : Buf) : Outcome Buf := do
  let yv ← load K.n y cx
  let c ← K.chroma s uv ux
  let c := K.rgb s o rg t yv c.1 c.2
  K.store ch p c.1 c.2.1 c.2.2 (set1_8 255) row

/-- Models `avx2_yuv_nv_to_rgba_row_impl_prof` (/repo/src/avx2/yuv_nv_to_rgba_prof.rs:61-422),
`sse_yuv_nv_to_rgba_row_impl_prof` (/repo/src/sse/yuv_nv_to_rgba_prof.rs:60-397),
`avx_yuv_nv_to_rgba_fast_impl` (/repo/src/avx2/yuv_nv_to_rgba_fast.rs:62-360) and
`sse_yuv_nv_to_rgba_fast_impl` (/repo/src/sse/yuv_nv_to_rgba_fast.rs:62-311). -/
def row (K : NvKernel) (s : Sampling) (o : NVOrder) (ch : Channels) (rg : ChromaRange) (t : InvCoef)
    (width : Nat) (y uv row : Buf) (cx ux : Nat) : Outcome (Buf × Nat × Nat) := do
  let r ← vwhile K.n (nvStep s K.n) width
    (fun cx ux row => K.body s o ch rg t y uv cx ux (cx * ch.count) row) cx ux row
  nvTailRow K.tail s ch width (fun y uv d => K.body s o ch rg t y uv 0 0 0 d) y uv r.1 r.2.1 r.2.2

/-- One step of a pair of rows: /repo/src/avx2/yuv_nv_to_rgba420_prof.rs:107-276 (and 310-478),
/repo/src/avx2/yuv_nv_to_rgba_fast420.rs:103-194 (and 228-316). -/
def body420 (K : NvKernel) (o : NVOrder) (ch : Channels) (rg : ChromaRange) (t : InvCoef)
    (y0 y1 uv : Buf) (cx ux p : Nat) (rows : Buf × Buf) : Outcome (Buf × Buf) := do
  let yv0 ← load K.n y0 cx
  let yv1 ← load K.n y1 cx
  let r ← load K.n uv ux
  let c0 := K.rgb .yuv420 o rg t yv0 r zero
  let c1 := K.rgb .yuv420 o rg t yv1 r zero
  let row0 ← K.store ch p c0.1 c0.2.1 c0.2.2 (set1_8 255) rows.1
  let row1 ← K.store ch p c1.1 c1.2.1 c1.2.2 (set1_8 255) rows.2
  return (row0, row1)

/-- Models `avx2_yuv_nv_to_rgba_row_impl420` (/repo/src/avx2/yuv_nv_to_rgba420_prof.rs:61-494),
`sse_yuv_nv_to_rgba_row_impl420` (/repo/src/sse/yuv_nv_to_rgba420_prof.rs:58-473),
`avx_yuv_nv_to_rgba_impl_fast420` (/repo/src/avx2/yuv_nv_to_rgba_fast420.rs:58-334) and
`sse_yuv_nv_to_rgba_impl_fast420` (/repo/src/sse/yuv_nv_to_rgba_fast420.rs:58-330). -/
def row420 (K : NvKernel) (o : NVOrder) (ch : Channels) (rg : ChromaRange) (t : InvCoef) (width : Nat)
    (y0 y1 uv row0 row1 : Buf) (cx ux : Nat) : Outcome ((Buf × Buf) × Nat × Nat) := do
  let r ← vwhile K.n (nvStep .yuv420 K.n) width
    (fun cx ux rows => K.body420 o ch rg t y0 y1 uv cx ux (cx * ch.count) rows) cx ux (row0, row1)
  nvTailRows K.tail ch width (fun y0 y1 uv d => K.body420 o ch rg t y0 y1 uv 0 0 0 d) y0 y1 uv r.1
    r.2.1 r.2.2

/-- The row handler a kernel gives: `handle_row`, /repo/src/yuv_nv_to_rgba.rs:377-415. -/
def handler (K : NvKernel) (o : NVOrder) (s : Sampling) (ch : Channels) (rg : ChromaRange)
    (t : InvCoef) (width : Nat) : RowHandlerNV := fun y uv row =>
  done (K.row s o ch rg t width y uv row 0 0)

/-- The handler of pairs of rows, for 4:2:0 only: `handle_row`, /repo/src/yuv_nv_to_rgba.rs:451-490,
and the first lines of the `default` functions (:606-610, :682-686). -/
def handler420 (K : NvKernel) (o : NVOrder) (s : Sampling) (ch : Channels) (rg : ChromaRange)
    (t : InvCoef) (width : Nat) : RowHandlerNV420 := fun y0 y1 uv row0 row1 =>
  match s with
  | .yuv420 => do
    let r ← K.row420 o ch rg t width y0 y1 uv row0 row1 0 0
    return (r.1.1, r.1.2, r.2.1)
  | _ => noSimdNV420 y0 y1 uv row0 row1

end NvKernel

/-! ## Professional mode -/

/-- Models `_mm256_mul_add_epi16` and `_mm_mul_add_epi16`, /repo/src/avx2/avx2_utils.rs:1094-1107,
/repo/src/sse/utils.rs:877-879. -/
def mulAdd (acc v w : Reg) : Reg := add32v acc (madd16 v w)
/-- Models `_mm256_mul_sub_epi16` and `_mm_mul_sub_epi16`, /repo/src/avx2/avx2_utils.rs:1110-1116,
/repo/src/sse/utils.rs:882-884. -/
def mulSub (acc v w : Reg) : Reg := sub32v acc (madd16 v w)

/-- The luma bytes above their offset, one 32-bit element per pixel, in four registers:
/repo/src/avx2/yuv_nv_to_rgba_prof.rs:144-153, /repo/src/sse/yuv_nv_to_rgba_prof.rs:133-142. -/
def widen32 (y : Reg) : Quad :=
  let lo := unpacklo 1 y zero
  let hi := unpackhi 1 y zero
  (unpacklo 2 lo zero, unpackhi 2 lo zero, unpacklo 2 hi zero, unpackhi 2 hi zero)

/-- A function of the registers of a quadruple. -/
def Quad.map (f : Reg → Reg) (q : Quad) : Quad := (f q.1, f q.2.1, f q.2.2.1, f q.2.2.2)
/-- A function of the registers of two quadruples. -/
def Quad.map2 (f : Reg → Reg → Reg) (q r : Quad) : Quad :=
  (f q.1 r.1, f q.2.1 r.2.1, f q.2.2.1 r.2.2.1, f q.2.2.2 r.2.2.2)

/-- `_mm256_srai_epi32::<14>`, `_mm256_packus_epi32` and `_mm256_packus_epi16`:
/repo/src/avx2/yuv_nv_to_rgba_prof.rs:165-173. -/
def profPack (q : Quad) : Reg :=
  packus16 (packus32 (srai32 14 q.1) (srai32 14 q.2.1)) (packus32 (srai32 14 q.2.2.1) (srai32 14 q.2.2.2))

/-- The pairs of chroma bytes less their offset, one pair per pixel and 16 bytes per register, with
AVX2: /repo/src/avx2/yuv_nv_to_rgba_prof.rs:110-142, and the halves taken on lines 155-158. -/
def avx2ProfUv (s : Sampling) (c0 c1 : Reg) : Quad :=
  let lh : Reg × Reg := match s with
    | .yuv420 | .yuv422 =>
      (permute4x64 0xD8 (unpacklo 2 c0 c0), permute4x64 0xD8 (unpackhi 2 c0 c0))
    | .yuv444 =>
      (permute4x64 0xD8 (permute2x128 0x20 c0 c1), permute4x64 0xD8 (permute2x128 0x31 c0 c1))
  (lh.1, extractHi lh.1, lh.2, extractHi lh.2)
/-- The same with SSE4.1, 8 bytes per register: /repo/src/sse/yuv_nv_to_rgba_prof.rs:107-129 and
149-152. -/
def sseProfUv (s : Sampling) (c0 c1 : Reg) : Quad :=
  let lh : Reg × Reg := match s with
    | .yuv420 | .yuv422 => (unpacklo 2 c0 c0, unpackhi 2 c0 c0)
    | .yuv444 => (c0, c1)
  (lh.1, getHigh lh.1, lh.2, getHigh lh.2)

/-- Coefficients of Cr for a pair, /repo/src/avx2/yuv_nv_to_rgba_prof.rs:87-91.  Here and in the next two
definitions the packed word is written with `interleaved`: the coefficients are in 0…65535. -/
def profCr (o : NVOrder) (t : InvCoef) : Reg :=
  match o with
  | .vu => set1_32 (interleaved t.cr 0)
  | .uv => set1_32 (interleaved 0 t.cr)
/-- The coefficient of Cb as a sum of two words, /repo/src/avx2/yuv_nv_to_rgba_prof.rs:92-93. -/
def profCb (t : InvCoef) : Reg := set1_32 (interleaved 32767 (t.cb - 32767))
/-- Coefficients of green for a pair, /repo/src/avx2/yuv_nv_to_rgba_prof.rs:94-100. -/
def profG (o : NVOrder) (t : InvCoef) : Reg :=
  match o with
  | .vu => set1_32 (interleaved t.g1 t.g2)
  | .uv => set1_32 (interleaved t.g2 t.g1)
/-- The word of Cb twice: the shuffle masks of /repo/src/avx2/yuv_nv_to_rgba_prof.rs:190-213 and
/repo/src/sse/yuv_nv_to_rgba_prof.rs:185-201. -/
def profUu (o : NVOrder) : Reg :=
  match o with
  | .vu => setr8 [2, 3, 2, 3, 6, 7, 6, 7, 10, 11, 10, 11, 14, 15, 14, 15, 2, 3, 2, 3, 6, 7, 6, 7, 10,
      11, 10, 11, 14, 15, 14, 15]
  | .uv => setr8 [0, 1, 0, 1, 4, 5, 4, 5, 8, 9, 8, 9, 12, 13, 12, 13, 0, 1, 0, 1, 4, 5, 4, 5, 8, 9,
      8, 9, 12, 13, 12, 13]

/-- Red, green and blue: /repo/src/avx2/yuv_nv_to_rgba_prof.rs:142-229,
/repo/src/sse/yuv_nv_to_rgba_prof.rs:131-219; `uv` arranges the pairs. -/
def profRgb (uv : Sampling → Reg → Reg → Quad) (s : Sampling) (o : NVOrder) (rg : ChromaRange)
    (t : InvCoef) (y c0 c1 : Reg) : Reg × Reg × Reg :=
  let corr := set1_8 rg.biasUv
  let c := (uv s (sub8 c0 corr) (sub8 c1 corr)).map cvtI8
  let y := (widen32 (subsU8 y (set1_8 rg.biasY))).map
    fun v => mulAdd (set1_32 (2 ^ 13 - 1)) v (set1_16 t.y)
  let g := Quad.map2 (fun y c => mulSub y c (profG o t)) y c
  let r := Quad.map2 (fun y c => mulAdd y c (profCr o t)) y c
  let b := Quad.map2 (fun y c => mulAdd y (shuffle8 c (profUu o)) (profCb t)) y c
  (profPack r, profPack g, profPack b)

/-- The professional kernel with AVX2: /repo/src/avx2/yuv_nv_to_rgba_prof.rs and
yuv_nv_to_rgba420_prof.rs. -/
def avx2NvProf : NvKernel := ⟨32, 32, profRgb avx2ProfUv, avx2Store⟩
/-- The professional kernel with SSE4.1, whose stack buffers hold 32 pixels:
/repo/src/sse/yuv_nv_to_rgba_prof.rs:240-247 and yuv_nv_to_rgba420_prof.rs:267-276. -/
def sseNvProf : NvKernel := ⟨16, 32, profRgb sseProfUv, sseStore⟩

/-! ## Fast mode -/

/-- The three products of the chroma bytes with the coefficients of blue, red and green:
/repo/src/avx2/yuv_nv_to_rgba_fast.rs:91-110 and 124-126; the coefficients are unsigned bytes. -/
def fastTerms (o : NVOrder) (t : InvCoef) (c : Reg) : Reg × Reg × Reg :=
  match o with
  | .vu => (maddubs (set1_16 (asU16 t.cr)) c, maddubs (set1_16 (asU16 t.g2 * 256 + asU16 t.g1)) c,
      maddubs (set1_16 (asU16 t.cb * 256)) c)
  | .uv => (maddubs (set1_16 (asU16 t.cr * 256)) c, maddubs (set1_16 (asU16 t.g1 * 256 + asU16 t.g2)) c,
      maddubs (set1_16 (asU16 t.cb)) c)

/-- A sum shifted and packed, /repo/src/avx2/yuv_nv_to_rgba_fast.rs:178-200. -/
def fastPack (pack : Reg → Reg → Reg) (lo hi : Reg) : Reg := pack (srai16 6 lo) (srai16 6 hi)

/-- Red, green and blue of the pixels whose luma and chroma terms are given in two halves:
/repo/src/avx2/yuv_nv_to_rgba_fast.rs:167-200. -/
def fastSum (pack : Reg → Reg → Reg) (t : InvCoef) (yLo yHi : Reg) (cLo cHi : Reg × Reg × Reg) :
    Reg × Reg × Reg :=
  let yl := maddubs yLo (set1_8 t.y)
  let yh := maddubs yHi (set1_8 t.y)
  (fastPack pack (add16 yl cLo.1) (add16 yh cHi.1), fastPack pack (sub16 yl cLo.2.1) (sub16 yh cHi.2.1),
    fastPack pack (add16 yl cLo.2.2) (add16 yh cHi.2.2))

/-- Each word of a triple twice, lower and upper half: /repo/src/avx2/yuv_nv_to_rgba_fast.rs:128-133. -/
def dupPairLo (c : Reg × Reg × Reg) : Reg × Reg × Reg :=
  (unpacklo 2 c.1 c.1, unpacklo 2 c.2.1 c.2.1, unpacklo 2 c.2.2 c.2.2)
/-- See `dupPairLo`. -/
def dupPairHi (c : Reg × Reg × Reg) : Reg × Reg × Reg :=
  (unpackhi 2 c.1 c.1, unpackhi 2 c.2.1 c.2.1, unpackhi 2 c.2.2 c.2.2)

/-- Red, green and blue with AVX2: /repo/src/avx2/yuv_nv_to_rgba_fast.rs:114-200 and
/repo/src/avx2/yuv_nv_to_rgba_fast420.rs:103-174. -/
def avx2FastRgb (s : Sampling) (o : NVOrder) (rg : ChromaRange) (t : InvCoef) (y c0 c1 : Reg) :
    Reg × Reg × Reg :=
  let corr := set1_8 rg.biasUv
  let y := subsU8 y (set1_8 rg.biasY)
  match s with
  | .yuv420 | .yuv422 =>
    let c := fastTerms o t (sub8 c0 corr)
    fastSum packus16 t (unpacklo 1 y zero) (unpackhi 1 y zero) (dupPairLo c) (dupPairHi c)
  | .yuv444 =>
    fastSum avx2PackU16 t (widenLo y) (widenHi y) (fastTerms o t (sub8 c0 corr))
      (fastTerms o t (sub8 c1 corr))
/-- Red, green and blue with SSE4.1: /repo/src/sse/yuv_nv_to_rgba_fast.rs:109-172 and
/repo/src/sse/yuv_nv_to_rgba_fast420.rs:99-170. -/
def sseFastRgb (s : Sampling) (o : NVOrder) (rg : ChromaRange) (t : InvCoef) (y c0 c1 : Reg) :
    Reg × Reg × Reg :=
  let corr := set1_8 rg.biasUv
  let y := subsU8 y (set1_8 rg.biasY)
  let c : (Reg × Reg × Reg) × Reg × Reg × Reg := match s with
    | .yuv420 | .yuv422 =>
      let c := fastTerms o t (sub8 c0 corr)
      (dupPairLo c, dupPairHi c)
    | .yuv444 => (fastTerms o t (sub8 c0 corr), fastTerms o t (sub8 c1 corr))
  fastSum packus16 t (unpacklo 1 y zero) (unpackhi 1 y zero) c.1 c.2

/-- The fast kernel with AVX2: /repo/src/avx2/yuv_nv_to_rgba_fast.rs and yuv_nv_to_rgba_fast420.rs. -/
def avx2NvFast : NvKernel := ⟨32, 32, avx2FastRgb, avx2Store⟩
/-- The fast kernel with SSE4.1: /repo/src/sse/yuv_nv_to_rgba_fast.rs and yuv_nv_to_rgba_fast420.rs. -/
def sseNvFast : NvKernel := ⟨16, 16, sseFastRgb, sseStore⟩

/-! ## Dispatch -/

/-- `yuv_nv12_to_rgbx`, /repo/src/yuv_nv_to_rgba.rs:1126-1184, in mode `md` with the kernel `K` the
`default` functions choose, or none. -/
def nvToRgbxWith (K : Option NvKernel) (md : Mode) (o : NVOrder) (ch : Channels) (s : Sampling)
    (i : BiPlanar) (rgba : Buf) (stride : Nat) (rg : YuvRange) (m : Matrix) : Outcome Buf :=
  let c := getYuvRange 8 rg
  let t := searchInverse (nvDecodePrecision md) 8 rg m
  match K with
  | some K => nvToRgbx x64 md o ch s (K.handler o s ch c t i.width) (K.handler420 o s ch c t i.width) i
      rgba stride rg m
  | none => nvToRgbx x64 md o ch s noSimdNV noSimdNV420 i rgba stride rg m

/-- The kernel of the professional mode, /repo/src/yuv_nv_to_rgba.rs:311-375 and 673-730. -/
def profKernel : Cpu → Option NvKernel
  | .avx2 => some avx2NvProf
  | .sse41 => some sseNvProf
  | .plain => none
/-- The kernel of the fast mode, /repo/src/yuv_nv_to_rgba.rs:244-309 and 597-671. -/
def fastKernel : Cpu → Option NvKernel
  | .avx2 => some avx2NvFast
  | .sse41 => some sseNvFast
  | .plain => none

/-- The semi-planar decoder in the professional mode on a processor of class `cpu`,
/repo/src/yuv_nv_to_rgba.rs:1165-1182. -/
def nvToRgbxProfOn (cpu : Cpu) := nvToRgbxWith (profKernel cpu) .professional
/-- The semi-planar decoder in the fast mode on a processor of class `cpu`,
/repo/src/yuv_nv_to_rgba.rs:1139-1152. -/
def nvToRgbxFastOn (cpu : Cpu) := nvToRgbxWith (fastKernel cpu) .fast

end Verif.X86
