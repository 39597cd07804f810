import Verif.Model.X86Deep
import Verif.Model.X86NvDecode
/-!
# The semi-planar 10- and 12-bit decoder for x86: SSE4.1

/repo/src/sse/yuv_nv_p16_to_rgb.rs, called by `yuv_nv_p16_to_image_impl`
(/repo/src/yuv_nv_p16_to_rgb16.rs:127-155) on every processor with SSE4.1; there is no AVX2 kernel.
The precision is 13 and the kernel is started at `cx = ux = 0`.
-/
namespace Verif.X86

/-- Models `_mm_deinterleave_x2_epi16`, /repo/src/sse/utils.rs:187-196. -/
def sseDeinterleave16 (a b : Reg) : Reg × Reg :=
  let v2 := unpacklo 2 a b
  let v3 := unpackhi 2 a b
  let v4 := unpacklo 2 v2 v3
  let v5 := unpackhi 2 v2 v3
  (unpacklo 2 v4 v5, unpackhi 2 v4 v5)

/-- The centred chroma words of one plane: byte swap, shift and subtraction of the offset,
/repo/src/sse/yuv_nv_p16_to_rgb.rs:163-178 and 197-213. -/
def nvCentre (e : Endianness) (bp : BytesPacking) (d : Nat) (rg : ChromaRange) (c : Reg) : Reg :=
  sub16 (nativeReg e bp d c) (set1_16 rg.biasUv)

/-- The chroma of pixels 0 to 3 and of pixels 4 to 7, two words per pixel:
/repo/src/sse/yuv_nv_p16_to_rgb.rs:180-186 for halved chroma, 214-217 for 4:4:4. -/
def nvSpread (s : Sampling) (c : Reg) : Reg × Reg :=
  match s with
  | .yuv420 | .yuv422 =>
    let x := unpacklo 4 c zero
    (unpacklo 4 x x, unpackhi 4 x x)
  | .yuv444 => (unpacklo 4 c zero, unpackhi 2 c zero)

/-- The interleaved chroma words of 8 pixels: /repo/src/sse/yuv_nv_p16_to_rgb.rs:153-161 and
189-196. -/
def nvLoad16 (s : Sampling) (o : NVOrder) (uv : Buf) (ux : Nat) : Outcome (Reg × Reg) :=
  match s with
  | .yuv420 | .yuv422 => do
    let r ← load16 8 uv ux
    return swapUv o (sseDeinterleave16 r zero)
  | .yuv444 => do
    let r0 ← load16 8 uv ux
    let r1 ← load16 8 uv (ux + 8)
    return swapUv o (sseDeinterleave16 r0 r1)

/-- One half of the lanes: red, green and blue sums, shifted:
/repo/src/sse/yuv_nv_p16_to_rgb.rs:221-237 and 239-255 (`y` already unpacked with zeros). -/
def nvSums (t : InvCoef) (y u v : Reg) : Reg × Reg × Reg :=
  let l := madd16 y (set1_16 (asI16 t.y))
  let rnd := set1_32 (2 ^ 12 - 1)
  (srai32 13 (add32v (add32v l (madd16 v (set1_16 (asI16 t.cr)))) rnd),
    srai32 13 (add32v (add32v (add32v l (madd16 v (set1_16 (-(asI16 t.g1)))))
      (madd16 u (set1_16 (-(asI16 t.g2))))) rnd),
    srai32 13 (add32v (add32v l (madd16 u (set1_16 (asI16 t.cb)))) rnd))

/-- The 8-pixel body of `sse_yuv_nv_p16_to_rgba_row_impl`,
/repo/src/sse/yuv_nv_p16_to_rgb.rs:133-267. -/
def sseNvDeepBody (o : NVOrder) (s : Sampling) (e : Endianness) (bp : BytesPacking) (d : Nat)
    (ch : Channels) (rg : ChromaRange) (t : InvCoef) (y uv : Buf) (cx ux p : Nat) (row : Buf) :
    Outcome Buf := do
  let yv ← load16 8 y cx
  let c ← nvLoad16 s o uv ux
  let y := subsU16 (nativeReg e bp d yv) (set1_16 rg.biasY)
  let u := nvSpread s (nvCentre e bp d rg c.1)
  let v := nvSpread s (nvCentre e bp d rg c.2)
  let hi := nvSums t (unpackhi 2 y zero) u.2 v.2
  let lo := nvSums t (unpacklo 2 y zero) u.1 v.1
  let lim := fun x => minU16 x (set1_16 (2 ^ d - 1))
  sseStore16 ch p (lim (packus32 lo.1 hi.1)) (lim (packus32 lo.2.1 hi.2.1))
    (lim (packus32 lo.2.2 hi.2.2)) (set1_16 (2 ^ d - 1)) row

/-- Models `sse_yuv_nv_p16_to_rgba_row_impl`, /repo/src/sse/yuv_nv_p16_to_rgb.rs:77-281. -/
def sseNvDeepRow (o : NVOrder) (s : Sampling) (e : Endianness) (bp : BytesPacking) (d : Nat)
    (ch : Channels) (rg : ChromaRange) (t : InvCoef) (width : Nat) (y uv row : Buf) (cx ux : Nat) :
    Outcome (Buf × Nat × Nat) :=
  vwhile 8 (nvStep s 8) width
    (fun cx ux row => sseNvDeepBody o s e bp d ch rg t y uv cx ux (cx * ch.count) row) cx ux row

/-- Models `process_wide_row`, /repo/src/yuv_nv_p16_to_rgb16.rs:127-155 (processors with AVX2 also
have SSE4.1). -/
def nvDeepHandler (cpu : Cpu) (o : NVOrder) (s : Sampling) (e : Endianness) (bp : BytesPacking)
    (d : Nat) (ch : Channels) (rg : ChromaRange) (t : InvCoef) (width : Nat) : RowHandlerNV :=
  fun y uv row =>
    match cpu with
    | .avx2 | .sse41 => done (sseNvDeepRow o s e bp d ch rg t width y uv row 0 0)
    | .plain => noSimdNV y uv row

/-- The decoder of 10- and 12-bit semi-planar images to RGB of the same depth on a processor of
class `cpu`: `yuv_nv_p16_to_image_impl`, /repo/src/yuv_nv_p16_to_rgb16.rs:41-407. -/
def nvP16ToRgb16On (cpu : Cpu) (o : NVOrder) (e : Endianness) (bp : BytesPacking) (d : Nat)
    (ch : Channels) (s : Sampling) (i : BiPlanar) (rgba : Buf) (stride : Nat) (rg : YuvRange)
    (m : Matrix) : Outcome Buf :=
  nvP16ToRgb16 x64 o e bp d ch s
    (nvDeepHandler cpu o s e bp d ch (getYuvRange d rg) (searchInverse 13 d rg m) i.width) i rgba
    stride rg m

end Verif.X86
