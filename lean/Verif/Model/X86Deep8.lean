import Verif.Model.X86Deep
import Verif.Model.X86YuyRgb
/-!
# The planar 10- and 12-bit to 8-bit decoders for x86: AVX2 and SSE4.1

/repo/src/sse/yuv_p16_to_rgb8.rs and /repo/src/avx2/yuv_p16_to_rgb8.rs, with the
dispatch of `yuv_p16_to_image_ant` (/repo/src/yuv_p10_rgba.rs:154-257).  A
processor with AVX2 also has SSE4.1 and runs both kernels, one after the other.
The byte swaps are compiled with the feature `big_endian` only; the model has it
on.
-/
namespace Verif.X86

/-- Models `_mm_store_shr_epi16_epi8`, /repo/src/sse/utils.rs:731-743, and
`_mm256_store_shr_epi16_epi8`, /repo/src/avx2/avx2_utils.rs:882-894. -/
def storeShr (d : Nat) (a : Reg) : Reg :=
  if d = 10 then srai16 2 a else if d = 12 then srai16 4 a else if d = 14 then srai16 6 a
  else if d = 16 then srai16 8 a else a

/-- Red, green and blue words, brought to 8 bits and not yet packed, from luma words above their
offset and native chroma words: /repo/src/sse/yuv_p16_to_rgb8.rs:186-211 (with the subtraction of
the chroma bias, lines 158-183) and the same lines of /repo/src/avx2/yuv_p16_to_rgb8.rs. -/
def deep8Rgb (d : Nat) (rg : ChromaRange) (t : InvCoef) (yo u v : Reg) : Reg × Reg × Reg :=
  let u := slli16 2 (sub16 u (set1_16 rg.biasUv))
  let v := slli16 2 (sub16 v (set1_16 rg.biasUv))
  let yv := mulhrs16 (slli16 2 yo) (set1_16 (asI16 t.y))
  (storeShr d (add16 yv (mulhrs16 v (set1_16 (asI16 t.cr)))),
    storeShr d (add16 (add16 yv (mulhrs16 v (set1_16 (-(asI16 t.g1)))))
      (mulhrs16 u (set1_16 (-(asI16 t.g2))))),
    storeShr d (add16 yv (mulhrs16 u (set1_16 (asI16 t.cb)))))

/-- The 8-pixel body of `sse_yuv_p16_to_rgba8_row_impl`, /repo/src/sse/yuv_p16_to_rgb8.rs:130-220. -/
def sseDeep8Body (s : Sampling) (e : Endianness) (bp : BytesPacking) (d : Nat) (ch : Channels)
    (rg : ChromaRange) (t : InvCoef) (y u v : Buf) (cx ux p : Nat) (row : Buf) : Outcome Buf := do
  let yv ← load16 8 y cx
  let uv ← sseDeepChroma s e bp d u ux
  let vv ← sseDeepChroma s e bp d v ux
  let c := deep8Rgb d rg t (subsU16 (nativeReg e bp d yv) (set1_16 rg.biasY)) uv vv
  sseStoreHalf ch p (packus16 c.1 zero) (packus16 c.2.1 zero) (packus16 c.2.2 zero)
    (set1_16 (2 ^ d - 1)) row

/-- Models `sse_yuv_p16_to_rgba8_row_impl`, /repo/src/sse/yuv_p16_to_rgb8.rs:77-233. -/
def sseDeep8Row (s : Sampling) (e : Endianness) (bp : BytesPacking) (d : Nat) (ch : Channels)
    (rg : ChromaRange) (t : InvCoef) (width : Nat) (y u v row : Buf) (cx ux : Nat) :
    Outcome (Buf × Nat × Nat) :=
  vwhile 8 (chromaStep s 8) width
    (fun cx ux row => sseDeep8Body s e bp d ch rg t y u v cx ux (cx * ch.count) row) cx ux row

/-- The 32-pixel body of `avx_yuv_p16_to_rgba_row8_impl`,
/repo/src/avx2/yuv_p16_to_rgb8.rs:138-271. -/
def avx2Deep8Body2 (s : Sampling) (e : Endianness) (bp : BytesPacking) (d : Nat) (ch : Channels)
    (rg : ChromaRange) (t : InvCoef) (y u v : Buf) (cx ux p : Nat) (row : Buf) : Outcome Buf := do
  let y0 ← load16 16 y cx
  let y1 ← load16 16 y (cx + 16)
  let uv ← avx2DeepChroma2 s e bp d u ux
  let vv ← avx2DeepChroma2 s e bp d v ux
  let c0 := deep8Rgb d rg t (subsU16 (nativeReg e bp d y0) (set1_16 rg.biasY)) uv.1 vv.1
  let c1 := deep8Rgb d rg t (subsU16 (nativeReg e bp d y1) (set1_16 rg.biasY)) uv.2 vv.2
  avx2Store ch p (avx2PackU16 c0.1 c1.1) (avx2PackU16 c0.2.1 c1.2.1) (avx2PackU16 c0.2.2 c1.2.2)
    (set1_16 (2 ^ d - 1)) row

/-- The 16-pixel body of `avx_yuv_p16_to_rgba_row8_impl`,
/repo/src/avx2/yuv_p16_to_rgb8.rs:284-375. -/
def avx2Deep8Body (s : Sampling) (e : Endianness) (bp : BytesPacking) (d : Nat) (ch : Channels)
    (rg : ChromaRange) (t : InvCoef) (y u v : Buf) (cx ux p : Nat) (row : Buf) : Outcome Buf := do
  let yv ← load16 16 y cx
  let uv ← avx2DeepChroma s e bp d u ux
  let vv ← avx2DeepChroma s e bp d v ux
  let c := deep8Rgb d rg t (subsU16 (nativeReg e bp d yv) (set1_16 rg.biasY)) uv vv
  avx2StoreHalf ch p (avx2PackU16 c.1 zero) (avx2PackU16 c.2.1 zero) (avx2PackU16 c.2.2 zero)
    (set1_16 (2 ^ d - 1)) row

/-- Models `avx_yuv_p16_to_rgba_row8_impl`, /repo/src/avx2/yuv_p16_to_rgb8.rs:78-388. -/
def avx2Deep8Row (s : Sampling) (e : Endianness) (bp : BytesPacking) (d : Nat) (ch : Channels)
    (rg : ChromaRange) (t : InvCoef) (width : Nat) (y u v row : Buf) (cx ux : Nat) :
    Outcome (Buf × Nat × Nat) := do
  let r ← vwhile 32 (chromaStep s 32) width
    (fun cx ux row => avx2Deep8Body2 s e bp d ch rg t y u v cx ux (cx * ch.count) row) cx ux row
  vwhile 16 (chromaStep s 16) width
    (fun cx ux row => avx2Deep8Body s e bp d ch rg t y u v cx ux (cx * ch.count) row) r.2.1 r.2.2 r.1

/-- Models `process_wide_row`, /repo/src/yuv_p10_rgba.rs:154-257 (the `nightly_avx512` feature is
off by default). -/
def deep8Handler (cpu : Cpu) (s : Sampling) (e : Endianness) (bp : BytesPacking) (d : Nat)
    (ch : Channels) (rg : ChromaRange) (t : InvCoef) (width : Nat) : RowHandler := fun y u v row =>
  match cpu with
  | .avx2 => done (do
    let r ← avx2Deep8Row s e bp d ch rg t width y u v row 0 0
    sseDeep8Row s e bp d ch rg t width y u v r.1 r.2.1 r.2.2)
  | .sse41 => done (sseDeep8Row s e bp d ch rg t width y u v row 0 0)
  | .plain => noSimd y u v row

/-- `yuv_p16_to_image_ant` (`Verif.p16ToRgb8`) on a processor. -/
def p16ToRgb8On (cpu : Cpu) (e : Endianness) (bp : BytesPacking) (d : Nat) (ch : Channels)
    (s : Sampling) (i : Planar) (rgba : Buf) (stride : Nat) (rg : YuvRange) (m : Matrix) :
    Outcome Buf :=
  p16ToRgb8 x64 e bp d ch s
    (deep8Handler cpu s e bp d ch (getYuvRange d rg) (p10Inverse d rg m) i.width) i rgba stride
    rg m

end Verif.X86
