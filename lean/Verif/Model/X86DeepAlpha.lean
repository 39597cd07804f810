import Verif.Model.X86Deep8
import Verif.Model.AlphaToRgba
/-!
# The planar 10- and 12-bit decoders with an alpha plane for x86: AVX2 and SSE4.1

/repo/src/sse/yuv_p16_to_rgb16_alpha.rs and /repo/src/avx2/yuv_p16_to_rgb16_alpha.rs, with the
dispatch of /repo/src/yuv_p16_rgba16_alpha.rs:135-219, and /repo/src/sse/yuv_p16_to_rgb8_alpha.rs
and /repo/src/avx2/yuv_p16_to_rgb8_alpha.rs, with the dispatch of
/repo/src/yuv_p16_rgba_alpha.rs:112-178.  A processor with AVX2 runs both kernels, one after the
other.  The byte swaps are compiled with the feature `big_endian` only; the model has it on.
-/
namespace Verif.X86

/-! ## 16-bit targets -/

/-- Red, green and blue words from luma words above their offset and native chroma words:
/repo/src/avx2/yuv_p16_to_rgb16_alpha.rs:366-380 (with the subtraction of the chroma bias), and the
same operations on two registers, lines 215-270. -/
def shiftRgb (d : Nat) (rg : ChromaRange) (t : InvCoef) (yo u v : Reg) : Reg × Reg × Reg :=
  let yv := mulhrs16 (slli16 2 yo) (set1_16 (asI16 t.y))
  let u := slli16 2 (sub16 u (set1_16 rg.biasUv))
  let v := slli16 2 (sub16 v (set1_16 rg.biasUv))
  let lim := fun x => minU16 (max16 x zero) (set1_16 (2 ^ d - 1))
  (lim (add16 yv (mulhrs16 v (set1_16 (asI16 t.cr)))),
    lim (add16 (add16 yv (mulhrs16 v (set1_16 (-(asI16 t.g1))))) (mulhrs16 u (set1_16 (-(asI16 t.g2))))),
    lim (add16 yv (mulhrs16 u (set1_16 (asI16 t.cb)))))

/-- The 8-pixel body of `sse_yuv_p16_to_rgba_alpha_row_impl`,
/repo/src/sse/yuv_p16_to_rgb16_alpha.rs:137-218. -/
def sseDeepAlphaBody (s : Sampling) (e : Endianness) (bp : BytesPacking) (d : Nat) (ch : Channels)
    (rg : ChromaRange) (t : InvCoef) (y u v a : Buf) (cx ux p : Nat) (row : Buf) : Outcome Buf := do
  let yv ← load16 8 y cx
  let uv ← sseDeepChroma s e bp d u ux
  let vv ← sseDeepChroma s e bp d v ux
  let c := deepRgb d rg t (nativeReg e bp d yv) uv vv
  let av ← load16 8 a cx
  sseStore16 ch p c.1 c.2.1 c.2.2 av row

/-- Models `sse_yuv_p16_to_rgba_alpha_row_impl`, /repo/src/sse/yuv_p16_to_rgb16_alpha.rs:75-232. -/
def sseDeepAlphaRow (s : Sampling) (e : Endianness) (bp : BytesPacking) (d : Nat) (ch : Channels)
    (rg : ChromaRange) (t : InvCoef) (width : Nat) (y u v a row : Buf) (cx ux : Nat) :
    Outcome (Buf × Nat × Nat) :=
  vwhile 8 (chromaStep s 8) width
    (fun cx ux row => sseDeepAlphaBody s e bp d ch rg t y u v a cx ux (cx * ch.count) row) cx ux row

/-- The 32-pixel body of `avx_yuv_p16_to_rgba_row_alpha_impl`,
/repo/src/avx2/yuv_p16_to_rgb16_alpha.rs:143-289.  Both alpha registers are loaded from `cx`
(lines 272-273). -/
def avx2DeepAlphaBody2 (s : Sampling) (e : Endianness) (bp : BytesPacking) (d : Nat) (ch : Channels)
    (rg : ChromaRange) (t : InvCoef) (y u v a : Buf) (cx ux p : Nat) (row : Buf) : Outcome Buf := do
  let y0 ← load16 16 y cx
  let y1 ← load16 16 y (cx + 16)
  let uv ← avx2DeepChroma2 s e bp d u ux
  let vv ← avx2DeepChroma2 s e bp d v ux
  let c0 := shiftRgb d rg t (subsU16 (nativeReg e bp d y0) (set1_16 rg.biasY)) uv.1 vv.1
  let c1 := shiftRgb d rg t (subsU16 (nativeReg e bp d y1) (set1_16 rg.biasY)) uv.2 vv.2
  let a0 ← load16 16 a cx
  let a1 ← load16 16 a cx
  let row ← avx2Store16 ch p c0.1 c0.2.1 c0.2.2 a0 row
  avx2Store16 ch (p + 16 * ch.count) c1.1 c1.2.1 c1.2.2 a1 row

/-- The 16-pixel body of `avx_yuv_p16_to_rgba_row_alpha_impl`,
/repo/src/avx2/yuv_p16_to_rgb16_alpha.rs:304-390.  The luma offset is subtracted without
saturation (line 314). -/
def avx2DeepAlphaBody (s : Sampling) (e : Endianness) (bp : BytesPacking) (d : Nat) (ch : Channels)
    (rg : ChromaRange) (t : InvCoef) (y u v a : Buf) (cx ux p : Nat) (row : Buf) : Outcome Buf := do
  let yv ← load16 16 y cx
  let uv ← avx2DeepChroma s e bp d u ux
  let vv ← avx2DeepChroma s e bp d v ux
  let c := shiftRgb d rg t (sub16 (nativeReg e bp d yv) (set1_16 rg.biasY)) uv vv
  let av ← load16 16 a cx
  avx2Store16 ch p c.1 c.2.1 c.2.2 av row

/-- Models `avx_yuv_p16_to_rgba_row_alpha_impl`, /repo/src/avx2/yuv_p16_to_rgb16_alpha.rs:77-404. -/
def avx2DeepAlphaRow (s : Sampling) (e : Endianness) (bp : BytesPacking) (d : Nat) (ch : Channels)
    (rg : ChromaRange) (t : InvCoef) (width : Nat) (y u v a row : Buf) (cx ux : Nat) :
    Outcome (Buf × Nat × Nat) := do
  let r ← vwhile 32 (chromaStep s 32) width
    (fun cx ux row => avx2DeepAlphaBody2 s e bp d ch rg t y u v a cx ux (cx * ch.count) row) cx ux row
  vwhile 16 (chromaStep s 16) width
    (fun cx ux row => avx2DeepAlphaBody s e bp d ch rg t y u v a cx ux (cx * ch.count) row)
    r.2.1 r.2.2 r.1

/-- Models `process_wide_row`, /repo/src/yuv_p16_rgba16_alpha.rs:135-219: vector code up to 12 bits
only. -/
def deepAlphaHandler (cpu : Cpu) (s : Sampling) (e : Endianness) (bp : BytesPacking) (d : Nat)
    (ch : Channels) (rg : ChromaRange) (t : InvCoef) (width : Nat) : AlphaHandler := fun y u v a row =>
  match cpu with
  | .avx2 =>
    if d ≤ 12 then done (do
      let r ← avx2DeepAlphaRow s e bp d ch rg t width y u v a row 0 0
      sseDeepAlphaRow s e bp d ch rg t width y u v a r.1 r.2.1 r.2.2)
    else noAlphaSimd y u v a row
  | .sse41 =>
    if d ≤ 12 then done (sseDeepAlphaRow s e bp d ch rg t width y u v a row 0 0)
    else noAlphaSimd y u v a row
  | .plain => noAlphaSimd y u v a row

/-- `yuv_p16_to_image_alpha_ant` of 16-bit targets (`Verif.p16AlphaToRgb16`) on a processor. -/
def p16AlphaToRgb16On (cpu : Cpu) (e : Endianness) (bp : BytesPacking) (d : Nat) (ch : Channels)
    (s : Sampling) (i : PlanarAlpha) (rgba : Buf) (stride : Nat) (rg : YuvRange) (m : Matrix) :
    Outcome Buf :=
  p16AlphaToRgb16 x64 e bp d ch s
    (deepAlphaHandler cpu s e bp d ch (getYuvRange d rg) (searchInverse 13 d rg m) i.width) i rgba
    stride rg m

/-! ## 8-bit targets -/

/-- The 8-pixel body of `sse_yuv_p16_to_rgba8_alpha_row_impl`,
/repo/src/sse/yuv_p16_to_rgb8_alpha.rs:133-226.  The store is the one for 16 pixels. -/
def sseDeepAlpha8Body (s : Sampling) (e : Endianness) (bp : BytesPacking) (d : Nat) (ch : Channels)
    (rg : ChromaRange) (t : InvCoef) (y u v a : Buf) (cx ux p : Nat) (row : Buf) : Outcome Buf := do
  let yv ← load16 8 y cx
  let uv ← sseDeepChroma s e bp d u ux
  let vv ← sseDeepChroma s e bp d v ux
  let c := deep8Rgb d rg t (subsU16 (nativeReg e bp d yv) (set1_16 rg.biasY)) uv vv
  let av ← load16 8 a cx
  sseStore ch p (packus16 c.1 zero) (packus16 c.2.1 zero) (packus16 c.2.2 zero)
    (packus16 (storeShr d av) zero) row

/-- Models `sse_yuv_p16_to_rgba8_alpha_row_impl`, /repo/src/sse/yuv_p16_to_rgb8_alpha.rs:75-240. -/
def sseDeepAlpha8Row (s : Sampling) (e : Endianness) (bp : BytesPacking) (d : Nat) (ch : Channels)
    (rg : ChromaRange) (t : InvCoef) (width : Nat) (y u v a row : Buf) (cx ux : Nat) :
    Outcome (Buf × Nat × Nat) :=
  vwhile 8 (chromaStep s 8) width
    (fun cx ux row => sseDeepAlpha8Body s e bp d ch rg t y u v a cx ux (cx * ch.count) row) cx ux row

/-- The 32-pixel body of `avx_yuv_p16_to_rgba8_row_alpha_impl`,
/repo/src/avx2/yuv_p16_to_rgb8_alpha.rs:143-284.  Both alpha registers are loaded from `cx`
(lines 256-263). -/
def avx2DeepAlpha8Body2 (s : Sampling) (e : Endianness) (bp : BytesPacking) (d : Nat) (ch : Channels)
    (rg : ChromaRange) (t : InvCoef) (y u v a : Buf) (cx ux p : Nat) (row : Buf) : Outcome Buf := do
  let y0 ← load16 16 y cx
  let y1 ← load16 16 y (cx + 16)
  let uv ← avx2DeepChroma2 s e bp d u ux
  let vv ← avx2DeepChroma2 s e bp d v ux
  let c0 := deep8Rgb d rg t (subsU16 (nativeReg e bp d y0) (set1_16 rg.biasY)) uv.1 vv.1
  let c1 := deep8Rgb d rg t (subsU16 (nativeReg e bp d y1) (set1_16 rg.biasY)) uv.2 vv.2
  let a0 ← load16 16 a cx
  let a1 ← load16 16 a cx
  avx2Store ch p (avx2PackU16 c0.1 c1.1) (avx2PackU16 c0.2.1 c1.2.1) (avx2PackU16 c0.2.2 c1.2.2)
    (avx2PackU16 (storeShr d a0) (storeShr d a1)) row

/-- The 16-pixel body of `avx_yuv_p16_to_rgba8_row_alpha_impl`,
/repo/src/avx2/yuv_p16_to_rgb8_alpha.rs:299-395.  The luma offset is subtracted without saturation
(line 310). -/
def avx2DeepAlpha8Body (s : Sampling) (e : Endianness) (bp : BytesPacking) (d : Nat) (ch : Channels)
    (rg : ChromaRange) (t : InvCoef) (y u v a : Buf) (cx ux p : Nat) (row : Buf) : Outcome Buf := do
  let yv ← load16 16 y cx
  let uv ← avx2DeepChroma s e bp d u ux
  let vv ← avx2DeepChroma s e bp d v ux
  let c := deep8Rgb d rg t (sub16 (nativeReg e bp d yv) (set1_16 rg.biasY)) uv vv
  let av ← load16 16 a cx
  avx2StoreHalf ch p (avx2PackU16 c.1 zero) (avx2PackU16 c.2.1 zero) (avx2PackU16 c.2.2 zero)
    (avx2PackU16 (storeShr d av) zero) row

/-- Models `avx_yuv_p16_to_rgba8_row_alpha_impl`, /repo/src/avx2/yuv_p16_to_rgb8_alpha.rs:78-409. -/
def avx2DeepAlpha8Row (s : Sampling) (e : Endianness) (bp : BytesPacking) (d : Nat) (ch : Channels)
    (rg : ChromaRange) (t : InvCoef) (width : Nat) (y u v a row : Buf) (cx ux : Nat) :
    Outcome (Buf × Nat × Nat) := do
  let r ← vwhile 32 (chromaStep s 32) width
    (fun cx ux row => avx2DeepAlpha8Body2 s e bp d ch rg t y u v a cx ux (cx * ch.count) row) cx ux row
  vwhile 16 (chromaStep s 16) width
    (fun cx ux row => avx2DeepAlpha8Body s e bp d ch rg t y u v a cx ux (cx * ch.count) row)
    r.2.1 r.2.2 r.1

/-- Models `process_wide_row`, /repo/src/yuv_p16_rgba_alpha.rs:112-202. -/
def deepAlpha8Handler (cpu : Cpu) (s : Sampling) (e : Endianness) (bp : BytesPacking) (d : Nat)
    (ch : Channels) (rg : ChromaRange) (t : InvCoef) (width : Nat) : AlphaHandler := fun y u v a row =>
  match cpu with
  | .avx2 => done (do
    let r ← avx2DeepAlpha8Row s e bp d ch rg t width y u v a row 0 0
    sseDeepAlpha8Row s e bp d ch rg t width y u v a r.1 r.2.1 r.2.2)
  | .sse41 => done (sseDeepAlpha8Row s e bp d ch rg t width y u v a row 0 0)
  | .plain => noAlphaSimd y u v a row

/-- `yuv_p16_to_image_alpha_ant` of 8-bit targets (`Verif.p16AlphaToRgb8`) on a processor. -/
def p16AlphaToRgb8On (cpu : Cpu) (e : Endianness) (bp : BytesPacking) (d : Nat) (ch : Channels)
    (s : Sampling) (i : PlanarAlpha) (rgba : Buf) (stride : Nat) (rg : YuvRange) (m : Matrix) :
    Outcome Buf :=
  p16AlphaToRgb8 x64 e bp d ch s
    (deepAlpha8Handler cpu s e bp d ch (getYuvRange d rg) (searchInverse 13 d rg m) i.width) i rgba
    stride rg m

end Verif.X86
