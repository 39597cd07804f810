import Verif.Model.X86Deep8
import Verif.Model.NeonEncode
/-!
# 64-bit ARM with NEON: the planar 10- and 12-bit to 8-bit decoders

/repo/src/neon/yuv_p16_to_rgba8.rs, with the dispatch of `yuv_p16_to_image_ant`
(/repo/src/yuv_p10_rgba.rs:231-257).  Eight pixels per step; the last one to eight pixels of a row are left to
the portable code.  Registers and intrinsics as in Verif.Model.Neon.  The byte swaps are compiled with the
feature `big_endian` only; the model has it on.
-/
namespace Verif.Neon
open X86

/-- `vzip1_s16(a, a)` and `vzip2_s16(a, a)` of four words, one after the other. -/
def twice16 (a : Reg) : Reg := mk16 fun k => s16 a (k / 2)

/-- `vqrshrun_n_s32::<q>` of two registers and `vcombine_u16` of the results: rounded, ties up, saturated to
`u16`. -/
def qrshrun (q : Nat) (lo hi : Reg) : Reg := mk16 fun j =>
  max 0 (min ((if j < 4 then s32 lo j + 2 ^ (q - 1) else s32 hi (j - 4) + 2 ^ (q - 1)) / 2 ^ q) 65535)

/-- Models `vpackq_n_shift16`, /repo/src/neon/utils.rs:665-678. -/
def packShift (d : Nat) (a : Reg) : Reg :=
  if d = 10 then qshrn16 2 a else if d = 12 then qshrn16 4 a else if d = 14 then qshrn16 6 a
  else if d = 16 then qshrn16 8 a else qshrn16 0 a

/-- Chroma words of eight pixels, the offset removed: /repo/src/neon/yuv_p16_to_rgba8.rs:86-124.
`vldq_s16_endian` and `vld_s16_endian`, /repo/src/neon/utils.rs:264-325, load eight or four words and bring
them to native form. -/
def deepChroma (s : Sampling) (e : Endianness) (bp : BytesPacking) (d : Nat) (rg : ChromaRange) (c : Buf)
    (ux : Nat) : Outcome Reg :=
  match s with
  | .yuv420 | .yuv422 => do
    let r ← load16 4 c ux
    return twice16 (sub16 (nativeReg e bp d r) (set1_16 rg.biasUv))
  | .yuv444 => do
    let r ← load16 8 c ux
    return sub16 (nativeReg e bp d r) (set1_16 rg.biasUv)

/-- Luma times its weight, `vmull_laneq_s16` (`o` = 0) and `vmull_high_laneq_s16` (4):
/repo/src/neon/yuv_p16_to_rgba8.rs:126-127. -/
def deepY (o : Nat) (t : InvCoef) (y : Reg) : Reg := mk32 fun j => s16 y (o + j) * asI16 t.y

/-- Red, green and blue words from luma and chroma words without their offsets:
/repo/src/neon/yuv_p16_to_rgba8.rs:62-71 (the weights) and 126-142. -/
def deepWords (q : Nat) (t : InvCoef) (y u v : Reg) : Reg × Reg × Reg :=
  let r := fun o => mlal o (deepY o t y) v (asI16 t.cr)
  let b := fun o => mlal o (deepY o t y) u (asI16 t.cb)
  let g := fun o => mlal o (mlal o (deepY o t y) v (asI16 (-t.g1))) u (asI16 (-t.g2))
  (qrshrun q (r 0) (r 4), qrshrun q (g 0) (g 4), qrshrun q (b 0) (b 4))

/-- The body of the loop: /repo/src/neon/yuv_p16_to_rgba8.rs:79-154. -/
def deep8Body (s : Sampling) (e : Endianness) (bp : BytesPacking) (d : Nat) (ch : Channels)
    (rg : ChromaRange) (t : InvCoef) (y u v : Buf) (cx ux p : Nat) (row : Buf) : Outcome Buf := do
  let yv ← load16 8 y cx
  let uv ← deepChroma s e bp d rg u ux
  let vv ← deepChroma s e bp d rg v ux
  let c := deepWords 13 t (subsU16 (nativeReg e bp d yv) (set1_16 rg.biasY)) uv vv
  storeRgb 8 ch p (packShift d c.1) (packShift d c.2.1) (packShift d c.2.2) (set1_8 255) row

/-- Models `neon_yuv_p16_to_rgba_row`, /repo/src/neon/yuv_p16_to_rgba8.rs:37-170. -/
def deep8Row (s : Sampling) (e : Endianness) (bp : BytesPacking) (d : Nat) (ch : Channels)
    (rg : ChromaRange) (t : InvCoef) (width : Nat) (y u v row : Buf) (cx ux : Nat) :
    Outcome (Buf × Nat × Nat) :=
  vwhile 8 (chromaStep s 8) width
    (fun cx ux row => deep8Body s e bp d ch rg t y u v cx ux (cx * ch.count) row) cx ux row

/-- Models `process_wide_row`, /repo/src/yuv_p10_rgba.rs:154-257, on 64-bit ARM. -/
def deep8Handler (s : Sampling) (e : Endianness) (bp : BytesPacking) (d : Nat) (ch : Channels)
    (rg : ChromaRange) (t : InvCoef) (width : Nat) : RowHandler := fun y u v row =>
  done (deep8Row s e bp d ch rg t width y u v row 0 0)

/-- `yuv_p16_to_image_ant` (`Verif.p16ToRgb8`) on 64-bit ARM. -/
def p16ToRgb8 (e : Endianness) (bp : BytesPacking) (d : Nat) (ch : Channels)
    (s : Sampling) (i : Planar) (rgba : Buf) (stride : Nat) (rg : YuvRange) (m : Matrix) :
    Outcome Buf :=
  Verif.p16ToRgb8 x64 e bp d ch s
    (deep8Handler s e bp d ch (getYuvRange d rg) (p10Inverse d rg m) i.width) i rgba stride rg m

end Verif.Neon
