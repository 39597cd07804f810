import Verif.Model.NeonDeep16
import Verif.Model.X86NvDeep
/-!
# 64-bit ARM with NEON: semi-planar 10- and 12-bit YCbCr to RGB of the same depth

/repo/src/neon/yuv_nv_p16_to_rgb.rs, with its call in `yuv_nv_p16_to_image_impl`,
/repo/src/yuv_nv_p16_to_rgb16.rs:86-176.  Eight pixels per step while at least one follows; the portable code
does the rest of the row.
-/
namespace Verif.Neon
open X86

/-- `vmull_laneq_s16` (`o` = 0), `vmull_high_laneq_s16` (4). -/
def mullS (o : Nat) (v : Reg) (c : Int) : Reg := mk32 fun j => s16 v (o + j) * asI16 c

/-- `vqrshrun_n_s32::<q>` of two registers and `vcombine_u16` of the results. -/
def qrshrunS (q : Nat) (lo hi : Reg) : Reg := mk16 fun j =>
  max 0 (min (((if j < 4 then s32 lo j else s32 hi (j - 4)) + 2 ^ (q - 1)) / 2 ^ q) 65535)

/-- Red, green and blue words from native luma and chroma words: /repo/src/neon/yuv_nv_p16_to_rgb.rs:67-82
(constants), 98 and 106-128. -/
def nvWideWords (d : Nat) (rg : ChromaRange) (t : InvCoef) (y u v : Reg) : Reg × Reg × Reg :=
  let y := sub16 y (set1_16 rg.biasY)
  let u := sub16 u (set1_16 rg.biasUv)
  let v := sub16 v (set1_16 rg.biasUv)
  let l := fun o => mullS o y t.y
  let out := fun f : Nat → Reg => minU16 (qrshrunS 13 (f 0) (f 4)) (set1_16 (2 ^ d - 1))
  (out fun o => mlalS o (l o) v t.cr,
    out fun o => mlalS o (mlalS o (l o) v (-t.g1)) u (-t.g2),
    out fun o => mlalS o (l o) u t.cb)

/-- The chosen kernel, /repo/src/yuv_nv_p16_to_rgb16.rs:86-125; the one with rounding multiply-accumulate,
/repo/src/neon/yuv_nv_p16_to_rgb.rs:218-241, has the arithmetic of the planar one (`rdmWords`). -/
def nvDeep16Words (rdm : Bool) (d : Nat) (rg : ChromaRange) (t : InvCoef) :
    Reg → Reg → Reg → Reg × Reg × Reg :=
  if rdm = true ∧ d ≤ 12 then rdmWords d rg t else nvWideWords d rg t

/-- `vld2_u16` (`n` = 4) and `vld2q_u16` (8). -/
def ld2 (n : Nat) (l : Buf) (p : Nat) : Outcome (Reg × Reg) :=
  if p + 2 * n ≤ l.length then
    .ok (mk16 fun k => if k < n then (l.getD (p + 2 * k) 0 : Int) else 0,
      mk16 fun k => if k < n then (l.getD (p + (2 * k + 1)) 0 : Int) else 0)
  else .panic

/-- Native chroma words of 8 pixels, Cb and Cr: models `deinterleave_10_bit_uv`,
/repo/src/neon/yuv_nv_p10_to_rgba.rs:42-121, up to the subtraction of the offset, which acts on each word by
itself and is done in the arithmetic. -/
def nvChroma8 (s : Sampling) (o : NVOrder) (e : Endianness) (bp : BytesPacking) (d : Nat) (uv : Buf) (ux : Nat) :
    Outcome (Reg × Reg) :=
  match s with
  | .yuv420 | .yuv422 => do
    let r ← ld2 4 uv ux
    let c := swapUv o r
    let u := nativeReg e bp d c.1
    let v := nativeReg e bp d c.2
    return (unpacklo 2 u u, unpacklo 2 v v)
  | .yuv444 => do
    let r ← ld2 8 uv ux
    let c := swapUv o r
    return (nativeReg e bp d c.1, nativeReg e bp d c.2)

/-- Eight pixels: /repo/src/neon/yuv_nv_p16_to_rgb.rs:87-138 and 198-251. -/
def nvDeep16Body (K : Reg → Reg → Reg → Reg × Reg × Reg) (o : NVOrder) (s : Sampling) (e : Endianness)
    (bp : BytesPacking) (d : Nat) (ch : Channels) (y uv : Buf) (cx ux p : Nat) (row : Buf) : Outcome Buf := do
  let yv ← load16 8 y cx
  let c ← nvChroma8 s o e bp d uv ux
  let r := K (nativeReg e bp d yv) c.1 c.2
  storeRgb16 ch p r.1 r.2.1 r.2.2 (set1_16 (2 ^ d - 1)) row

/-- Models `neon_yuv_nv_p16_to_rgba_row` and `neon_yuv_nv_p16_to_rgba_row_rdm`,
/repo/src/neon/yuv_nv_p16_to_rgb.rs:40-152 and 154-269. -/
def nvDeep16Row (K : Reg → Reg → Reg → Reg × Reg × Reg) (o : NVOrder) (s : Sampling) (e : Endianness)
    (bp : BytesPacking) (d : Nat) (ch : Channels) (width : Nat) (y uv row : Buf) : Outcome (Buf × Nat × Nat) :=
  vwhile 8 (nvStep s 8) width
    (fun cx ux row => nvDeep16Body K o s e bp d ch y uv cx ux (cx * ch.count) row) 0 0 row

/-- Models `process_wide_row` on 64-bit ARM, /repo/src/yuv_nv_p16_to_rgb16.rs:158-176. -/
def nvDeep16Handler (rdm : Bool) (o : NVOrder) (s : Sampling) (e : Endianness) (bp : BytesPacking)
    (d : Nat) (ch : Channels) (rg : ChromaRange) (t : InvCoef) (width : Nat) : RowHandlerNV :=
  fun y uv row => done (nvDeep16Row (nvDeep16Words rdm d rg t) o s e bp d ch width y uv row)

/-- `yuv_nv_p16_to_image_impl` (`Verif.nvP16ToRgb16`) on 64-bit ARM. -/
def nvP16ToRgb16 (rdm : Bool) (o : NVOrder) (e : Endianness) (bp : BytesPacking) (d : Nat)
    (ch : Channels) (s : Sampling) (i : BiPlanar) (rgba : Buf) (stride : Nat) (rg : YuvRange)
    (m : Matrix) : Outcome Buf :=
  Verif.nvP16ToRgb16 x64 o e bp d ch s
    (nvDeep16Handler rdm o s e bp d ch (getYuvRange d rg) (searchInverse 13 d rg m) i.width) i rgba
    stride rg m

end Verif.Neon
