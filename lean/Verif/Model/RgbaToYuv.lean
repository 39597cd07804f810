import Verif.Model.EncodeLoops
import Verif.Model.Kernels
/-!
# 8-bit RGB to planar and semi-planar YCbCr: /repo/src/rgba_to_yuv.rs, /repo/src/rgba_to_nv.rs
-/
namespace Verif

/-- `src[get_r_channel_offset()] as i32` and the same for green and blue,
/repo/src/rgba_to_yuv.rs:716-718. -/
def readRgb (ch : Channels) (c : Buf) : Outcome (Int × Int × Int) := do
  let r ← idx c ch.rOff
  let g ← idx c ch.gOff
  let b ← idx c ch.bOff
  return ((r : Int), (g : Int), (b : Int))

/-- `(a + b + 1) >> 1` (with `rnd = 1`), /repo/src/rgba_to_yuv.rs:733-735; the last column of the
two-row path uses `(a + b) >> 1` (`rnd = 0`), 875-877. -/
def avg2 (rnd a b : Int) : Outcome Int := do
  let s ← add32 a b
  let s ← add32 s rnd
  return sar s 1

/-- `(a + b + c + d + 2) >> 2`, /repo/src/rgba_to_yuv.rs:835-837. -/
def avg4 (a b c d : Int) : Outcome Int := do
  let s ← add32 a b
  let s ← add32 s c
  let s ← add32 s d
  let s ← add32 s 2
  return sar s 2

/-- Luma of a pixel as stored; `cast` is the final conversion (`as u8` for the 8-bit encoders). -/
def lumaOf (cast : Int → Nat) (p : Nat) (t : FwdCoef) (biasY : Nat) (px : Int × Int × Int) :
    Outcome Nat := do
  let y ← encodeY p t biasY px.1 px.2.1 px.2.2
  return cast y

/-- Cb and Cr of an averaged pixel as stored. -/
def chromaOf (cast : Int → Nat) (p : Nat) (t : FwdCoef) (biasUv : Nat) (r g b : Int) :
    Outcome (Nat × Nat) := do
  let cb ← encodeCb p t biasUv r g b
  let cr ← encodeCr p t biasUv r g b
  return (cast cb, cast cr)

/-- The arithmetic of the 8-bit planar encoder: single pixels (/repo/src/rgba_to_yuv.rs:934-949),
pairs (714-744), last pixel (747-767), two-row blocks (792-846), last column of two rows (849-886).
The semi-planar encoder (/repo/src/rgba_to_nv.rs:630-657, 666-680, 709-752, 764-787, 831-844) and
the high bit depth encoder (/repo/src/rgb16_to_yuv_p16.rs:539-562, 567-586, 619-658, 662-694)
differ in `cast`, in `rnd`, the rounding term of the last column of two rows, and, for the high bit
depth planar encoder, in `bug11`: the second luma value of the second row is computed from the
second pixel of the *first* row (rgb16_to_yuv_p16.rs:645).  Where the code indexes the first pixel of
a chunk directly instead of through a subslice the result is the same. -/
def linBlocks (cast : Int → Nat) (rnd : Int) (bug11 : Bool) (p : Nat) (t : FwdCoef)
    (c : ChromaRange) (ch : Channels) : PixelBlocks where
  one px := do
    let a ← readRgb ch px
    let y ← lumaOf cast p t c.biasY a
    let (cb, cr) ← chromaOf cast p t c.biasUv a.1 a.2.1 a.2.2
    return (y, cb, cr)
  pair blk := do
    let s0 ← slice blk 0 ch.count
    let a ← readRgb ch s0
    let y0 ← lumaOf cast p t c.biasY a
    let s1 ← slice blk ch.count (ch.count * 2)
    let b ← readRgb ch s1
    let y1 ← lumaOf cast p t c.biasY b
    let r ← avg2 1 a.1 b.1
    let g ← avg2 1 a.2.1 b.2.1
    let bl ← avg2 1 a.2.2 b.2.2
    let (cb, cr) ← chromaOf cast p t c.biasUv r g bl
    return (y0, y1, cb, cr)
  tail px := do
    let a ← readRgb ch px
    let y ← lumaOf cast p t c.biasY a
    let (cb, cr) ← chromaOf cast p t c.biasUv a.1 a.2.1 a.2.2
    return (y, cb, cr)
  quad blk0 blk1 := do
    let s00 ← slice blk0 0 ch.count
    let a ← readRgb ch s00
    let y00 ← lumaOf cast p t c.biasY a
    let s01 ← slice blk0 ch.count (ch.count * 2)
    let b ← readRgb ch s01
    let y01 ← lumaOf cast p t c.biasY b
    let s10 ← slice blk1 0 ch.count
    let d ← readRgb ch s10
    let y10 ← lumaOf cast p t c.biasY d
    let s11 ← slice blk1 ch.count (ch.count * 2)
    let e ← readRgb ch s11
    let y11 ← lumaOf cast p t c.biasY (if bug11 then b else e)
    let r ← avg4 a.1 b.1 d.1 e.1
    let g ← avg4 a.2.1 b.2.1 d.2.1 e.2.1
    let bl ← avg4 a.2.2 b.2.2 d.2.2 e.2.2
    let (cb, cr) ← chromaOf cast p t c.biasUv r g bl
    return (y00, y01, y10, y11, cb, cr)
  tail2 px0 px1 := do
    let a ← readRgb ch px0
    let b ← readRgb ch px1
    let y0 ← lumaOf cast p t c.biasY a
    let y1 ← lumaOf cast p t c.biasY b
    let r ← avg2 rnd a.1 b.1
    let g ← avg2 rnd a.2.1 b.2.1
    let bl ← avg2 rnd a.2.2 b.2.2
    let (cb, cr) ← chromaOf cast p t c.biasUv r g bl
    return (y0, y1, cb, cr)

/-- The precision an 8-bit encoder picks for a conversion mode on x86 and on aarch64 with neon,
/repo/src/rgba_to_yuv.rs:1030-1084, /repo/src/rgba_to_nv.rs:920-984 (other targets use 13 for every
mode). -/
def encodePrecision : Mode → Nat
  | .fast => 7
  | .balanced => 13
  | .professional => 15

/-- Models `rgbx_to_yuv8_impl`, /repo/src/rgba_to_yuv.rs:668-1028.  The result is the image with
its three planes updated. -/
def rgbxToYuvImpl (tg : Target) (ch : Channels) (s : Sampling) (p : Nat) (hd : RowEncoder)
    (hd2 : RowEncoder420) (i : Planar) (rgba : Buf) (stride : Nat) (rg : YuvRange) (m : Matrix) :
    Outcome Planar := do
  checkRgba tg rgba.length stride i.width i.height ch.count
  i.check tg s
  let E := linBlocks asU8 0 false p (searchForward p 8 rg m) (getYuvRange 8 rg) ch
  let (y, u, v) ← match s with
    | .yuv444 => encode444 ch.count E hd i rgba stride
    | .yuv422 => encode422 true ch.count E hd i rgba stride
    | .yuv420 => encode420 true ch.count E hd hd2 i rgba stride
  return { i with y, u, v }

/-- Models `rgbx_to_yuv8`, /repo/src/rgba_to_yuv.rs:1030-1084, which all `rgb*_to_yuv4xx` functions
call. -/
def rgbxToYuv (tg : Target) (md : Mode) (ch : Channels) (s : Sampling) (hd : RowEncoder)
    (hd2 : RowEncoder420) (i : Planar) (rgba : Buf) (stride : Nat) (rg : YuvRange) (m : Matrix) :
    Outcome Planar :=
  rgbxToYuvImpl tg ch s (encodePrecision md) hd hd2 i rgba stride rg m

/-- Models `rgbx_to_nv_impl`, /repo/src/rgba_to_nv.rs:581-918. -/
def rgbxToNvImpl (tg : Target) (o : NVOrder) (ch : Channels) (s : Sampling) (p : Nat)
    (hd : RowEncoderNV) (hd2 : RowEncoderNV420) (i : BiPlanar) (rgba : Buf) (stride : Nat)
    (rg : YuvRange) (m : Matrix) : Outcome BiPlanar := do
  checkRgba tg rgba.length stride i.width i.height ch.count
  i.check tg s
  let E := linBlocks asU8 1 false p (searchForward p 8 rg m) (getYuvRange 8 rg) ch
  let (y, uv) ← match s with
    | .yuv444 => nvEncode444 ch.count o E hd i rgba stride
    | .yuv422 => nvEncode422 ch.count o E hd i rgba stride
    | .yuv420 => nvEncode420 false ch.count o E hd hd2 i rgba stride
  return { i with y, uv }

/-- Models `rgbx_to_nv`, /repo/src/rgba_to_nv.rs:920-984, which all `rgb*_to_yuv_nv*` functions
call. -/
def rgbxToNv (tg : Target) (md : Mode) (o : NVOrder) (ch : Channels) (s : Sampling)
    (hd : RowEncoderNV) (hd2 : RowEncoderNV420) (i : BiPlanar) (rgba : Buf) (stride : Nat)
    (rg : YuvRange) (m : Matrix) : Outcome BiPlanar :=
  rgbxToNvImpl tg o ch s (encodePrecision md) hd hd2 i rgba stride rg m

end Verif
