import Verif.Model.RgbaToYuv
/-!
# 10- to 16-bit RGB to YCbCr: /repo/src/rgb16_to_yuv_p16.rs, /repo/src/rgb_to_nv_p16.rs

The two encoders share the loops of the 8-bit ones (`Model/EncodeLoops.lean`).
-/
namespace Verif

/-- Models `transform_integer`, /repo/src/rgb16_to_yuv_p16.rs:44-60 and
/repo/src/rgb_to_nv_p16.rs:43-59, on a little-endian host: `v << (16 - BIT_DEPTH)` in the
most-significant-bits packing (the shift drops overflowing bits silently), `as u16`, byte order. -/
def transformInteger (e : Endianness) (bp : BytesPacking) (d : Nat) (v : Int) : Nat :=
  let packed := match bp with
    | .msb => asU16 (v * 2 ^ (16 - d))
    | .lsb => asU16 v
  fromEndian e packed

/-- Models `rgbx_to_yuv_ant`, /repo/src/rgb16_to_yuv_p16.rs:483-833, which the
`rgb[a]{10,12,14,16}_to_i{0,2,4}{10,12,14,16}[_be]` functions call with precision 15 and the
least-significant-bits packing (lines 866-877).  The result is the image with its planes updated. -/
def rgb16ToP16 (tg : Target) (e : Endianness) (bp : BytesPacking) (d : Nat) (ch : Channels)
    (s : Sampling) (hd : RowEncoder) (hd2 : RowEncoder420) (i : Planar) (rgba : Buf) (stride : Nat)
    (rg : YuvRange) (m : Matrix) : Outcome Planar := do
  i.check tg s
  checkRgba tg rgba.length stride i.width i.height ch.count
  let E := linBlocks (transformInteger e bp d) 1 true 15 (computedForward 15 d rg m)
    (getYuvRange d rg) ch
  let (y, u, v) ← match s with
    | .yuv444 => encode444 ch.count E hd i rgba stride
    | .yuv422 => encode422 false ch.count E hd i rgba stride
    | .yuv420 => encode420 false ch.count E hd hd2 i rgba stride
  return { i with y, u, v }

/-- `CbCrForwardTransform::cast::<i16>`, /repo/src/yuv_support.rs:173-188. -/
def FwdCoef.castI16 (t : FwdCoef) : FwdCoef :=
  ⟨asI16 t.yr, asI16 t.yg, asI16 t.yb, asI16 t.cbR, asI16 t.cbG, asI16 t.cbB, asI16 t.crR,
    asI16 t.crG, asI16 t.crB⟩

/-- Models `rgbx_to_yuv_bi_planar_10_impl`, /repo/src/rgb_to_nv_p16.rs:61-452, which the
`rgb[a]{10,12,16}_to_p{0,2,4}{10,12,16}` functions call.  The coefficients are stored as `i16` at
depths 10 and 12 and as `i32` at depth 16 (the last macro argument, lines 506-628).  There is no
vector code. -/
def rgb16ToNvP16 (tg : Target) (o : NVOrder) (e : Endianness) (bp : BytesPacking) (d : Nat)
    (ch : Channels) (s : Sampling) (i : BiPlanar) (rgba : Buf) (stride : Nat) (rg : YuvRange)
    (m : Matrix) : Outcome BiPlanar := do
  i.check tg s
  checkRgba tg rgba.length stride i.width i.height ch.count
  let t := computedForward 15 d rg m
  let t := if d = 16 then t else t.castI16
  let E := linBlocks (transformInteger e bp d) 1 false 15 t (getYuvRange d rg) ch
  let (y, uv) ← match s with
    | .yuv444 => nvEncode444 ch.count o E noEncNV i rgba stride
    | .yuv422 => nvEncode422 ch.count o E noEncNV i rgba stride
    | .yuv420 => nvEncode420 true ch.count o E noEncNV noEncNV420 i rgba stride
  return { i with y, uv }

/-- The public functions of /repo/src/rgb_to_nv_p16.rs:501-628: every one fixes the UV order,
little-endian words and the most-significant-bits packing.  The sampling argument is the one the
macro passes on: the functions called `rgb16_to_p216` and `rgba16_to_p216` pass 4:2:0
(lines 610-628). -/
def rgb16ToP216 (tg : Target) (ch : Channels) (i : BiPlanar) (rgba : Buf) (stride : Nat)
    (rg : YuvRange) (m : Matrix) : Outcome BiPlanar :=
  rgb16ToNvP16 tg .uv .little .msb 16 ch .yuv420 i rgba stride rg m

end Verif
