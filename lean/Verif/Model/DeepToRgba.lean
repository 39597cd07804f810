import Verif.Model.NvToRgba
/-!
# 10- to 16-bit YCbCr to RGB

/repo/src/yuv_p16_rgba_p16.rs, /repo/src/yuv_nv_p16_to_rgb16.rs,
/repo/src/yuv_p10_rgba.rs and /repo/src/yuv_nv_p10_to_rgb.rs.  The four
converters share the loops of the 8-bit ones, except that the two rows of a
4:2:0 pair are treated one after the other by the single-row code.
-/
namespace Verif

/-- One pixel: samples to native order (`ne`), kernel, rounding shift `q`, cast and store.
/repo/src/yuv_p16_rgba_p16.rs:446-466, /repo/src/yuv_nv_p16_to_rgb16.rs:291-325,
/repo/src/yuv_p10_rgba.rs:357-377, /repo/src/yuv_nv_p10_to_rgb.rs:388-411.  The order of the
assignments of the bi-planar converters (blue first) is not kept. -/
def putDeep (q : Int → Outcome Int) (cast : Int → Nat) (ne : Nat → Nat) (t : InvCoef)
    (c : ChromaRange) (ch : Channels) (a : Nat) (y u v : Nat) (px : Buf) : Outcome Buf := do
  let (r, g, b) ← decodeRow q t c.biasY c.biasUv (ne y) (ne u) (ne v)
  storePix ch px (cast r) (cast g) (cast b) a

/-- The 4:2:0 branch, /repo/src/yuv_p16_rgba_p16.rs:499-557 and /repo/src/yuv_p10_rgba.rs:406-464:
pairs of rows, each row on its own, then the last row of an image of odd height. -/
def decode420Halved (guard : Bool) (cn : Nat) (put : Nat → Nat → Nat → Buf → Outcome Buf)
    (hd : RowHandler) (i : Planar) (rgba : Buf) (stride : Nat) : Outcome Buf := do
  let rgba ← eachChunk (stride * 2) 0
    (min4 (rgba.length / (stride * 2)) (i.y.length / (i.yStride * 2)) (i.u.length / i.uStride)
      (i.v.length / i.vStride))
    (fun r rows =>
      let yp := chunk (i.yStride * 2) i.y r
      eachChunk stride 0 (min (rows.length / stride) (yp.length / i.yStride))
        (fun j row => halvedSlice guard i.width cn put hd (chunk i.yStride yp j)
          (chunk i.uStride i.u r) (chunk i.vStride i.v r) row) rows) rgba
  if i.height % 2 = 0 then return rgba
  else do
    let u ← lastChunk i.uStride i.u
    let v ← lastChunk i.vStride i.v
    let y ← lastChunk i.yStride i.y
    onLastChunk stride (halvedSlice guard i.width cn put hd y u v) rgba

/-- The three branches of the planar converters, /repo/src/yuv_p16_rgba_p16.rs:410-560 and
/repo/src/yuv_p10_rgba.rs:332-467. -/
def deepFrame (guard : Bool) (cn : Nat) (put : Nat → Nat → Nat → Buf → Outcome Buf)
    (hd : RowHandler) (s : Sampling) (i : Planar) (rgba : Buf) (stride : Nat) : Outcome Buf :=
  match s with
  | .yuv444 => decode444 guard cn put hd i rgba stride
  | .yuv422 => decode422 guard cn put hd i rgba stride
  | .yuv420 => decode420Halved guard cn put hd i rgba stride

/-- Models `yuv_p16_to_image_p16_ant`, /repo/src/yuv_p16_rgba_p16.rs:261-563, which the
`i{0,2,4}{10,12,14,16}[_be]_to_rgb[a]{10,12,14,16}` functions call. -/
def p16ToRgb16 (tg : Target) (e : Endianness) (bp : BytesPacking) (d : Nat) (ch : Channels)
    (s : Sampling) (hd : RowHandler) (i : Planar) (rgba : Buf) (stride : Nat) (rg : YuvRange)
    (m : Matrix) : Outcome Buf := do
  i.check tg s
  checkRgba tg rgba.length stride i.width i.height ch.count
  let c := getYuvRange d rg
  let t := searchInverse 13 d rg m
  let put := putDeep (qrshr 13 d) asU16 (fun v => toNe e bp v (16 - d)) t c ch (2 ^ d - 1)
  deepFrame true ch.count put hd s i rgba stride

/-- The coefficients of /repo/src/yuv_p10_rgba.rs:81-96: the stored tables, else a transform
computed with the bit depth itself in place of the largest RGB value. -/
def p10Inverse (d : Nat) (rg : YuvRange) (m : Matrix) : InvCoef :=
  match builtInverse 13 d rg m with
  | some t => t
  | none =>
    let c := getYuvRange d rg
    (getInverseTransform d c.rangeY c.rangeUv m.krKb.1 m.krKb.2).toIntegers 13

/-- The local `qrshr` of /repo/src/yuv_p10_rgba.rs:144-152: the shift brings the value to 8 bits,
the upper clamp is that of the source depth. -/
def p10Qrshr (d : Nat) (v : Int) : Outcome Int := do
  let s ← add32 v (2 ^ (13 + (d - 8) - 1))
  return max (min (sar s (13 + (d - 8))) (2 ^ d - 1)) 0

/-- Models `yuv_p16_to_image_ant`, /repo/src/yuv_p10_rgba.rs:51-468, which the
`i{0,2,4}{10,12}[_be]_to_{rgb,rgba,bgr,bgra}` functions call (the assertion that the depth is 10
or 12 always holds there). -/
def p16ToRgb8 (tg : Target) (e : Endianness) (bp : BytesPacking) (d : Nat) (ch : Channels)
    (s : Sampling) (hd : RowHandler) (i : Planar) (rgba : Buf) (stride : Nat) (rg : YuvRange)
    (m : Matrix) : Outcome Buf := do
  i.check tg s
  checkRgba tg rgba.length stride i.width i.height ch.count
  let c := getYuvRange d rg
  let t := p10Inverse d rg m
  let put := putDeep (p10Qrshr d) asU8 (fun v => toNe e bp v (16 - d)) t c ch 255
  deepFrame false ch.count put hd s i rgba stride

/-- The 4:2:0 branch of the bi-planar converters, /repo/src/yuv_nv_p16_to_rgb16.rs:354-399 and
/repo/src/yuv_nv_p10_to_rgb.rs:437-477. -/
def nvDecode420Halved (guard : Bool) (cn : Nat) (o : NVOrder)
    (put : Nat → Nat → Nat → Buf → Outcome Buf) (hd : RowHandlerNV) (i : BiPlanar) (rgba : Buf)
    (stride : Nat) : Outcome Buf := do
  let rgba ← eachChunk (stride * 2) 0
    (min3 (rgba.length / (stride * 2)) (i.y.length / (i.yStride * 2)) (i.uv.length / i.uvStride))
    (fun r rows =>
      let yp := chunk (i.yStride * 2) i.y r
      eachChunk stride 0 (min (rows.length / stride) (yp.length / i.yStride))
        (fun j row => nvHalvedSlice guard i.width cn o put hd (chunk i.yStride yp j)
          (chunk i.uvStride i.uv r) row) rows) rgba
  if i.height % 2 = 0 then return rgba
  else do
    let uv ← lastChunk i.uvStride i.uv
    onRemainder (stride * 2)
      (nvHalvedSlice guard i.width cn o put hd (remainder (i.yStride * 2) i.y) uv) rgba

/-- The three branches of the bi-planar converters, /repo/src/yuv_nv_p16_to_rgb16.rs:275-402 and
/repo/src/yuv_nv_p10_to_rgb.rs:353-480. -/
def nvDeepFrame (guard : Bool) (cn : Nat) (o : NVOrder)
    (put : Nat → Nat → Nat → Buf → Outcome Buf) (hd : RowHandlerNV) (s : Sampling) (i : BiPlanar)
    (rgba : Buf) (stride : Nat) : Outcome Buf :=
  match s with
  | .yuv444 => nvDecode444 guard cn o put hd i rgba stride
  | .yuv422 => nvDecode422 guard cn o put hd i rgba stride
  | .yuv420 => nvDecode420Halved guard cn o put hd i rgba stride

/-- Models `yuv_nv_p16_to_image_impl`, /repo/src/yuv_nv_p16_to_rgb16.rs:41-407, which the
`p{010,210,410,012,212,412}_to_rgb[a]{10,12}` functions call. -/
def nvP16ToRgb16 (tg : Target) (o : NVOrder) (e : Endianness) (bp : BytesPacking) (d : Nat)
    (ch : Channels) (s : Sampling) (hd : RowHandlerNV) (i : BiPlanar) (rgba : Buf) (stride : Nat)
    (rg : YuvRange) (m : Matrix) : Outcome Buf := do
  i.check tg s
  checkRgba tg rgba.length stride i.width i.height ch.count
  let c := getYuvRange d rg
  let t := searchInverse 13 d rg m
  let put := putDeep (fun v => qrshrN 13 v (2 ^ d - 1)) asU16 (fun v => toNe e bp v (16 - d)) t c ch
    (2 ^ d - 1)
  nvDeepFrame false ch.count o put hd s i rgba stride

/-- The precision `yuv_nv_p10_to_image_impl` picks for a conversion mode,
/repo/src/yuv_nv_p10_to_rgb.rs:501-577. -/
def nvP10Precision : Mode → Nat
  | .fast => 13
  | .balanced => 13
  | .professional => 14

/-- Models `yuv_nv_p10_to_image_impl_d` and its caller, /repo/src/yuv_nv_p10_to_rgb.rs:211-484 and
486-578, which the `p{010,210,410}_to_{rgb,rgba,bgr,bgra}` functions call: depth 10, the shift
`V_R_SHR` is the precision plus two. -/
def nvP10ToRgb8 (tg : Target) (md : Mode) (o : NVOrder) (e : Endianness) (bp : BytesPacking)
    (ch : Channels) (s : Sampling) (hd : RowHandlerNV) (i : BiPlanar) (rgba : Buf) (stride : Nat)
    (rg : YuvRange) (m : Matrix) : Outcome Buf := do
  i.check tg s
  checkRgba tg rgba.length stride i.width i.height ch.count
  let c := getYuvRange 10 rg
  let t := searchInverse (nvP10Precision md) 10 rg m
  let put := putDeep (qrshr (nvP10Precision md + 2) 8) asU8 (fun v => toNe e bp v (16 - 10)) t c ch
    255
  nvDeepFrame true ch.count o put hd s i rgba stride

end Verif
