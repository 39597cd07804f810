import Verif.Model.Loops
import Verif.Model.Kernels
import Verif.Model.Checks
import Verif.Model.YuvToRgba
/-!
# 8-bit semi-planar YCbCr to RGB: /repo/src/yuv_nv_to_rgba.rs
-/
namespace Verif

/-- The vector code of one row (`RowBiPlanarInversionHandler`, /repo/src/internals.rs): luma row,
interleaved chroma row and destination row. -/
abbrev RowHandlerNV := Buf → Buf → Buf → Outcome (Buf × Nat)
/-- The vector code of a pair of rows (`RowBiPlanarInversion420Handler`). -/
abbrev RowHandlerNV420 := Buf → Buf → Buf → Buf → Buf → Outcome (Buf × Buf × Nat)
/-- No vector code for this target. -/
def noSimdNV : RowHandlerNV := fun _ _ row => .ok (row, 0)
/-- No vector code for this target. -/
def noSimdNV420 : RowHandlerNV420 := fun _ _ _ r0 r1 => .ok (r0, r1, 0)

/-- Pixel pair fetches of the halved and doubled rows, /repo/src/yuv_nv_to_rgba.rs:925-968 (and 789-872):
`e` is 0 for the first and 1 for the second pixel. -/
def nvPair (o : NVOrder) (put : Nat → Nat → Nat → Buf → Outcome Buf) (y uv : Buf) (e i : Nat)
    (c : Buf) : Outcome Buf := do
  let y0 ← idx y (2 * i + e)
  let u0 ← idx (chunk 2 uv i) o.uPos
  let v0 ← idx (chunk 2 uv i) o.vPos
  put y0 u0 v0 c

/-- Fetches of the last pixel of a row of odd width, /repo/src/yuv_nv_to_rgba.rs:970-993 (and 874-917). -/
def nvTail (o : NVOrder) (put : Nat → Nat → Nat → Buf → Outcome Buf) (y uv : Buf) (c : Buf) :
    Outcome Buf := do
  let l ← lastChunk 2 uv
  let y0 ← idx (remainder 2 y) 0
  let u0 ← idx l o.uPos
  let v0 ← idx l o.vPos
  put y0 u0 v0 c

/-- Models the closure `process_halved_chroma_row`, /repo/src/yuv_nv_to_rgba.rs:920-995. -/
def nvHalvedRow (guard : Bool) (w cn : Nat) (o : NVOrder) (put : Nat → Nat → Nat → Buf → Outcome Buf)
    (hd : RowHandlerNV) (y uv row : Buf) : Outcome Buf := do
  let (row, cx) ← hd y uv row
  rowPairsRem guard w cn cx (min3 (row.length / (2 * cn)) (y.length / 2) (uv.length / 2))
    (nvPair o put y uv 0) (nvPair o put y uv 1) (nvTail o put y uv) row

/-- Models the closure `process_double_chroma_row`, /repo/src/yuv_nv_to_rgba.rs:776-918.  The two
destination rows are filled by one loop in the code and by one loop each here; the trip count is
that of the common loop. -/
def nvDoubledRow (w cn : Nat) (o : NVOrder) (put : Nat → Nat → Nat → Buf → Outcome Buf)
    (hd : RowHandlerNV420) (y0 y1 uv row0 row1 : Buf) : Outcome (Buf × Buf) := do
  let (row0, row1, cx) ← hd y0 y1 uv row0 row1
  let k := min3 (min (row0.length / (2 * cn)) (row1.length / (2 * cn)))
    (min (y0.length / 2) (y1.length / 2)) (uv.length / 2)
  let r0 ← rowPairsRem true w cn cx k (nvPair o put y0 uv 0) (nvPair o put y0 uv 1)
    (nvTail o put y0 uv) row0
  let r1 ← rowPairsRem true w cn cx k (nvPair o put y1 uv 0) (nvPair o put y1 uv 1)
    (nvTail o put y1 uv) row1
  return (r0, r1)

/-- The 4:4:4 branch, /repo/src/yuv_nv_to_rgba.rs:1002-1056. -/
def nvDecode444 (guard : Bool) (cn : Nat) (o : NVOrder) (put : Nat → Nat → Nat → Buf → Outcome Buf)
    (hd : RowHandlerNV) (i : BiPlanar) (rgba : Buf) (stride : Nat) : Outcome Buf :=
  eachChunk stride 0
    (min3 (rgba.length / stride) (i.y.length / i.yStride) (i.uv.length / i.uvStride))
    (fun r row => do
      let y ← slice (chunk i.yStride i.y r) 0 i.width
      let uv := chunk i.uvStride i.uv r
      let (row, cx) ← hd y uv row
      rowSingles guard i.width cn cx (min3 (row.length / cn) y.length (uv.length / 2))
        (fun j c => do
          let y0 ← idx y j
          let u0 ← idx (chunk 2 uv j) o.uPos
          let v0 ← idx (chunk 2 uv j) o.vPos
          put y0 u0 v0 c) row) rgba

/-- A row of the halved path: slices of the source rows and of the destination row,
/repo/src/yuv_nv_to_rgba.rs:1073-1079 and 1113-1117. -/
def nvHalvedSlice (guard : Bool) (w cn : Nat) (o : NVOrder) (put : Nat → Nat → Nat → Buf → Outcome Buf)
    (hd : RowHandlerNV) (yr uvr row : Buf) : Outcome Buf := do
  let y ← slice yr 0 w
  let uv ← slice uvr 0 (ceil2 w * 2)
  onPrefix row (w * cn) (nvHalvedRow guard w cn o put hd y uv)

/-- The 4:2:2 branch, /repo/src/yuv_nv_to_rgba.rs:1057-1079. -/
def nvDecode422 (guard : Bool) (cn : Nat) (o : NVOrder) (put : Nat → Nat → Nat → Buf → Outcome Buf)
    (hd : RowHandlerNV) (i : BiPlanar) (rgba : Buf) (stride : Nat) : Outcome Buf :=
  eachChunk stride 0
    (min3 (rgba.length / stride) (i.y.length / i.yStride) (i.uv.length / i.uvStride))
    (fun r row =>
      nvHalvedSlice guard i.width cn o put hd (chunk i.yStride i.y r) (chunk i.uvStride i.uv r) row) rgba

/-- The 4:2:0 branch, /repo/src/yuv_nv_to_rgba.rs:1080-1118: row pairs, then the last row of an
image of odd height, taken from the remainder of the row pairs. -/
def nvDecode420 (cn : Nat) (o : NVOrder) (put put2 : Nat → Nat → Nat → Buf → Outcome Buf)
    (hd : RowHandlerNV) (hd2 : RowHandlerNV420) (i : BiPlanar) (rgba : Buf) (stride : Nat) :
    Outcome Buf := do
  let rgba ← eachChunk (stride * 2) 0
    (min3 (rgba.length / (stride * 2)) (i.y.length / (i.yStride * 2)) (i.uv.length / i.uvStride))
    (fun r rows => do
      let rgba0 := rows.take stride
      let rgba1 := rows.drop stride
      let yp := chunk (i.yStride * 2) i.y r
      let y0 ← slice (yp.take i.yStride) 0 i.width
      let y1 ← slice (yp.drop i.yStride) 0 i.width
      let uv ← slice (chunk i.uvStride i.uv r) 0 (ceil2 i.width * 2)
      let d0 ← slice rgba0 0 (i.width * cn)
      let d1 ← slice rgba1 0 (i.width * cn)
      let (d0, d1) ← nvDoubledRow i.width cn o put2 hd2 y0 y1 uv d0 d1
      return (d0 ++ rgba0.drop (i.width * cn)) ++ (d1 ++ rgba1.drop (i.width * cn))) rgba
  if i.height % 2 = 0 then return rgba
  else do
    let uv ← lastChunk i.uvStride i.uv
    onRemainder (stride * 2)
      (nvHalvedSlice true i.width cn o put hd (remainder (i.yStride * 2) i.y) uv) rgba

/-- Models `yuv_nv12_to_rgbx_impl`, /repo/src/yuv_nv_to_rgba.rs:732-1124. -/
def nvToRgbxImpl (tg : Target) (o : NVOrder) (ch : Channels) (s : Sampling) (p : Nat)
    (hd : RowHandlerNV) (hd2 : RowHandlerNV420) (i : BiPlanar) (rgba : Buf) (stride : Nat)
    (rg : YuvRange) (m : Matrix) : Outcome Buf := do
  i.check tg s
  checkRgba tg rgba.length stride i.width i.height ch.count
  let c := getYuvRange 8 rg
  let t := searchInverse p 8 rg m
  let put := putRow p t c ch
  let put2 := putTwoRow p t c ch
  match s with
  | .yuv444 => nvDecode444 false ch.count o put hd i rgba stride
  | .yuv422 => nvDecode422 true ch.count o put hd i rgba stride
  | .yuv420 => nvDecode420 ch.count o put put2 hd hd2 i rgba stride

/-- The precision `yuv_nv12_to_rgbx` picks for a conversion mode, /repo/src/yuv_nv_to_rgba.rs:1138-1183. -/
def nvDecodePrecision : Mode → Nat
  | .fast => 6
  | .balanced => 13
  | .professional => 14

/-- Models `yuv_nv12_to_rgbx`, /repo/src/yuv_nv_to_rgba.rs:1126-1184, which all
`yuv_nv{12,21,16,61,24,42}_to_*` functions call. -/
def nvToRgbx (tg : Target) (md : Mode) (o : NVOrder) (ch : Channels) (s : Sampling)
    (hd : RowHandlerNV) (hd2 : RowHandlerNV420) (i : BiPlanar) (rgba : Buf) (stride : Nat)
    (rg : YuvRange) (m : Matrix) : Outcome Buf :=
  nvToRgbxImpl tg o ch s (nvDecodePrecision md) hd hd2 i rgba stride rg m

end Verif
