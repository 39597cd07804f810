import Verif.Model.Loops
import Verif.Model.Kernels
import Verif.Model.Checks
/-!
# 8-bit planar YCbCr to RGB: /repo/src/yuv_to_rgba.rs
-/
namespace Verif

/-- One pixel of the single-row paths: kernel and store, /repo/src/yuv_to_rgba.rs:658-673
(also 427-461, 465-481). -/
def putRow (p : Nat) (t : InvCoef) (c : ChromaRange) (ch : Channels) (y u v : Nat) (px : Buf) :
    Outcome Buf := do
  let (r, g, b) ← decodeRow (qrshr p 8) t c.biasY c.biasUv y u v
  storePix ch px (asU8 r) (asU8 g) (asU8 b) 255

/-- One pixel of the two-row path, /repo/src/yuv_to_rgba.rs:516-578, 582-613. -/
def putTwoRow (p : Nat) (t : InvCoef) (c : ChromaRange) (ch : Channels) (y u v : Nat) (px : Buf) :
    Outcome Buf := do
  let (r, g, b) ← decodeTwoRow (qrshr p 8) t c.biasY c.biasUv y u v
  storePix ch px (asU8 r) (asU8 g) (asU8 b) 255

/-- Models the closure `process_halved_chroma_row`, /repo/src/yuv_to_rgba.rs:405-484; for `guard` see
`rowPairs`. -/
def halvedRow (guard : Bool) (w cn : Nat) (put : Nat → Nat → Nat → Buf → Outcome Buf) (hd : RowHandler)
    (y u v row : Buf) : Outcome Buf := do
  let (row, cx) ← hd y u v row
  rowPairs guard w cn cx (min4 (row.length / (2 * cn)) (y.length / 2) u.length v.length)
    (fun i c => do
      let y0 ← idx y (2 * i)
      let u0 ← idx u i
      let v0 ← idx v i
      put y0 u0 v0 c)
    (fun i c => do
      let y1 ← idx y (2 * i + 1)
      let u0 ← idx u i
      let v0 ← idx v i
      put y1 u0 v0 c)
    (fun c => do
      let y0 ← lastElem y
      let u0 ← lastElem u
      let v0 ← lastElem v
      put y0 u0 v0 c) row

/-- Models the closure `process_doubled_chroma_row`, /repo/src/yuv_to_rgba.rs:486-616.  The two
destination rows are filled by one loop in the code and by one loop each here; the trip count is
that of the common loop. -/
def doubledRow (w cn : Nat) (put : Nat → Nat → Nat → Buf → Outcome Buf) (hd : RowHandler420)
    (y0 y1 u v row0 row1 : Buf) : Outcome (Buf × Buf) := do
  let (row0, row1, cx) ← hd y0 y1 u v row0 row1
  let k := min4 (min (row0.length / (2 * cn)) (row1.length / (2 * cn)))
    (min (y0.length / 2) (y1.length / 2)) u.length v.length
  let fill := fun (y row : Buf) => rowPairs true w cn cx k
    (fun i c => do
      let y0 ← idx y (2 * i)
      let u0 ← idx u i
      let v0 ← idx v i
      put y0 u0 v0 c)
    (fun i c => do
      let y1 ← idx y (2 * i + 1)
      let u0 ← idx u i
      let v0 ← idx v i
      put y1 u0 v0 c)
    (fun c => do
      let y0 ← lastElem y
      let u0 ← lastElem u
      let v0 ← lastElem v
      put y0 u0 v0 c) row
  let r0 ← fill y0 row0
  let r1 ← fill y1 row1
  return (r0, r1)

/-- The 4:4:4 branch of `yuv_to_rgbx_impl`, /repo/src/yuv_to_rgba.rs:618-676. -/
def decode444 (guard : Bool) (cn : Nat) (put : Nat → Nat → Nat → Buf → Outcome Buf) (hd : RowHandler)
    (i : Planar) (rgba : Buf) (stride : Nat) : Outcome Buf :=
  eachChunk stride 0
    (min4 (rgba.length / stride) (i.y.length / i.yStride) (i.u.length / i.uStride)
      (i.v.length / i.vStride))
    (fun r row => do
      let y ← slice (chunk i.yStride i.y r) 0 i.width
      let u := chunk i.uStride i.u r
      let v := chunk i.vStride i.v r
      let (row, cx) ← hd y u v row
      rowSingles guard i.width cn cx (min4 (row.length / cn) y.length u.length v.length)
        (fun j c => do
          let y0 ← idx y j
          let u0 ← idx u j
          let v0 ← idx v j
          put y0 u0 v0 c) row) rgba

/-- A row of the halved path: slices of the source rows and of the destination row,
/repo/src/yuv_to_rgba.rs:695-700 and 751-756. -/
def halvedSlice (guard : Bool) (w cn : Nat) (put : Nat → Nat → Nat → Buf → Outcome Buf) (hd : RowHandler)
    (yr ur vr row : Buf) : Outcome Buf := do
  let y ← slice yr 0 w
  let u ← slice ur 0 (ceil2 w)
  let v ← slice vr 0 (ceil2 w)
  onPrefix row (w * cn) (halvedRow guard w cn put hd y u v)

/-- The 4:2:2 branch, /repo/src/yuv_to_rgba.rs:677-702. -/
def decode422 (guard : Bool) (cn : Nat) (put : Nat → Nat → Nat → Buf → Outcome Buf) (hd : RowHandler)
    (i : Planar) (rgba : Buf) (stride : Nat) : Outcome Buf :=
  eachChunk stride 0
    (min4 (rgba.length / stride) (i.y.length / i.yStride) (i.u.length / i.uStride)
      (i.v.length / i.vStride))
    (fun r row =>
      halvedSlice guard i.width cn put hd (chunk i.yStride i.y r) (chunk i.uStride i.u r)
        (chunk i.vStride i.v r) row) rgba

/-- The 4:2:0 branch, /repo/src/yuv_to_rgba.rs:703-757: row pairs, then the last row of an image
of odd height. -/
def decode420 (cn : Nat) (put put2 : Nat → Nat → Nat → Buf → Outcome Buf) (hd : RowHandler)
    (hd2 : RowHandler420) (i : Planar) (rgba : Buf) (stride : Nat) : Outcome Buf := do
  let rgba ← eachChunk (stride * 2) 0
    (min4 (rgba.length / (stride * 2)) (i.y.length / (i.yStride * 2)) (i.u.length / i.uStride)
      (i.v.length / i.vStride))
    (fun r rows => do
      let rgba0 := rows.take stride
      let rgba1 := rows.drop stride
      let yp := chunk (i.yStride * 2) i.y r
      let y0 ← slice (yp.take i.yStride) 0 i.width
      let y1 ← slice (yp.drop i.yStride) 0 i.width
      let u ← slice (chunk i.uStride i.u r) 0 (ceil2 i.width)
      let v ← slice (chunk i.vStride i.v r) 0 (ceil2 i.width)
      let d0 ← slice rgba0 0 (i.width * cn)
      let d1 ← slice rgba1 0 (i.width * cn)
      let (d0, d1) ← doubledRow i.width cn put2 hd2 y0 y1 u v d0 d1
      return (d0 ++ rgba0.drop (i.width * cn)) ++ (d1 ++ rgba1.drop (i.width * cn))) rgba
  if i.height % 2 = 0 then return rgba
  else do
    let u ← lastChunk i.uStride i.u
    let v ← lastChunk i.vStride i.v
    let y ← lastChunk i.yStride i.y
    onLastChunk stride (halvedSlice true i.width cn put hd y u v) rgba

/-- Models `yuv_to_rgbx_impl`, /repo/src/yuv_to_rgba.rs:373-763. -/
def yuvToRgbxImpl (tg : Target) (ch : Channels) (s : Sampling) (p : Nat) (hd : RowHandler)
    (hd2 : RowHandler420) (i : Planar) (rgba : Buf) (stride : Nat) (rg : YuvRange) (m : Matrix) :
    Outcome Buf := do
  checkRgba tg rgba.length stride i.width i.height ch.count
  i.check tg s
  let c := getYuvRange 8 rg
  let t := searchInverse p 8 rg m
  let put := putRow p t c ch
  let put2 := putTwoRow p t c ch
  match s with
  | .yuv444 => decode444 true ch.count put hd i rgba stride
  | .yuv422 => decode422 true ch.count put hd i rgba stride
  | .yuv420 => decode420 ch.count put put2 hd hd2 i rgba stride

/-- Models `yuv_to_rgbx`, /repo/src/yuv_to_rgba.rs:765-781, which all `yuv4xx_to_{rgb,rgba,bgr,bgra}`
functions of that file call: precision 13. -/
def yuvToRgbx (tg : Target) (ch : Channels) (s : Sampling) (hd : RowHandler) (hd2 : RowHandler420)
    (i : Planar) (rgba : Buf) (stride : Nat) (rg : YuvRange) (m : Matrix) : Outcome Buf :=
  yuvToRgbxImpl tg ch s 13 hd hd2 i rgba stride rg m

end Verif
