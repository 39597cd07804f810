import Verif.Model.Support
/-!
# Loop shape of the pixelwise converters

Converters without chroma subsampling (grey, identity matrix, channel shuffles,
AYUV, RDP, AR30 repacking, YCgCo 4:4:4) walk a destination and one or more
sources in lockstep, row by row and pixel by pixel.  The shape is factored out
here; each converter passes its sources, its vector code and the body of its
inner loop.
-/
namespace Verif

/-- One zipped source: a buffer, its stride, the elements per pixel, and whether the code slices
each row to the image width before walking it. -/
structure Src where
  buf : Buf
  stride : Nat
  cn : Nat
  cut : Bool
deriving DecidableEq, Repr

/-- Row `r` of a source, as the loop body sees it: `&chunk[..width * cn]` or the whole chunk. -/
def Src.row (w r : Nat) (s : Src) : Outcome Buf :=
  if s.cut then slice (chunk s.stride s.buf r) 0 (w * s.cn) else .ok (chunk s.stride s.buf r)

/-- Row `r` of every source. -/
def srcRows (w r : Nat) : List Src → Outcome (List Buf)
  | [] => .ok []
  | s :: ss => do
      let a ← s.row w r
      let b ← srcRows w r ss
      return a :: b

/-- Trip count of a `zip`: the least of the numbers of chunks, `k` being that of the first
iterator; the others have chunk size and length as given. -/
def zipCount (k : Nat) : List (Nat × Nat) → Nat
  | [] => k
  | (n, len) :: r => min (len / n) (zipCount k r)

/-- The `x`-th chunk of every source row. -/
def pixels (srcs : List Src) (rows : List Buf) (x : Nat) : List Buf :=
  List.zipWith (fun s l => chunk s.cn l x) srcs rows

/-- The vector code of one row: from the source rows and the destination row to the destination
row and the number of finished pixels. -/
abbrev MapHandler := List Buf → Buf → Outcome (Buf × Nat)
/-- No vector code. -/
def noMap : MapHandler := fun _ row => .ok (row, 0)

/-- One row: the vector prefix, then `for (dst, …) in row.chunks_exact_mut(cn).zip(…).skip(cx)`. -/
def mapRow (cn : Nat) (hd : MapHandler) (f : List Buf → Buf → Outcome Buf) (srcs : List Src)
    (rows : List Buf) (row : Buf) : Outcome Buf := do
  let (row, cx) ← hd rows row
  eachChunk cn cx (zipCount (row.length / cn) (List.zipWith (fun s l => (s.cn, l.length)) srcs rows))
    (fun x c => f (pixels srcs rows x) c) row

/-- All rows: `dst.chunks_exact_mut(stride).zip(src.chunks_exact(src_stride))…`.  `cutDst` says
that the destination row is sliced to the image width.  A stride of zero panics
(`chunks_exact(0)`). -/
def mapFrame (cutDst : Bool) (w cn : Nat) (hd : MapHandler) (f : List Buf → Buf → Outcome Buf)
    (srcs : List Src) (dst : Buf) (stride : Nat) : Outcome Buf :=
  if srcs.any (fun s => s.stride == 0) then .panic
  else
    eachChunk stride 0
      (zipCount (dst.length / stride) (srcs.map (fun s => (s.stride, s.buf.length))))
      (fun r row => do
        let rows ← srcRows w r srcs
        if cutDst then onPrefix row (w * cn) (mapRow cn hd f srcs rows)
        else mapRow cn hd f srcs rows row) dst

end Verif
