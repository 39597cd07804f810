import Verif.Model.Support
/-!
# Loop shapes shared by the decoders

Every decoder walks a destination row pixel by pixel (4:4:4) or pixel pair by
pixel pair (4:2:2, 4:2:0), after an optional vector prefix.  The shapes are
factored out here; each converter passes its own fetches and arithmetic.
-/
namespace Verif

/-- The vector code of one row (`WideRowInversionHandler`, /repo/src/internals.rs): given the
luma, Cb and Cr rows and the destination row it returns the destination row and the number of
pixels it has completed.  A parameter here (Verif/Model/X86Decode.lean models the x86 handlers of
the 8-bit planar decoders); theorems quantify over every handler that meets the contract `RowHandler.Ok` (Verif/Spec/Vector.lean). -/
abbrev RowHandler := Buf → Buf → Buf → Buf → Outcome (Buf × Nat)
/-- The vector code of a pair of rows (`WideRow420InversionHandler`). -/
abbrev RowHandler420 := Buf → Buf → Buf → Buf → Buf → Buf → Outcome (Buf × Buf × Nat)
/-- No vector code for this target: `ProcessedOffset { cx: 0, ux: 0 }`. -/
def noSimd : RowHandler := fun _ _ _ row => .ok (row, 0)
/-- No vector code for this target. -/
def noSimd420 : RowHandler420 := fun _ _ _ _ r0 r1 => .ok (r0, r1, 0)

/-- One row, pixel pairs.  `cx` is the number of pixels the vector prefix reported, `k` the trip
count of the zipped iterators, `p0`/`p1` fill the first/second pixel of pair `i`, `pl` fills the
last pixel of a row of odd width.  Loop shape of /repo/src/yuv_to_rgba.rs:419-483.  `guard` says
that the code tests for a finished row first (`if cx != width`, line 418); some converters do not
(/repo/src/yuv_p10_rgba.rs:263-330) and redo the last pixel of a row of odd width. -/
def rowPairs (guard : Bool) (w cn cx k : Nat) (p0 p1 : Nat → Buf → Outcome Buf) (pl : Buf → Outcome Buf)
    (row : Buf) : Outcome Buf :=
  if guard = true ∧ cx = w then .ok row
  else do
    let row ← eachChunk (2 * cn) (cx / 2) k (fun i c => do
      let a ← p0 i (c.take cn)
      let b ← p1 i (c.drop cn)
      return a ++ b) row
    if w % 2 = 0 then return row else onLastChunk cn pl row

/-- One row, single pixels.  Loop shape of /repo/src/yuv_to_rgba.rs:649-675 (with `guard`) and
/repo/src/yuv_nv_to_rgba.rs:1024-1055 (without). -/
def rowSingles (guard : Bool) (w cn cx k : Nat) (p : Nat → Buf → Outcome Buf) (row : Buf) :
    Outcome Buf :=
  if guard = true ∧ cx = w then .ok row else eachChunk cn cx k p row

/-- As `rowPairs`, but the last pixel of a row of odd width is found with
`chunks_exact_mut(channels * 2).into_remainder()[0..channels]`.  Loop shape of
/repo/src/yuv_nv_to_rgba.rs:924-994. -/
def rowPairsRem (guard : Bool) (w cn cx k : Nat) (p0 p1 : Nat → Buf → Outcome Buf) (pl : Buf → Outcome Buf)
    (row : Buf) : Outcome Buf :=
  if guard = true ∧ cx = w then .ok row
  else do
    let row ← eachChunk (2 * cn) (cx / 2) k (fun i c => do
      let a ← p0 i (c.take cn)
      let b ← p1 i (c.drop cn)
      return a ++ b) row
    if w % 2 = 0 then return row else onRemainder (2 * cn) (fun r => onPrefix r cn pl) row

/-- Number of elements a `zip` of three iterators yields. -/
def min3 (a b c : Nat) : Nat := min (min a b) c
/-- Number of elements a `zip` of four iterators yields. -/
def min4 (a b c d : Nat) : Nat := min (min (min a b) c) d

end Verif
