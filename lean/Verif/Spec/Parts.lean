import Verif.Spec.VecEncode
/-!
# What a vector encoder stores

The values an 8-bit encoder stores, as functions of the pixels: luma of a pixel, chroma of one pixel
(4:4:4), of two neighbours of a row, and of two neighbours of two rows.
-/
namespace Verif.Spec

/-- The values of an encoder. -/
structure Vals where
  /-- Luma of a pixel. -/
  y : Buf → Nat
  /-- Cb of a pixel. -/
  u1 : Buf → Nat
  /-- Cr of a pixel. -/
  v1 : Buf → Nat
  /-- Cb of two neighbours. -/
  u2 : Buf → Buf → Nat
  /-- Cr of two neighbours. -/
  v2 : Buf → Buf → Nat
  /-- Cb of two neighbours of one row and the two below them. -/
  u4 : Buf → Buf → Buf → Buf → Nat
  /-- Cr of two neighbours of one row and the two below them. -/
  v4 : Buf → Buf → Buf → Buf → Nat

/-- Cb of the pixels a chroma sample covers.  A last column without neighbour is doubled; `last` says
that the two pixels are the last column of two rows. -/
def Vals.cb (A : Vals) (s : Sampling) (last : Bool) : List Buf → Nat
  | [a] => if s = .yuv444 then A.u1 a else A.u2 a a
  | [a, b] => if last then A.u4 a a b b else A.u2 a b
  | [a, b, c, d] => A.u4 a b c d
  | _ => 0
/-- Cr of the pixels a chroma sample covers. -/
def Vals.cr (A : Vals) (s : Sampling) (last : Bool) : List Buf → Nat
  | [a] => if s = .yuv444 then A.v1 a else A.v2 a a
  | [a, b] => if last then A.v4 a a b b else A.v2 a b
  | [a, b, c, d] => A.v4 a b c d
  | _ => 0

end Verif.Spec
