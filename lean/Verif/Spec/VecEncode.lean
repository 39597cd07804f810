import Verif.Spec.VecDecode
import Verif.Spec.Encode
/-!
# Specification of the x86 encoding arithmetic

The vector kernels expand every component to twelve bits, scale each of the three terms separately
with a rounding high multiply — the result has two fractional bits — and drop the fraction of the
sum.  Luma is not rounded; the chroma offset contains slightly less than one half.
-/
namespace Verif.Spec

/-- An 8-bit component expanded to twelve bits by bit replication: `16x + ⌊x/16⌋`. -/
def expand12 (x : Nat) : Nat := 16 * x + x / 16

/-- `(bias + a·r + b·g + c·b) / 4` with every product rounded by itself and the quotient rounded
down, as a byte.  `bias` has two fractional bits, the components twelve. -/
def vecSum (bias : Int) (k : Int × Int × Int) (r g b : Nat) : Nat :=
  byteSat ((bias + (mulRound r k.1 + mulRound g k.2.1 + mulRound b k.2.2)) / 4)

/-- The luma sample of a pixel. -/
def vecLuma (ch : Channels) (rg : YuvRange) (m : Matrix) (px : Buf) : Nat :=
  let t := searchForward 13 8 rg m
  vecSum (4 * (getYuvRange 8 rg).biasY) (t.yr, t.yg, t.yb) (expand12 (red ch px))
    (expand12 (green ch px)) (expand12 (blue ch px))

/-- The twelve-bit component chroma is computed from, given the components of the pixels the chroma
sample covers, row by row.  Without subsampling it is the expanded component.  With subsampling, two
rows are averaged first, rounding up, then two neighbours are added up without rounding; a missing
right neighbour (odd width) is replaced by the last pixel.  `last` says that the pixels are the two
of a last column. -/
def chromaWord (s : Sampling) (last : Bool) (l : List Nat) : Nat :=
  match l with
  | [a] => if s = .yuv444 then expand12 a else 16 * a
  | [a, b] => if last then 16 * ((a + b + 1) / 2) else 8 * (a + b)
  | [a, b, c, d] => 8 * ((a + c + 1) / 2 + (b + d + 1) / 2)
  | _ => 0

/-- The Cb sample of the pixels it covers. -/
def vecCb (s : Sampling) (ch : Channels) (rg : YuvRange) (m : Matrix) (last : Bool) (l : List Buf) :
    Nat :=
  let t := searchForward 13 8 rg m
  vecSum 513 (t.cbR, t.cbG, t.cbB) (chromaWord s last (l.map (red ch)))
    (chromaWord s last (l.map (green ch))) (chromaWord s last (l.map (blue ch)))

/-- The Cr sample of the pixels it covers. -/
def vecCr (s : Sampling) (ch : Channels) (rg : YuvRange) (m : Matrix) (last : Bool) (l : List Buf) :
    Nat :=
  let t := searchForward 13 8 rg m
  vecSum 513 (t.crR, t.crG, t.crB) (chromaWord s last (l.map (red ch)))
    (chromaWord s last (l.map (green ch))) (chromaWord s last (l.map (blue ch)))

end Verif.Spec
