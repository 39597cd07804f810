import Verif.Model.F32
import Verif.Spec.Images
/-!
# Specification of encoding

Luma is computed from each pixel; a chroma sample is computed from the average
of the pixels it covers.
-/
namespace Verif.Spec

/-- Red component of a pixel in memory order. -/
def red : Channels → Buf → Nat
  | .rgb, px => px.getD 0 0
  | .rgba, px => px.getD 0 0
  | .bgra, px => px.getD 2 0
  | .bgr, px => px.getD 2 0
/-- Green component of a pixel. -/
def green (_ : Channels) (px : Buf) : Nat := px.getD 1 0
/-- Blue component of a pixel. -/
def blue : Channels → Buf → Nat
  | .rgb, px => px.getD 2 0
  | .rgba, px => px.getD 2 0
  | .bgra, px => px.getD 0 0
  | .bgr, px => px.getD 0 0

/-- The luma columns (rows) below `n` that chroma column (row) `c` covers. -/
def blockCols (n d c : Nat) : List Nat := ((List.range d).map (d * c + ·)).filter (· < n)

/-- The pixels chroma sample `(cx, cy)` covers, row by row. -/
def block (src : Buf) (stride cn w h hd vd cx cy : Nat) : List Buf :=
  (blockCols h vd cy).flatMap fun y => (blockCols w hd cx).map fun x => pixelAt src stride cn x y

/-- The chroma sample covers the last column of an image of odd width in two rows. -/
def lastColumn (w h hd vd cx cy : Nat) : Bool :=
  decide (hd = 2 ∧ vd = 2 ∧ 2 * cx + 1 = w ∧ 2 * cy + 1 < h)

/-- Average, rounded to nearest, halves up. -/
def avgUp (l : List Nat) : Nat := (l.sum + l.length / 2) / l.length
/-- Average, rounded down. -/
def avgDown (l : List Nat) : Nat := l.sum / l.length

/-- Fixed-point evaluation of one row of the forward matrix: the linear combination of the
coefficients of precision `p`, rounded to nearest (ties down), plus the bias. -/
def encVal (p : Nat) (cr cg cb : Int) (bias : Nat) (r g b : Nat) : Int :=
  (r * cr + g * cg + b * cb + (bias * 2 ^ p + (2 ^ (p - 1) - 1))) / 2 ^ p

/-- Luma of an RGB triple at precision `p`, bit depth `d`. -/
def lumaVal (p d : Nat) (rg : YuvRange) (m : Matrix) (r g b : Nat) : Int :=
  let t := searchForward p d rg m
  encVal p t.yr t.yg t.yb (getYuvRange d rg).biasY r g b
/-- Cb of an RGB triple. -/
def cbVal (p d : Nat) (rg : YuvRange) (m : Matrix) (r g b : Nat) : Int :=
  let t := searchForward p d rg m
  encVal p t.cbR t.cbG t.cbB (getYuvRange d rg).biasUv r g b
/-- Cr of an RGB triple. -/
def crVal (p d : Nat) (rg : YuvRange) (m : Matrix) (r g b : Nat) : Int :=
  let t := searchForward p d rg m
  encVal p t.crR t.crG t.crB (getYuvRange d rg).biasUv r g b

/-- The low eight bits. -/
def low8 (x : Int) : Nat := (x % 256).toNat

/-- Stored 8-bit luma of a pixel. -/
def luma8 (p : Nat) (ch : Channels) (rg : YuvRange) (m : Matrix) (px : Buf) : Nat :=
  low8 (lumaVal p 8 rg m (red ch px) (green ch px) (blue ch px))
/-- Stored 8-bit Cb of a block of pixels, `avg` being the averaging in use. -/
def cb8 (p : Nat) (ch : Channels) (rg : YuvRange) (m : Matrix) (avg : List Nat → Nat)
    (blk : List Buf) : Nat :=
  low8 (cbVal p 8 rg m (avg (blk.map (red ch))) (avg (blk.map (green ch))) (avg (blk.map (blue ch))))
/-- Stored 8-bit Cr of a block of pixels. -/
def cr8 (p : Nat) (ch : Channels) (rg : YuvRange) (m : Matrix) (avg : List Nat → Nat)
    (blk : List Buf) : Nat :=
  low8 (crVal p 8 rg m (avg (blk.map (red ch))) (avg (blk.map (green ch))) (avg (blk.map (blue ch))))

end Verif.Spec
