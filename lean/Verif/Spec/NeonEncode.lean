import Verif.Spec.FastEncode
import Verif.Spec.VecEncode
/-!
# Specification of the encoders with NEON

A sample is a function of three components: those of a pixel, or their means over two or four pixels.
-/
namespace Verif.Spec

/-- The values of an encoder that computes luma with `L`, Cb with `U` and Cr with `V`, from the components
of a pixel after `one`, of two neighbours after `two`, of two neighbours and the two below them after
`four`. -/
def meanVals (ch : Channels) (L U V : Nat → Nat → Nat → Nat) (one : Nat → Nat) (two : Nat → Nat → Nat)
    (four : Nat → Nat → Nat → Nat → Nat) : Vals where
  y a := L (one (red ch a)) (one (green ch a)) (one (blue ch a))
  u1 a := U (one (red ch a)) (one (green ch a)) (one (blue ch a))
  v1 a := V (one (red ch a)) (one (green ch a)) (one (blue ch a))
  u2 a b := U (two (red ch a) (red ch b)) (two (green ch a) (green ch b)) (two (blue ch a) (blue ch b))
  v2 a b := V (two (red ch a) (red ch b)) (two (green ch a) (green ch b)) (two (blue ch a) (blue ch b))
  u4 a b c d := U (four (red ch a) (red ch b) (red ch c) (red ch d))
    (four (green ch a) (green ch b) (green ch c) (green ch d))
    (four (blue ch a) (blue ch b) (blue ch c) (blue ch d))
  v4 a b c d := V (four (red ch a) (red ch b) (red ch c) (red ch d))
    (four (green ch a) (green ch b) (green ch c) (green ch d))
    (four (blue ch a) (blue ch b) (blue ch c) (blue ch d))

/-- A sample of precision `q`, as the portable code computes it from the components. -/
def encByte (q bias : Nat) (k : Int × Int × Int) (r g b : Nat) : Nat :=
  low8 (encVal q k.1 k.2.1 k.2.2 bias r g b)

/-- The balanced mode.  Without the rounding multiply-accumulate instructions samples are computed as in
the portable code, but four components are averaged in two roundings up.  With them components are scaled
by sixteen, averages keep their fraction, and every product is rounded by itself (`vecSum`). -/
def neonVals (rdm : Bool) (ch : Channels) (rg : YuvRange) (m : Matrix) : Vals :=
  let t := searchForward 13 8 rg m
  let c := getYuvRange 8 rg
  if rdm then
    meanVals ch (vecSum (4 * c.biasY) (t.yr, t.yg, t.yb)) (vecSum (4 * c.biasUv + 1) (t.cbR, t.cbG, t.cbB))
      (vecSum (4 * c.biasUv + 1) (t.crR, t.crG, t.crB)) (fun a => 16 * a) (fun a b => 8 * (a + b))
      (fun a b c d => 4 * (a + b + c + d))
  else
    meanVals ch (encByte 13 c.biasY (t.yr, t.yg, t.yb)) (encByte 13 c.biasUv (t.cbR, t.cbG, t.cbB))
      (encByte 13 c.biasUv (t.crR, t.crG, t.crB)) (fun a => a) avg2
      (fun a b c d => ((a + b + c + d + 1) / 2 + 1) / 2)

/-- The professional mode: as in the portable code, but four components are averaged two rows first, then
two neighbours, each time rounding up. -/
def neonProfVals (ch : Channels) (rg : YuvRange) (m : Matrix) : Vals :=
  let t := searchForward 15 8 rg m
  let c := getYuvRange 8 rg
  meanVals ch (encByte 15 c.biasY (t.yr, t.yg, t.yb)) (encByte 15 c.biasUv (t.cbR, t.cbG, t.cbB))
    (encByte 15 c.biasUv (t.crR, t.crG, t.crB)) (fun a => a) avg2
    (fun a b c d => avg2 (avg2 a c) (avg2 b d))

/-- A sample of the fast mode: precision 7, the sum is kept in an unsigned 16-bit integer, the result
saturates. -/
def fastByte (bias : Nat) (k : Int × Int × Int) (r g b : Nat) : Nat :=
  min 255 (((r * k.1 + g * k.2.1 + b * k.2.2 + (bias * 128 + 63)) % 65536).toNat / 128)

/-- The fast mode: averages are rounded down, of two rows first, then of two neighbours. -/
def neonFastVals (ch : Channels) (rg : YuvRange) (m : Matrix) : Vals :=
  let t := searchForward 7 8 rg m
  let c := getYuvRange 8 rg
  meanVals ch (fastByte c.biasY (t.yr, t.yg, t.yb)) (fastByte c.biasUv (t.cbR, t.cbG, t.cbB))
    (fastByte c.biasUv (t.crR, t.crG, t.crB)) (fun a => a) (fun a b => (a + b) / 2)
    (fun a b c d => ((a + c) / 2 + (b + d) / 2) / 2)

end Verif.Spec
