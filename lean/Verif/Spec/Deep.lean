import Verif.Spec.Images
/-!
# Specification of the high-bit-depth decoders
-/
namespace Verif.Spec

/-- The sample a stored 16-bit word stands for at depth `d`: a big-endian word has its bytes
swapped, and in the most-significant-bits packing the sample sits in the upper `d` bits. -/
def nativeSample (e : Endianness) (bp : BytesPacking) (d w : Nat) : Nat :=
  let x := match e with
    | .little => w
    | .big => 256 * (w % 256) + w / 256
  match bp with
  | .lsb => x
  | .msb => x / 2 ^ (16 - d)

/-- Unscaled red of a sample triple. -/
def linR (t : InvCoef) (biasY biasUv y v : Nat) : Int :=
  ((y : Int) - biasY) * t.y + t.cr * ((v : Int) - biasUv)
/-- Unscaled green of a sample triple. -/
def linG (t : InvCoef) (biasY biasUv y u v : Nat) : Int :=
  ((y : Int) - biasY) * t.y - t.g1 * ((v : Int) - biasUv) - t.g2 * ((u : Int) - biasUv)
/-- Unscaled blue of a sample triple. -/
def linB (t : InvCoef) (biasY biasUv y u : Nat) : Int :=
  ((y : Int) - biasY) * t.y + t.cb * ((u : Int) - biasUv)

/-- `s / 2^k` rounded to nearest; `half` is added first: `2^(k-1)` sends ties up, one less sends
them down. -/
def roundShift (half : Int) (k : Nat) (s : Int) : Int := (s + half) / 2 ^ k

/-- Saturation to `[0, 2^d - 1]`. -/
def saturate (d : Nat) (n : Int) : Nat := (max (min n (2 ^ d - 1)) 0).toNat

/-- The decoding of one sample triple of depth `d` with coefficients of precision `p`: shifted by
`k`, ties according to `half`, saturated to depth `dOut`, with opaque alpha. -/
def deepPixel (half : Int) (p k d dOut : Nat) (ch : Channels) (rg : YuvRange) (m : Matrix)
    (y u v : Nat) : Buf :=
  let t := searchInverse p d rg m
  let c := getYuvRange d rg
  let q := fun s => saturate dOut (roundShift half k s)
  layout ch (q (linR t c.biasY c.biasUv y v)) (q (linG t c.biasY c.biasUv y u v))
    (q (linB t c.biasY c.biasUv y u)) (2 ^ dOut - 1)

end Verif.Spec
