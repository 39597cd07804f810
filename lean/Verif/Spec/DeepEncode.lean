import Verif.Spec.Encode
/-!
# Specification of the high-bit-depth encoders
-/
namespace Verif.Spec

/-- The 16-bit word that stands for sample `v` at depth `d`: in the most-significant-bits packing
the sample sits in the upper `d` bits, and a big-endian word has its bytes swapped. -/
def wordOf (e : Endianness) (bp : BytesPacking) (d v : Nat) : Nat :=
  let w := match bp with
    | .lsb => v
    | .msb => v * 2 ^ (16 - d)
  match e with
  | .little => w
  | .big => 256 * (w % 256) + w / 256

/-- Luma of a pixel at depth `d`. -/
def deepLuma (d : Nat) (ch : Channels) (rg : YuvRange) (m : Matrix) (px : Buf) : Nat :=
  (lumaVal 15 d rg m (red ch px) (green ch px) (blue ch px)).toNat
/-- Cb of a block of pixels: that of the average colour, rounded to nearest. -/
def deepCb (d : Nat) (ch : Channels) (rg : YuvRange) (m : Matrix) (blk : List Buf) : Nat :=
  (cbVal 15 d rg m (avgUp (blk.map (red ch))) (avgUp (blk.map (green ch)))
    (avgUp (blk.map (blue ch)))).toNat
/-- Cr of a block of pixels. -/
def deepCr (d : Nat) (ch : Channels) (rg : YuvRange) (m : Matrix) (blk : List Buf) : Nat :=
  (crVal 15 d rg m (avgUp (blk.map (red ch))) (avgUp (blk.map (green ch)))
    (avgUp (blk.map (blue ch)))).toNat

end Verif.Spec
