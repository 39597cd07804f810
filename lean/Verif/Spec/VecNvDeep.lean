import Verif.Spec.VecDeep
/-!
# Specification of the x86 decoding arithmetic of 10- and 12-bit semi-planar images
-/
namespace Verif.Spec

/-- A number reduced to the range of an `i32`. -/
def int32 (x : Int) : Int := (x + 2147483648) % 4294967296 - 2147483648

/-- The columns the vector code decodes: all groups of 8 with at least one column after them. -/
def groupCols (w : Nat) : Nat := (w - 1) / 8 * 8

/-- The centred chroma the vector code uses at column `x` of a row whose column `k` has the centred
chroma `f k`.  With halved chroma: the sum of two neighbouring samples for the first two of four
columns, nothing for the other two.  With full chroma: in the first half of every group of eight the
sum of two samples in the even columns and nothing in the odd ones; in the second half the sample
of the column. -/
def mixedChroma (hd : Nat) (f : Nat → Int) (x : Nat) : Int :=
  if hd = 2 then
    if x % 4 < 2 then f (x / 4 * 4) + f (x / 4 * 4 + 2) else 0
  else if x % 8 < 4 then
    if x % 2 = 0 then f x + f (x + 1) else 0
  else f x

/-- Red, green and blue of a luma sample and centred chroma `cb`, `cr`: the exact sum, rounded once;
the luma above its offset wraps to 16 bits, the sum to 32 bits. -/
def nvSumRGB (d : Nat) (c : ChromaRange) (t : InvCoef) (y : Nat) (cb cr : Int) : Nat × Nat × Nat :=
  let l := int16 ((y - c.biasY : Nat) : Int) * t.y
  let q := fun x : Int => saturate d (int32 (x + (2 ^ 12 - 1)) / 2 ^ 13)
  (q (l + cr * t.cr), q (l - cr * t.g1 - cb * t.g2), q (l + cb * t.cb))

/-- The pixel of column `x` in the vector code, from the native luma sample of the column and the
native chroma samples `u k`, `v k` of the columns of the row. -/
def nvMixedPixel (d : Nat) (ch : Channels) (hd : Nat) (c : ChromaRange) (t : InvCoef) (x y : Nat)
    (u v : Nat → Nat) : Buf :=
  deepOpaque d ch (nvSumRGB d c t y (mixedChroma hd (fun k => int16 ((u k : Int) - c.biasUv)) x)
    (mixedChroma hd (fun k => int16 ((v k : Int) - c.biasUv)) x))

end Verif.Spec
