import Verif.Spec.Frame
/-!
# Specification of the x86 decoding arithmetic

The vector kernels do not evaluate the fixed-point sum of `decodeRGB`: they
expand every sample to ten bits, scale each of the terms separately with a
rounding high multiply, and add the rounded terms.
-/
namespace Verif.Spec

/-- An 8-bit sample expanded to ten bits by bit replication: `4x + ⌊x/64⌋`. -/
def expand10 (x : Nat) : Int := ((4 * x + x / 64 : Nat) : Int)

/-- The rounding high multiply: `a·t / 2^15`, rounded to nearest (ties up). -/
def mulRound (a t : Int) : Int := (a * t + 16384) / 32768

/-- Saturation to a byte. -/
def byteSat (x : Int) : Nat := (max 0 (min x 255)).toNat

/-- Red, green and blue the kernels compute from the luma above its offset, `yo`, and the chroma
samples. -/
def vecRGB (t : InvCoef) (yo u v : Nat) : Nat × Nat × Nat :=
  let y := mulRound (expand10 yo) t.y
  let cb := expand10 u - expand10 128
  let cr := expand10 v - expand10 128
  (byteSat (y + mulRound cr t.cr), byteSat (y - (mulRound cr t.g1 + mulRound cb t.g2)),
    byteSat (y + mulRound cb t.cb))

/-- The pixel with components `vecRGB`, opaque. -/
def vecPixelAt (ch : Channels) (t : InvCoef) (yo u v : Nat) : Buf :=
  layout ch (vecRGB t yo u v).1 (vecRGB t yo u v).2.1 (vecRGB t yo u v).2.2 255

/-- The pixel of an 8-bit sample triple: the luma offset is subtracted with saturation at zero. -/
def vecPixel (ch : Channels) (rg : YuvRange) (m : Matrix) (y u v : Nat) : Buf :=
  vecPixelAt ch (searchInverse 13 8 rg m) (y - (getYuvRange 8 rg).biasY) u v

/-- The luma above its offset as the 8-pixel steps of the SSE kernels compute it: bytes are taken
as signed numbers and the difference saturates to `[-128, 127]`. -/
def signedLuma (bias y : Nat) : Nat :=
  let s := fun x : Int => (x + 128) % 256 - 128
  ((max (-128) (min (s y - s bias) 127)) % 256).toNat

/-- The pixel of the 8-pixel steps of the SSE kernels. -/
def vecPixelSigned (ch : Channels) (rg : YuvRange) (m : Matrix) (y u v : Nat) : Buf :=
  vecPixelAt ch (searchInverse 13 8 rg m) (signedLuma (getYuvRange 8 rg).biasY y) u v

/-- The pixel in column `x` of a row of `w` pixels decoded by the SSE kernels, which take 16 pixels
at a time while more than 16 remain, then 8 at a time while more than 8 remain, and leave the rest
(1 to 8 pixels) to the scalar code.  Only the kernel for pairs of 4:2:0 rows (`pair`) subtracts the
luma offset unsigned in its steps of 8. -/
def ssePixel (pair : Bool) (ch : Channels) (rg : YuvRange) (m : Matrix) (w x y u v : Nat) : Buf :=
  if x < 16 * ((w - 1) / 16) then vecPixel ch rg m y u v
  else if x < 8 * ((w - 1) / 8) then
    if pair then vecPixel ch rg m y u v else vecPixelSigned ch rg m y u v
  else decodedPixel 13 8 ch rg m 255 y u v

/-- The pixel of the 8-pixel steps of the SSE kernel for pairs of semi-planar 4:2:0 rows: besides
the signed luma, blue is computed with the coefficient of Cr. -/
def vecPixelCrBlue (ch : Channels) (rg : YuvRange) (m : Matrix) (y u v : Nat) : Buf :=
  let t := searchInverse 13 8 rg m
  vecPixelAt ch { t with cb := t.cr } (signedLuma (getYuvRange 8 rg).biasY y) u v

/-- The pixel in column `x` of a row of `w` pixels decoded by the SSE kernels for semi-planar
images: 16 pixels at a time while more than 16 remain, then steps of 8 to the end of the row. -/
def sseNvPixel (pair : Bool) (ch : Channels) (rg : YuvRange) (m : Matrix) (w x y u v : Nat) : Buf :=
  if x < 16 * ((w - 1) / 16) then vecPixel ch rg m y u v
  else if pair then vecPixelCrBlue ch rg m y u v
  else vecPixelSigned ch rg m y u v

end Verif.Spec
