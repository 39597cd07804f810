import Verif.Spec.VecDecode
/-!
# Specification of the decoding arithmetic on 32-bit WebAssembly with SIMD

Every sample is multiplied by four, each of the terms is scaled separately with
a rounding high multiply, and the rounded terms are added.
-/
namespace Verif.Spec

/-- Red, green and blue from the luma above its offset, `yo`, and the chroma samples. -/
def wasmRGB (t : InvCoef) (yo u v : Nat) : Nat × Nat × Nat :=
  let y := mulRound (4 * (yo : Int)) t.y
  let cb := 4 * ((u : Int) - 128)
  let cr := 4 * ((v : Int) - 128)
  (byteSat (y + mulRound cr t.cr), byteSat (y + (mulRound cr (-t.g1) + mulRound cb (-t.g2))),
    byteSat (y + mulRound cb t.cb))

/-- The pixel with components `wasmRGB`, opaque. -/
def wasmPixelAt (ch : Channels) (t : InvCoef) (yo u v : Nat) : Buf :=
  layout ch (wasmRGB t yo u v).1 (wasmRGB t yo u v).2.1 (wasmRGB t yo u v).2.2 255

/-- The pixel of an 8-bit sample triple: the luma offset is subtracted with saturation at zero. -/
def wasmPixel (ch : Channels) (rg : YuvRange) (m : Matrix) (y u v : Nat) : Buf :=
  wasmPixelAt ch (searchInverse 13 8 rg m) (y - (getYuvRange 8 rg).biasY) u v

/-- The columns of a row of `w` pixels the SIMD code decodes: 16 at a time while more than 16
remain.  The others are left to the scalar code. -/
def wasmCol (w x : Nat) : Prop := x < 16 * ((w - 1) / 16)

instance (w x : Nat) : Decidable (wasmCol w x) := by unfold wasmCol; infer_instance

/-- The pixel in column `x` of a row of `w` pixels of a planar image, or of a semi-planar one with
sub-sampled chroma. -/
def wasmRowPixel (ch : Channels) (rg : YuvRange) (m : Matrix) (w x y u v : Nat) : Buf :=
  if wasmCol w x then wasmPixel ch rg m y u v else decodedPixel 13 8 ch rg m 255 y u v

/-- The pixel in column `x` of a row of `w` pixels of a semi-planar image without sub-sampling: the
first eight pixels of every sixteen take their Cr, and the other eight their Cb, for both. -/
def wasmNv444Pixel (ch : Channels) (rg : YuvRange) (m : Matrix) (w x y u v : Nat) : Buf :=
  if wasmCol w x then
    if x % 16 < 8 then wasmPixel ch rg m y v v else wasmPixel ch rg m y u u
  else decodedPixel 13 8 ch rg m 255 y u v

/-- The grey level of a luma sample. -/
def wasmGray (m : Matrix) (y : Nat) : Nat :=
  byteSat (mulRound (4 * ((y - 16 : Nat) : Int)) (searchInverse 13 8 .limited m).y)

/-- No slice has more than `isize::MAX` bytes; this is what that means on a 32-bit target. -/
def Fits32 (b : Buf) : Prop := b.length < 2 ^ 31

end Verif.Spec
