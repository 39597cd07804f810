import Verif.Spec.Identity
import Verif.Spec.Frame
import Verif.Model.Packed444
/-!
# Specification of packed 4:4:4 with alpha and of the RemoteFX transform
-/
namespace Verif.Spec

/-- The integer nearest to `c · a / 255`. -/
def premul (c a : Nat) : Nat := (2 * (c * a) + 255) / 510

/-- A decoded pixel with alpha `a`: the colours of the decoding, multiplied by alpha when asked. -/
def alphaPixel (pm : Bool) (p d : Nat) (ch : Channels) (rg : YuvRange) (m : Matrix) (a y u v : Nat) :
    Buf :=
  let c := getYuvRange d rg
  let (r, g, b) := decodeRGB p d (searchInverse p d rg m) c.biasY c.biasUv y u v
  if pm then layout ch (premul r a) (premul g a) (premul b a) a else layout ch r g b a

/-- The samples (Y, U, V, A) of a packed pixel; the names list the bytes in order. -/
def samples444 : Packed444 → Buf → Nat × Nat × Nat × Nat
  | .ayuv, px => (px.getD 1 0, px.getD 2 0, px.getD 3 0, px.getD 0 0)
  | .vuya, px => (px.getD 2 0, px.getD 1 0, px.getD 0 0, px.getD 3 0)

/-- Colours in the order the layout's name lists them; the fourth component is opaque. -/
def rdpLayout : RdpChannels → Nat → Nat → Nat → Buf
  | .rgb, r, g, b => [r, g, b]
  | .rgba, r, g, b => [r, g, b, 255]
  | .bgra, r, g, b => [b, g, r, 255]
  | .bgr, r, g, b => [b, g, r]
  | .abgr, r, g, b => [255, b, g, r]
  | .argb, r, g, b => [255, r, g, b]

/-- The colours (R, G, B) of a pixel. -/
def rdpColours : RdpChannels → Buf → Nat × Nat × Nat
  | .rgb, p => (p.getD 0 0, p.getD 1 0, p.getD 2 0)
  | .rgba, p => (p.getD 0 0, p.getD 1 0, p.getD 2 0)
  | .bgra, p => (p.getD 2 0, p.getD 1 0, p.getD 0 0)
  | .bgr, p => (p.getD 2 0, p.getD 1 0, p.getD 0 0)
  | .abgr, p => (p.getD 3 0, p.getD 2 0, p.getD 1 0)
  | .argb, p => (p.getD 1 0, p.getD 2 0, p.getD 3 0)

/-- The RemoteFX luma of a colour, in 1/32 steps, from -4096: the weights 0.299, 0.587 and 0.114 in
units of 1/32768, rounded down. -/
def rdpY (r g b : Nat) : Int := ((9797 * r + 19234 * g + 3735 * b : Nat) : Int) / 1024 - 4096
/-- The RemoteFX Cb of a colour, in 1/32 steps. -/
def rdpU (r g b : Nat) : Int := (-5535 * r - 10867 * g + 16403 * b : Int) / 1024
/-- The RemoteFX Cr of a colour, in 1/32 steps. -/
def rdpV (r g b : Nat) : Int := (16377 * r - 13714 * g - 2663 * b : Int) / 1024

/-- The byte nearest below, clamped. -/
def clampByte (x : Int) : Nat := (max (min x 255) 0).toNat

/-- The colour of RemoteFX samples: the weights 1.402525, 0.714401, 0.343730 and 1.769905 in units of
1/65536, rounded down. -/
def rdpColour (y u v : Int) : Nat × Nat × Nat :=
  let l := 65536 * (y + 4096)
  (clampByte ((l + 91915 * v) / 2 ^ 21), clampByte ((l - 46818 * v - 22526 * u) / 2 ^ 21),
    clampByte ((l + 115992 * u) / 2 ^ 21))

/-- The 16-bit pattern of a signed sample. -/
def pattern16 (x : Int) : Nat := (x % 65536).toNat

/-- The signed sample of a 16-bit pattern. -/
def signed16 (n : Nat) : Int := if n < 32768 then n else (n : Int) - 65536

end Verif.Spec
