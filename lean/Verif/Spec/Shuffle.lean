import Verif.Spec.PixelMap
import Verif.Spec.Encode
import Verif.Model.Shuffle
/-!
# Specification of the channel shuffles and of 30-bit RGB
-/
namespace Verif.Spec

/-- Alpha of a pixel; `o` stands for opaque when the layout has none. -/
def alphaOr (o : Nat) : Channels → Buf → Nat
  | .rgba, px => px.getD 3 o
  | .bgra, px => px.getD 3 o
  | .rgb, _ => o
  | .bgr, _ => o

/-- The 32-bit word of a 30-bit RGB pixel.  The letters of the format name run from the most to the
least significant field for RA30/BA30 (R, G, B, then 2 bits of alpha); in AR30/AB30 the 2 bits of
alpha are on top and the last colour (B for AR30, R for AB30) comes next. -/
def word30 : Rgb30 → Nat → Nat → Nat → Nat → Nat
  | .ar30, r, g, b, a => a * 2 ^ 30 + b * 2 ^ 20 + g * 2 ^ 10 + r
  | .ab30, r, g, b, a => a * 2 ^ 30 + r * 2 ^ 20 + g * 2 ^ 10 + b
  | .ra30, r, g, b, a => r * 2 ^ 22 + g * 2 ^ 12 + b * 2 ^ 2 + a
  | .ba30, r, g, b, a => b * 2 ^ 22 + g * 2 ^ 12 + r * 2 ^ 2 + a

/-- Whether the word is stored most significant byte first: always in network order, on big-endian
machines in host order. -/
def bigFirst : HostOrder → ByteOrder30 → Bool
  | _, .network => true
  | .big, .host => true
  | .little, .host => false

/-- The bytes of a word. -/
def bytes30 (big : Bool) (v : Nat) : Buf :=
  let l := [v / 2 ^ 24, v / 2 ^ 16 % 256, v / 2 ^ 8 % 256, v % 256]
  if big then l else l.reverse

/-- The word stored in four bytes. -/
def wordAt30 (big : Bool) (px : Buf) : Nat :=
  let l := if big then px else px.reverse
  l.getD 0 0 * 2 ^ 24 + l.getD 1 0 * 2 ^ 16 + l.getD 2 0 * 2 ^ 8 + l.getD 3 0

/-- A pixel in memory. -/
def pixel30 (e : HostOrder) (o : ByteOrder30) (l : Rgb30) (r g b a : Nat) : Buf :=
  bytes30 (bigFirst e o) (word30 l r g b a)

/-- An 8-bit component in 10 bits: the high bits are repeated below; deeper components keep their 10
high bits. -/
def comp10 (d x : Nat) : Nat := if d = 8 then x * 4 + x / 64 else x / 2 ^ (d - 10)

end Verif.Spec
