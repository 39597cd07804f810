import Verif.Spec.VecDecode
import Verif.Spec.Packed444
/-!
# Specification of the x86 decoders with an alpha plane
-/
namespace Verif.Spec

/-- Red, green and blue of `vecRGB` before saturation. -/
def vecSums (t : InvCoef) (yo u v : Nat) : Int × Int × Int :=
  let y := mulRound (expand10 yo) t.y
  let cb := expand10 u - expand10 128
  let cr := expand10 v - expand10 128
  (y + mulRound cr t.cr, y - (mulRound cr t.g1 + mulRound cb t.g2), y + mulRound cb t.cb)

/-- A 16-bit word. -/
def wrap16 (x : Int) : Nat := (x % 65536).toNat

/-- The AVX2 division of a word by 255: `(w + (w + 127)/256)/256` in 16-bit arithmetic. -/
def avx2Div (w : Nat) : Nat := (w + (w + 127) % 65536 / 256) % 65536 / 256
/-- The SSE division of a word by 255: `(w + 127 + w/256)/256` in 16-bit arithmetic. -/
def sseDiv (w : Nat) : Nat := (w + 127 + w / 256) % 65536 / 256

/-- How the vector kernels multiply a colour by alpha. -/
inductive PremulKind where
  /-- the loop of the AVX2 kernel: the saturated colour -/
  | avx2Loop
  /-- the last pixels of a row in the AVX2 kernel: no saturation from above -/
  | avx2Tail
  /-- the SSE4.1 kernel: no saturation at all -/
  | sse
  /-- the last pixels of a row of packed 4:4:4 in the AVX2 kernel: no saturation at all -/
  | avx2Raw
deriving DecidableEq, Repr

/-- A colour multiplied by alpha, from its unsaturated sum. -/
def vecPremul : PremulKind → Int → Nat → Nat
  | .avx2Loop, s, a => avx2Div (byteSat s * a)
  | .avx2Tail, s, a => avx2Div (wrap16 (max s 0 * a))
  | .sse, s, a => sseDiv (wrap16 (s * a))
  | .avx2Raw, s, a => avx2Div (wrap16 (s * a))

/-- The pixel of samples `y`, `u`, `v` with alpha `a`; `pm` is premultiplication. -/
def vecAlphaPixel (k : PremulKind) (pm : Bool) (ch : Channels) (rg : YuvRange) (m : Matrix)
    (a y u v : Nat) : Buf :=
  let s := vecSums (searchInverse 13 8 rg m) (y - (getYuvRange 8 rg).biasY) u v
  let f := fun c => if pm then vecPremul k c a else byteSat c
  layout ch (f s.1) (f s.2.1) (f s.2.2) a

/-- The pixel in column `x` of a row of `w` pixels: the AVX2 kernel takes 32 pixels at a time while
more than 32 remain, then the rest of the row. -/
def avx2AlphaPixel (pm : Bool) (ch : Channels) (rg : YuvRange) (m : Matrix) (w x a y u v : Nat) :
    Buf :=
  vecAlphaPixel (if x < 32 * ((w - 1) / 32) then .avx2Loop else .avx2Tail) pm ch rg m a y u v

/-- The pixel in column `x` of a row of `w` pixels: the SSE4.1 kernel takes 16 pixels at a time
while more than 16 remain, the scalar code does the rest. -/
def sseAlphaPixel (pm : Bool) (ch : Channels) (rg : YuvRange) (m : Matrix) (w x a y u v : Nat) :
    Buf :=
  if x < 16 * ((w - 1) / 16) then vecAlphaPixel .sse pm ch rg m a y u v
  else alphaPixel pm 13 8 ch rg m a y u v

/-- The pixel in column `x` of a row of `w` pixels of packed 4:4:4: the AVX2 kernel takes 32 pixels at
a time while more than 32 remain, then the rest of the row. -/
def avx2PackedPixel (pm : Bool) (f : Packed444) (ch : Channels) (rg : YuvRange) (m : Matrix) (w x : Nat)
    (px : Buf) : Buf :=
  let (y, u, v, a) := samples444 f px
  vecAlphaPixel (if x < 32 * ((w - 1) / 32) then .avx2Loop else .avx2Raw) pm ch rg m a y u v

end Verif.Spec
