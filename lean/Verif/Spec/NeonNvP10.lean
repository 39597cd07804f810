import Verif.Spec.NeonDeep8
/-!
# Specification of the 64-bit ARM decoding of P010, P210 and P410 to 8 bits
-/
namespace Verif.Spec

/-- What is added to a sum before its fractional bits are cut off: just below one half in the fast and
balanced modes, just below one — rounding up — in the professional mode. -/
def nv10Round : Mode → Int
  | .fast => 2 ^ 12 - 1
  | .balanced => 2 ^ 12 - 1
  | .professional => 2 ^ 14 - 1

/-- The number of fractional bits of a mode. -/
def nv10Bits : Mode → Nat
  | .fast => 13
  | .balanced => 13
  | .professional => 14

/-- A sum made a 10-bit value, cut down to 8 bits and saturated. -/
def nv10Cut (md : Mode) (s : Int) : Nat := byteSat ((s + nv10Round md) / 2 ^ nv10Bits md / 4)

/-- The weight of Cr in red: cast to 16 bits in the professional mode. -/
def nv10Cr : Mode → Int → Int
  | .fast, c => c
  | .balanced, c => c
  | .professional, c => int16 c

/-- Red, green and blue of 10-bit samples; luma below black counts as black. -/
def nv10RGB (md : Mode) (c : ChromaRange) (t : InvCoef) (y u v : Nat) : Nat × Nat × Nat :=
  let l := ((y - c.biasY : Nat) : Int) * t.y
  let cb := (u : Int) - c.biasUv
  let cr := (v : Int) - c.biasUv
  (nv10Cut md (l + cr * nv10Cr md t.cr), nv10Cut md (l - cr * t.g1 - cb * t.g2), nv10Cut md (l + cb * t.cb))

/-- The opaque pixel. -/
def nv10Pixel (md : Mode) (ch : Channels) (c : ChromaRange) (t : InvCoef) (y u v : Nat) : Buf :=
  let p := nv10RGB md c t y u v
  layout ch p.1 p.2.1 p.2.2 255

end Verif.Spec
