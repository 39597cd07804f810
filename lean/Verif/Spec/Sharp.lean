import Verif.Spec.Encode
import Verif.Model.Sharp
/-!
# Specification of sharp YUV

Luma is that of the plain encoder.  Chroma is computed from a colour mixed in linear light from the
pixels a chroma sample covers, weighted 9:3:3:1 towards the first, the last row and column of the
image being repeated where it ends.
-/
namespace Verif.Spec

/-- The tables have the sizes and the ranges of `[u16; 256]` and `[u8; 65536]`. -/
structure GoodTables (T : GammaTables) : Prop where
  lin : T.lin.length = 256
  lin16 : ∀ a ∈ T.lin, a < 65536
  gam : T.gam.length = 65536
  gam8 : ∀ a ∈ T.gam, a < 256

/-- A component taken to linear light and back. -/
def mapped (T : GammaTables) (a : Nat) : Nat := T.gam.getD (T.lin.getD a 0) 0

/-- Four components mixed 9:3:3:1 in linear light, rounded to nearest. -/
def mixed (T : GammaTables) (a b c d : Nat) : Nat :=
  let l := fun x => T.lin.getD x 0
  T.gam.getD ((9 * l a + 3 * l b + 3 * l c + l d + 8) / 16) 0

/-- Component `comp` of the colour from which chroma sample `(cx, cy)` is computed: mixed from
columns `2cx`, `2cx + 1` and rows `vd·cy`, `vd·cy + vd - 1`, repeating the last column and row. -/
def sharpComp (T : GammaTables) (comp : Buf → Nat) (src : Buf) (stride cn w h vd cx cy : Nat) : Nat :=
  let px := fun x y => comp (pixelAt src stride cn (min x (w - 1)) (min y (h - 1)))
  mixed T (px (2 * cx) (vd * cy)) (px (2 * cx + 1) (vd * cy)) (px (2 * cx) (vd * cy + (vd - 1)))
    (px (2 * cx + 1) (vd * cy + (vd - 1)))

/-- Chroma sample `cx` of a 4:2:2 row covers the single last pixel of a row of odd width. -/
def rawTail (s : SharpSampling) (w cx : Nat) : Bool := decide (s = .yuv422 ∧ 2 * cx + 1 = w)

/-- What the code computes: as `sharpComp`, except that the last column of a 4:2:2 image of odd width
bypasses the tables. -/
def sharpColour (T : GammaTables) (s : SharpSampling) (comp : Buf → Nat) (src : Buf)
    (stride cn w h cx cy : Nat) : Nat :=
  if rawTail s w cx then comp (pixelAt src stride cn (2 * cx) cy)
  else sharpComp T comp src stride cn w h (vdiv s.sampling) cx cy

end Verif.Spec
