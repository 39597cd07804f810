import Verif.Model.Core
/-!
# Mirroring and rotation: /repo/src/mirroring.rs, /repo/src/geometry.rs

The functions pick a routine of the crate `fast_transpose` and translate its error.  The crate is not
part of the repository; it is a parameter of the model.
-/
namespace Verif

/-- `fast_transpose::TransposeError` as matched in /repo/src/geometry.rs:53-56. -/
inductive TransposeError
  | mismatchDimensions | invalidArraySize
deriving DecidableEq, Repr

/-- What a routine of the crate returns: the destination, an error, or a panic. -/
inductive LibResult
  | ok (dst : Buf)
  | err (e : TransposeError)
  | panic
deriving DecidableEq, Repr

/-- The pixels of the public functions; 8-bit and 16-bit variants differ in the element type only,
which the model does not distinguish. -/
inductive PixelKind
  | rgba | rgb | cbcr | plane
deriving DecidableEq, Repr

def PixelKind.count : PixelKind → Nat
  | .rgba => 4
  | .rgb => 3
  | .cbcr => 2
  | .plane => 1

/-- Arguments: source, its stride, destination, its stride, width, height. -/
abbrev Routine := Buf → Nat → Buf → Nat → Nat → Nat → LibResult

/-- The routines of `fast_transpose` imported in /repo/src/mirroring.rs:31-35 and
/repo/src/geometry.rs:30-35, one per kind of pixel.  `transpose k flip flop` stands for
`transpose_*(.., FlipMode, FlopMode)`, `true` for `Flip` and `Flop`. -/
structure TurnLib where
  flip : PixelKind → Routine
  flop : PixelKind → Routine
  rotate180 : PixelKind → Routine
  transpose : PixelKind → Bool → Bool → Routine

/-- Models `map_ft_result`, /repo/src/geometry.rs:47-57. -/
def mapFt : LibResult → Outcome Buf
  | .ok d => .ok d
  | .err .mismatchDimensions => .err .imageDimensionsNotMatch
  | .err .invalidArraySize => .err .imagesSizesNotMatch
  | .panic => .panic

/-- `MirrorMode`, /repo/src/mirroring.rs:39-43. -/
inductive MirrorMode
  | vertical | horizontal
deriving DecidableEq, Repr

/-- `RotationMode`, /repo/src/geometry.rs:39-44. -/
inductive RotationMode
  | rotate90 | rotate180 | rotate270
deriving DecidableEq, Repr

/-- Models `mirror_rgba`, `mirror_rgb`, `mirror_cbcr`, `mirror_plane` and their 16-bit variants,
/repo/src/mirroring.rs:60-306. -/
def mirror (L : TurnLib) (k : PixelKind) (mode : MirrorMode) (src : Buf) (ss : Nat) (dst : Buf)
    (ds w h : Nat) : Outcome Buf :=
  mapFt (match mode with
    | .vertical => L.flop k src ss dst ds w h
    | .horizontal => L.flip k src ss dst ds w h)

/-- Models `rotate_rgba`, `rotate_rgb`, `rotate_cbcr`, `rotate_plane` and their 16-bit variants,
/repo/src/geometry.rs:74-470. -/
def rotate (L : TurnLib) (k : PixelKind) (mode : RotationMode) (src : Buf) (ss : Nat) (dst : Buf)
    (ds w h : Nat) : Outcome Buf :=
  mapFt (match mode with
    | .rotate90 => L.transpose k false false src ss dst ds w h
    | .rotate180 => L.rotate180 k src ss dst ds w h
    | .rotate270 => L.transpose k true true src ss dst ds w h)

end Verif
