import Verif.Model.Support
/-!
# Argument validation

Models the validators of /repo/src/yuv_error.rs and the image types of
/repo/src/images.rs.  Widths, heights and strides are `u32` in the code and
`Nat` here; that they are below 2^32 is a hypothesis (`U32`) of the theorems.
-/
namespace Verif

/-- The target the crate is compiled for: width of `usize`, and whether an
arithmetic overflow wraps (release build) or panics (debug build). -/
structure Target where
  bits : Nat
  wraps : Bool
deriving DecidableEq, Repr

namespace Target
/-- Result of a `usize` operation whose exact value is `x`. -/
def usize (t : Target) (x : Nat) : Outcome Nat :=
  if x < 2 ^ t.bits then .ok x
  else if t.wraps then .ok (x % 2 ^ t.bits) else .panic
/-- Result of a `u32` operation whose exact value is `x`. -/
def u32 (t : Target) (x : Nat) : Outcome Nat :=
  if x < 2 ^ 32 then .ok x
  else if t.wraps then .ok (x % 2 ^ 32) else .panic
end Target

/-- 64-bit targets, debug build: an overflow is a panic.  A theorem that shows
`Ok` or `Err` here shows in particular that nothing overflows, so it also holds
for the release build. -/
def x64 : Target := ⟨64, false⟩

/-- Models `check_overflow_v2`, /repo/src/yuv_error.rs:99-106. -/
def checkOverflow2 (t : Target) (a b : Nat) : Outcome Unit :=
  if a * b < 2 ^ t.bits then .ok () else .err .pointerOverflow

/-- Models `check_overflow_v3`, /repo/src/yuv_error.rs:108-119.  The second
product is reached only if the first did not overflow. -/
def checkOverflow3 (t : Target) (a b c : Nat) : Outcome Unit :=
  if a * b < 2 ^ t.bits then
    if a * b * c < 2 ^ t.bits then .ok () else .err .pointerOverflow
  else .err .pointerOverflow

/-- Models `check_rgba_destination`, /repo/src/yuv_error.rs:121-146; `len` is
`arr.len()`. -/
def checkRgba (t : Target) (len stride width height channels : Nat) : Outcome Unit :=
  if width = 0 ∨ height = 0 then .err .zeroBaseSize
  else do
    checkOverflow3 t width height channels
    let rows ← t.usize (stride * (height - 1))
    let row ← t.usize (width * channels)
    let need ← t.usize (rows + row)
    if len < need then do
      let expected ← t.usize (stride * height)
      .err (.destinationSizeMismatch ⟨expected, len⟩)
    else if stride < row then .err (.minimumStrideSizeMismatch ⟨row, stride⟩)
    else .ok ()

/-- Models `check_yuv_packed422`, /repo/src/yuv_error.rs:148-172. -/
def checkPacked422 (t : Target) (len stride width height : Nat) : Outcome Unit :=
  if width = 0 ∨ height = 0 then .err .zeroBaseSize
  else do
    checkOverflow2 t stride height
    checkOverflow2 t width height
    let full ←
      if width % 2 = 0 then do
        let a ← t.usize (2 * width)
        t.usize (a * height)
      else do
        let a ← t.usize (width + 1)
        let b ← t.usize (2 * a)
        t.usize (b * height)
    if len ≠ full then do
      let expected ← t.usize (stride * height)
      .err (.packedFrameSizeMismatch ⟨expected, len⟩)
    else .ok ()

/-- Models `check_y8_channel`, /repo/src/yuv_error.rs:174-199. -/
def checkY8 (t : Target) (len stride width height : Nat) : Outcome Unit :=
  if width = 0 ∨ height = 0 then .err .zeroBaseSize
  else do
    checkOverflow2 t stride height
    checkOverflow2 t width height
    if stride * height < width * height then
      .err (.lumaPlaneMinimumSizeMismatch ⟨width * height, stride * height⟩)
    else do
      let rows ← t.usize (stride * (height - 1))
      let need ← t.usize (rows + width)
      if len < need then .err (.lumaPlaneSizeMismatch ⟨stride * height, len⟩)
      else .ok ()

/-- `chroma_min_width` of `check_chroma_channel`, /repo/src/yuv_error.rs:212-215. -/
def Sampling.chromaWidth (s : Sampling) (width : Nat) : Nat :=
  match s with
  | .yuv420 => ceil2 width
  | .yuv422 => ceil2 width
  | .yuv444 => width

/-- `chroma_height` of `check_chroma_channel`, /repo/src/yuv_error.rs:216-219. -/
def Sampling.chromaHeight (s : Sampling) (height : Nat) : Nat :=
  match s with
  | .yuv420 => ceil2 height
  | .yuv422 => height
  | .yuv444 => height

/-- Models `check_chroma_channel`, /repo/src/yuv_error.rs:201-237. -/
def checkChroma (t : Target) (len stride width height : Nat) (s : Sampling) : Outcome Unit :=
  if width = 0 ∨ height = 0 then .err .zeroBaseSize
  else do
    let cw := s.chromaWidth width
    let ch := s.chromaHeight height
    checkOverflow2 t stride ch
    checkOverflow2 t cw ch
    if stride * ch < cw * ch then
      .err (.chromaPlaneMinimumSizeMismatch ⟨cw * ch, stride * ch⟩)
    else do
      let rows ← t.usize (stride * (ch - 1))
      let need ← t.usize (rows + cw)
      if len < need then .err (.chromaPlaneMinimumSizeMismatch ⟨need, len⟩)
      else .ok ()

/-- Models `check_interleaved_chroma_channel`, /repo/src/yuv_error.rs:239-277.
The doubled width is computed in `u32`. -/
def checkInterleaved (t : Target) (len stride width height : Nat) (s : Sampling) : Outcome Unit :=
  if width = 0 ∨ height = 0 then .err .zeroBaseSize
  else do
    let cw ← t.u32 (s.chromaWidth width * 2)
    let ch := s.chromaHeight height
    checkOverflow2 t stride ch
    checkOverflow2 t cw ch
    if stride * ch < cw * ch then
      .err (.chromaPlaneMinimumSizeMismatch ⟨cw * ch, stride * ch⟩)
    else if stride * ch ≠ len ∨ cw * ch ≠ len then
      .err (.chromaPlaneSizeMismatch ⟨stride * ch, len⟩)
    else .ok ()

/-! ## Image types -/

/-- Models `YuvPlanarImage` and `YuvPlanarImageMut`, /repo/src/images.rs:294-309 and 337-352
(`BufferStoreMut` is the buffer it stores). -/
structure Planar where
  y : Buf
  yStride : Nat
  u : Buf
  uStride : Nat
  v : Buf
  vStride : Nat
  width : Nat
  height : Nat
deriving DecidableEq, Repr

/-- Models `YuvPlanarImage::check_constraints`, /repo/src/images.rs:315-332 (and the
identical one of `YuvPlanarImageMut`, 358-380). -/
def Planar.check (t : Target) (i : Planar) (s : Sampling) : Outcome Unit := do
  checkY8 t i.y.length i.yStride i.width i.height
  checkChroma t i.u.length i.uStride i.width i.height s
  checkChroma t i.v.length i.vStride i.width i.height s

/-- Models `YuvBiPlanarImage` and `YuvBiPlanarImageMut`, /repo/src/images.rs:64-76 and 97-109. -/
structure BiPlanar where
  y : Buf
  yStride : Nat
  uv : Buf
  uvStride : Nat
  width : Nat
  height : Nat
deriving DecidableEq, Repr

/-- Models `YuvBiPlanarImage::check_constraints`, /repo/src/images.rs:82-92 (and 115-130). -/
def BiPlanar.check (t : Target) (i : BiPlanar) (s : Sampling) : Outcome Unit := do
  checkY8 t i.y.length i.yStride i.width i.height
  checkInterleaved t i.uv.length i.uvStride i.width i.height s

/-- Models `YuvGrayImage` and `YuvGrayImageMut`, /repo/src/images.rs:191-200 and 214-223. -/
structure Gray where
  y : Buf
  yStride : Nat
  width : Nat
  height : Nat
deriving DecidableEq, Repr

/-- Models `YuvGrayImage::check_constraints`, /repo/src/images.rs:206-209 (and 229-237). -/
def Gray.check (t : Target) (i : Gray) : Outcome Unit :=
  checkY8 t i.y.length i.yStride i.width i.height

/-- Models `YuvGrayAlphaImage`, /repo/src/images.rs:267-279. -/
structure GrayAlpha where
  y : Buf
  yStride : Nat
  a : Buf
  aStride : Nat
  width : Nat
  height : Nat
deriving DecidableEq, Repr

/-- Models `YuvGrayAlphaImage::check_constraints`, /repo/src/images.rs:285-289. -/
def GrayAlpha.check (t : Target) (i : GrayAlpha) : Outcome Unit := do
  checkY8 t i.y.length i.yStride i.width i.height
  checkY8 t i.a.length i.aStride i.width i.height

/-- Models `YuvPlanarImageWithAlpha`, /repo/src/images.rs:430-448. -/
structure PlanarAlpha where
  y : Buf
  yStride : Nat
  u : Buf
  uStride : Nat
  v : Buf
  vStride : Nat
  a : Buf
  aStride : Nat
  width : Nat
  height : Nat
deriving DecidableEq, Repr

/-- Models `YuvPlanarImageWithAlpha::check_constraints`, /repo/src/images.rs:454-472. -/
def PlanarAlpha.check (t : Target) (i : PlanarAlpha) (s : Sampling) : Outcome Unit := do
  checkY8 t i.y.length i.yStride i.width i.height
  checkY8 t i.a.length i.aStride i.width i.height
  checkChroma t i.u.length i.uStride i.width i.height s
  checkChroma t i.v.length i.vStride i.width i.height s

/-- Models `YuvPackedImage` and `YuvPackedImageMut`, /repo/src/images.rs:477-486 and 505-514. -/
structure Packed where
  yuy : Buf
  yuyStride : Nat
  width : Nat
  height : Nat
deriving DecidableEq, Repr

/-- Models `YuvPackedImage::check_constraints`, /repo/src/images.rs:492-495 (and 520-523). -/
def Packed.check (t : Target) (i : Packed) : Outcome Unit :=
  checkPacked422 t i.yuy.length i.yuyStride i.width i.height

/-- Models `YuvPackedImage::check_constraints444`, /repo/src/images.rs:497-500. -/
def Packed.check444 (t : Target) (i : Packed) : Outcome Unit :=
  checkRgba t i.yuy.length i.yuyStride i.width i.height 4

/-! ## Allocation -/

/-- `vec![T::default(); n]` -/
def zeros (n : Nat) : Buf := List.replicate n 0

/-- Models `YuvPlanarImageMut::alloc`, /repo/src/images.rs:388-412.  A `usize`
overflow of a product panics (debug build) as in the code. -/
def Planar.alloc (t : Target) (width height : Nat) (s : Sampling) : Outcome Planar := do
  let cw := s.chromaWidth width
  let ch := s.chromaHeight height
  let n ← t.usize (width * height)
  let nc ← t.usize (cw * ch)
  return { y := zeros n, yStride := width, u := zeros nc, uStride := cw % 2 ^ 32
           v := zeros nc, vStride := cw % 2 ^ 32, width := width, height := height }

/-- Models `YuvBiPlanarImageMut::alloc`, /repo/src/images.rs:138-159. -/
def BiPlanar.alloc (t : Target) (width height : Nat) (s : Sampling) : Outcome BiPlanar := do
  let cw ← t.usize (s.chromaWidth width * 2)
  let ch := s.chromaHeight height
  let n ← t.usize (width * height)
  let nc ← t.usize (cw * ch)
  return { y := zeros n, yStride := width, uv := zeros nc, uvStride := cw % 2 ^ 32
           width := width, height := height }

/-- Models `YuvGrayImageMut::alloc`, /repo/src/images.rs:254-262. -/
def Gray.alloc (t : Target) (width height : Nat) : Outcome Gray := do
  let n ← t.usize (width * height)
  return { y := zeros n, yStride := width, width := width, height := height }

end Verif
