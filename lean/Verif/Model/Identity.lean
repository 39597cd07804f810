import Verif.Model.Gray
import Verif.Model.F32
/-!
# The identity matrix: GBR planes

/repo/src/from_identity.rs, /repo/src/from_identity_alpha.rs, /repo/src/to_identity.rs.
-/
namespace Verif

/-- `i32 as V`, `V` being `u8` at depth 8 and `u16` above. -/
def asSample (d : Nat) (x : Int) : Nat := if d = 8 then asU8 x else asU16 x

/-- `y_coef` of the decoders, /repo/src/from_identity.rs:354-355 and
/repo/src/from_identity_alpha.rs:117-118. -/
def gbrInvCoef (d : Nat) : Int :=
  roundAway (fmul (fdiv (u32AsF32 (2 ^ d - 1)) (u32AsF32 (getYuvRange d .limited).rangeY)) 8192)

/-- `y_coef` of the encoder, /repo/src/to_identity.rs:322-324; stored in an `i16` below depth 16. -/
def gbrFwdCoef (d : Nat) : Int :=
  let k := roundAway
    (fmul (fdiv (u32AsF32 (getYuvRange d .limited).rangeY) (u32AsF32 (2 ^ d - 1))) 8192)
  if d = 16 then k else asI16 k

/-- One component of a decoded pixel, /repo/src/from_identity.rs:382-387 (limited) and 407-409
(full). -/
def gbrDecodeVal (d : Nat) (rg : YuvRange) (s : Nat) : Outcome Nat :=
  match rg with
  | .full => .ok s
  | .limited => do
    let x ← narrowDiff d s (getYuvRange d .limited).biasY
    let x ← mul32 x (gbrInvCoef d)
    let x ← qrshr 13 d x
    return asSample d x

/-- One sample of an encoded plane, /repo/src/to_identity.rs:97-109 (limited) and 64-66 (full). -/
def gbrEncodeVal (d : Nat) (rg : YuvRange) (s : Nat) : Outcome Nat :=
  match rg with
  | .full => .ok s
  | .limited => do
    let x ← mul32 s (gbrFwdCoef d)
    let x ← add32 x ((getYuvRange d .limited).biasY * 2 ^ 13)
    let x ← qrshr 13 d x
    return asSample d x

/-- The inner loop of the decoder, /repo/src/from_identity.rs:379-391: the sources are the
Y (green), U (blue) and V (red) planes. -/
def gbrBody (v : Nat → Outcome Nat) (ch : Channels) (a : Nat) (px : List Buf) (c : Buf) :
    Outcome Buf := do
  let ys ← idx (px.getD 0 []) 0
  let us ← idx (px.getD 1 []) 0
  let vs ← idx (px.getD 2 []) 0
  let r ← v vs
  let g ← v ys
  let b ← v us
  storePix ch c r g b a

/-- As `gbrBody`, alpha being copied from the fourth source,
/repo/src/from_identity_alpha.rs:126-140. -/
def gbrAlphaBody (v : Nat → Outcome Nat) (ch : Channels) (px : List Buf) (c : Buf) :
    Outcome Buf := do
  let ys ← idx (px.getD 0 []) 0
  let us ← idx (px.getD 1 []) 0
  let vs ← idx (px.getD 2 []) 0
  let a ← idx (px.getD 3 []) 0
  let r ← v vs
  let g ← v ys
  let b ← v us
  storePix ch c r g b a

/-- Models `gbr_to_rgbx_impl`, /repo/src/from_identity.rs:280-419, which the `gbr_to_*` and
`gb{10,12,14,16}_to_*` functions call.  `hl` and `hf` stand for the limited-range and full-range
vector code. -/
def gbrToRgbx (tg : Target) (d : Nat) (ch : Channels) (hl hf : MapHandler) (i : Planar) (rgba : Buf)
    (stride : Nat) (rg : YuvRange) : Outcome Buf := do
  i.check tg .yuv444
  checkRgba tg rgba.length stride i.width i.height ch.count
  mapFrame false i.width ch.count (match rg with | .limited => hl | .full => hf)
    (gbrBody (gbrDecodeVal d rg) ch (2 ^ d - 1))
    [⟨i.y, i.yStride, 1, true⟩, ⟨i.u, i.uStride, 1, false⟩, ⟨i.v, i.vStride, 1, false⟩] rgba stride

/-- Models `gbr_to_rgbx_alpha_impl`, /repo/src/from_identity_alpha.rs:44-166, which the
`gbr_with_alpha_to_*` and `gb{10,12,14,16}_alpha_to_*` functions call. -/
def gbrAlphaToRgbx (tg : Target) (d : Nat) (ch : Channels) (i : PlanarAlpha) (rgba : Buf)
    (stride : Nat) (rg : YuvRange) : Outcome Buf :=
  if ch.hasAlpha = false then .panic
  else do
    i.check tg .yuv444
    checkRgba tg rgba.length stride i.width i.height ch.count
    mapFrame false i.width ch.count noMap (gbrAlphaBody (gbrDecodeVal d rg) ch)
      [⟨i.y, i.yStride, 1, true⟩, ⟨i.u, i.uStride, 1, false⟩, ⟨i.v, i.vStride, 1, false⟩,
        ⟨i.a, i.aStride, 1, false⟩] rgba stride

/-- One plane of the encoder's inner loop: the sample made from component `off` of the pixel.
/repo/src/to_identity.rs:58-67 and 91-110. -/
def toGbrBody (v : Nat → Outcome Nat) (off : Nat) (px : List Buf) (c : Buf) : Outcome Buf := do
  let s ← idx (px.getD 0 []) off
  let x ← v s
  setIdx c 0 x

/-- Models `rgbx_to_gbr_impl`, /repo/src/to_identity.rs:268-354, which the `*_to_gbr` and
`*_to_gb{10,12,14,16}` functions call.  The code walks the three planes and the pixels in one
zipped loop; as the planes do not influence each other, each plane gets its own loop here, in which
the other planes take part as (unread) sources so that the trip counts and the slices are those of
the code. -/
def rgbxToGbr (tg : Target) (d : Nat) (ch : Channels) (i : Planar) (rgba : Buf) (stride : Nat)
    (rg : YuvRange) : Outcome Planar := do
  i.check tg .yuv444
  checkRgba tg rgba.length stride i.width i.height ch.count
  let px : Src := ⟨rgba, stride, ch.count, false⟩
  let ys : Src := ⟨i.y, i.yStride, 1, true⟩
  let us : Src := ⟨i.u, i.uStride, 1, true⟩
  let vs : Src := ⟨i.v, i.vStride, 1, true⟩
  let v ← mapFrame true i.width 1 noMap (toGbrBody (gbrEncodeVal d rg) ch.rOff) [px, ys, us] i.v
    i.vStride
  let y ← mapFrame true i.width 1 noMap (toGbrBody (gbrEncodeVal d rg) ch.gOff) [px, us, vs] i.y
    i.yStride
  let u ← mapFrame true i.width 1 noMap (toGbrBody (gbrEncodeVal d rg) ch.bOff) [px, ys, vs] i.u
    i.uStride
  return { i with y := y, u := u, v := v }

end Verif
