import Verif.Model.PixelMap
import Verif.Model.RgbaToYuv
/-!
# Grey images

/repo/src/y_to_rgb.rs, /repo/src/y_with_alpha_to_rgb.rs, /repo/src/rgb_to_y.rs,
/repo/src/y_p16_to_rgb16.rs, /repo/src/y_p16_with_alpha_to_rgb16.rs.
-/
namespace Verif

/-- The inner loop of a grey decoder: `v` is what it makes of the luma sample, `a` the alpha value
of four-channel targets.  /repo/src/y_to_rgb.rs:52-63 (full range), 83-99 (limited). -/
def grayBody (v : Nat → Outcome Nat) (ch : Channels) (a : Nat) (px : List Buf) (c : Buf) :
    Outcome Buf := do
  let y ← idx (px.getD 0 []) 0
  let r ← v y
  storePix ch c r r r a

/-- As `grayBody`, alpha being copied from the second source,
/repo/src/y_with_alpha_to_rgb.rs:225-238 and 244-254. -/
def grayAlphaBody (v : Nat → Outcome Nat) (ch : Channels) (px : List Buf) (c : Buf) :
    Outcome Buf := do
  let y ← idx (px.getD 0 []) 0
  let a ← idx (px.getD 1 []) 0
  let r ← v y
  storePix ch c r r r a

/-- Limited range, 8 bits: /repo/src/y_to_rgb.rs:89-94 and
/repo/src/y_with_alpha_to_rgb.rs:231-234.  The difference is an `i16`, and so is the coefficient. -/
def grayLimited8 (t : InvCoef) (c : ChromaRange) (y : Nat) : Outcome Nat := do
  let yd ← chk16 ((y : Int) - c.biasY)
  let s ← mul32 yd (asI16 t.y)
  let r ← qrshr 13 8 s
  return asU8 r

/-- The sample conversion of an 8-bit grey decoder: the full range copies the luma. -/
def grayVal8 (rg : YuvRange) (m : Matrix) (y : Nat) : Outcome Nat :=
  match rg with
  | .limited => grayLimited8 (searchInverse 13 8 .limited m) (getYuvRange 8 .limited) y
  | .full => .ok y

/-- Models `y_to_rgbx`, /repo/src/y_to_rgb.rs:211-276, which the `yuv400_to_*` functions call.
`hd` stands for the limited-range vector code; in full range every target runs the same loop. -/
def yToRgbx (tg : Target) (ch : Channels) (hd : MapHandler) (i : Gray) (rgba : Buf) (stride : Nat)
    (rg : YuvRange) (m : Matrix) : Outcome Buf := do
  checkRgba tg rgba.length stride i.width i.height ch.count
  i.check tg
  match rg with
  | .limited =>
    mapFrame true i.width ch.count hd (grayBody (grayVal8 .limited m) ch 255)
      [⟨i.y, i.yStride, 1, true⟩] rgba stride
  | .full =>
    mapFrame false i.width ch.count noMap (grayBody (grayVal8 .full m) ch 255)
      [⟨i.y, i.yStride, 1, true⟩] rgba stride

/-- Models `y_with_alpha_to_rgbx`, /repo/src/y_with_alpha_to_rgb.rs:149-260, at 8 bits, the only
depth of its callers (`yuv400_alpha_to_rgba`, `yuv400_alpha_to_bgra`). -/
def yAlphaToRgbx (tg : Target) (ch : Channels) (hd : MapHandler) (i : GrayAlpha) (rgba : Buf)
    (stride : Nat) (rg : YuvRange) (m : Matrix) : Outcome Buf :=
  if ch.hasAlpha = false then .panic
  else do
    checkRgba tg rgba.length stride i.width i.height ch.count
    i.check tg
    let srcs : List Src := [⟨i.y, i.yStride, 1, true⟩, ⟨i.a, i.aStride, 1, false⟩]
    match rg with
    | .limited =>
      mapFrame false i.width ch.count hd (grayAlphaBody (grayVal8 .limited m) ch) srcs rgba stride
    | .full =>
      mapFrame false i.width ch.count noMap (grayAlphaBody (grayVal8 .full m) ch) srcs rgba stride

/-- The inner loop of the grey encoder, /repo/src/rgb_to_y.rs:190-199. -/
def toGrayBody (t : FwdCoef) (biasY : Nat) (ch : Channels) (px : List Buf) (c : Buf) :
    Outcome Buf := do
  let a ← readRgb ch (px.getD 0 [])
  let y ← lumaOf asU8 13 t biasY a
  setIdx c 0 y

/-- Models `rgbx_to_y`, /repo/src/rgb_to_y.rs:46-203, which the `*_to_yuv400` functions call.
The result is the luma plane. -/
def rgbxToY (tg : Target) (ch : Channels) (hd : MapHandler) (i : Gray) (rgba : Buf) (stride : Nat)
    (rg : YuvRange) (m : Matrix) : Outcome Buf := do
  checkRgba tg rgba.length stride i.width i.height ch.count
  i.check tg
  mapFrame true i.width 1 hd
    (toGrayBody (searchForward 13 8 rg m) (getYuvRange 8 rg).biasY ch)
    [⟨rgba, stride, ch.count, false⟩] i.y i.yStride

/-- `y_src.as_() - bias_y`: the intermediate type is `i16` for depths 10, 12 and 14, `i32` for
depth 16 (/repo/src/y_p16_to_rgb16.rs:266-329); `u16 as i16` reinterprets. -/
def narrowDiff (d y bias : Nat) : Outcome Int :=
  if d = 16 then chk32 ((y : Int) - bias) else chk16 (asI16 y - bias)

/-- Limited range at depth `d`, /repo/src/y_p16_to_rgb16.rs:200-204 and
/repo/src/y_p16_with_alpha_to_rgb16.rs:110-113. -/
def grayLimitedDeep (d : Nat) (t : InvCoef) (c : ChromaRange) (y : Nat) : Outcome Nat := do
  let yd ← narrowDiff d y c.biasY
  let s ← mul32 yd t.y
  let s ← add32 s (2 ^ 12 - 1)
  return asU16 (max (min (sar s 13) (2 ^ d - 1)) 0)

/-- The sample conversion of a high bit depth grey decoder. -/
def grayValDeep (d : Nat) (rg : YuvRange) (m : Matrix) (y : Nat) : Outcome Nat :=
  match rg with
  | .limited => grayLimitedDeep d (searchInverse 13 d .limited m) (getYuvRange d .limited) y
  | .full => .ok y

/-- Models `yuv400_p16_to_rgbx_impl`, /repo/src/y_p16_to_rgb16.rs:121-227, which the
`y0{10,12,14,16}_to_rgb[a]{10,12,14,16}` functions call: there is no validation at all. -/
def yDeepToRgbx (d : Nat) (ch : Channels) (hd : MapHandler) (i : Gray) (rgba : Buf)
    (stride : Nat) (rg : YuvRange) (m : Matrix) : Outcome Buf :=
  match rg with
  | .limited =>
    mapFrame false i.width ch.count hd (grayBody (grayValDeep d .limited m) ch (2 ^ d - 1))
      [⟨i.y, i.yStride, 1, true⟩] rgba stride
  | .full =>
    mapFrame false i.width ch.count noMap (grayBody (grayValDeep d .full m) ch (2 ^ d - 1))
      [⟨i.y, i.yStride, 1, true⟩] rgba stride

/-- Models `yuv400_p16_with_alpha_to_rgbx`, /repo/src/y_p16_with_alpha_to_rgb16.rs:39-141, which the
`y0{10,12,14,16}_alpha_to_rgba{10,12,14,16}` functions call: the destination is not validated. -/
def yDeepAlphaToRgbx (tg : Target) (d : Nat) (ch : Channels) (i : GrayAlpha) (rgba : Buf)
    (stride : Nat) (rg : YuvRange) (m : Matrix) : Outcome Buf := do
  i.check tg
  if ch.hasAlpha = false then .panic
  else
    mapFrame false i.width ch.count noMap (grayAlphaBody (grayValDeep d rg m) ch)
      [⟨i.y, i.yStride, 1, true⟩, ⟨i.a, i.aStride, 1, false⟩] rgba stride

end Verif
