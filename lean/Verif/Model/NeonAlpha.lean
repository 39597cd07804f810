import Verif.Model.Neon
import Verif.Model.X86Alpha
/-!
# 64-bit ARM with NEON: the 8-bit planar decoder with an alpha plane

/repo/src/neon/yuv_to_rgba_alpha.rs.  See Verif.Model.Neon.  The two registers of
a pair are bytes 0–15 and 16–31 of one register.
-/
namespace Verif.Neon
open X86

/-- `vmull_u8` of the lower halves. -/
def mullLow (a b : Reg) : Reg := mk16 fun k => (a k * b k : Nat)
/-- `vmull_high_u8`. -/
def mullHigh (a b : Reg) : Reg := mk16 fun k => (a (8 + k) * b (8 + k) : Nat)
/-- `vaddq_u16`. -/
def addU16 (a b : Reg) : Reg := mk16 fun k => (w16 a k + w16 b k : Nat)
/-- `vrsraq_n_u16::<8>`: the second register shifted with rounding, added to the first. -/
def rsra8 (a b : Reg) : Reg := mk16 fun k => (w16 a k + (w16 b k + 128) / 256 : Nat)
/-- `vqshrn_n_u16::<8>` of two registers and `vcombine_u8` of the results. -/
def qshrn8 (lo hi : Reg) : Reg := fun i =>
  min ((if i < 8 then w16 lo i else w16 hi (i - 8)) / 256) 255

/-- Models `neon_premultiply_alpha`, /repo/src/neon/utils.rs:248-262. -/
def premultiply (v a : Reg) : Reg :=
  let hi := mullHigh v a
  let lo := mullLow v a
  let jh := addU16 hi (set1_16 127)
  let jl := addU16 lo (set1_16 127)
  qshrn8 (rsra8 jl lo) (rsra8 jh hi)

/-- Red, green and blue of sixteen pixels, multiplied by the alphas `m` if `pm`, stored with the alphas
`a` at byte `p`: /repo/src/neon/yuv_to_rgba_alpha.rs:337-392. -/
def putAlpha16 (rdm pm : Bool) (ch : Channels) (t : InvCoef) (p : Nat) (y u v m a : Reg) (row : Buf) :
    Outcome Buf :=
  let lo := colours rdm true t (expandLow y) (shllLow u) (shllLow v)
  let hi := colours rdm true t (expandHigh y) (shllHigh u) (shllHigh v)
  let f := fun c : Reg => if pm then premultiply c m else c
  storeRgb 16 ch p (f (qmovun lo.1 hi.1)) (f (qmovun lo.2.1 hi.2.1)) (f (qmovun lo.2.2 hi.2.2)) a row

/-- Thirty-two pixels, /repo/src/neon/yuv_to_rgba_alpha.rs:152-287.  The code multiplies the colours of the
upper sixteen pixels by the first register of alphas and those of the lower sixteen by the second. -/
def alphaBody32 (rdm pm : Bool) (s : Sampling) (ch : Channels) (rg : ChromaRange) (t : InvCoef)
    (y u v a : Buf) (cx ux : Nat) (row : Buf) : Outcome Buf := do
  let yv ← load 32 y cx
  let c ← planarChroma .s32 s rg u v ux
  let yv := subsU8 yv (set1_8 rg.biasY)
  let av ← load 32 a cx
  let row ← putAlpha16 rdm pm ch t (cx * ch.count) yv c.1 c.2 (upper 16 av) av row
  putAlpha16 rdm pm ch t (cx * ch.count + ch.count * 16) (upper 16 yv) (upper 16 c.1) (upper 16 c.2) av
    (upper 16 av) row

/-- Sixteen pixels, /repo/src/neon/yuv_to_rgba_alpha.rs:289-393 and 437-509. -/
def alphaBody16 (rdm pm : Bool) (s : Sampling) (ch : Channels) (rg : ChromaRange) (t : InvCoef)
    (y u v a : Buf) (cx ux : Nat) (row : Buf) : Outcome Buf := do
  let yv ← load 16 y cx
  let av ← load 16 a cx
  let c ← planarChroma .s16 s rg u v ux
  putAlpha16 rdm pm ch t (cx * ch.count) (subsU8 yv (set1_8 rg.biasY)) c.1 c.2 av av row

/-- The last pixels of a row, at most sixteen, through zeroed buffers on the stack:
/repo/src/neon/yuv_to_rgba_alpha.rs:402-520.  As many alphas are copied as there are chroma samples. -/
def alphaTail (rdm pm : Bool) (s : Sampling) (ch : Channels) (rg : ChromaRange) (t : InvCoef)
    (width : Nat) (y u v a : Buf) (row : Buf) (cx ux : Nat) : Outcome (Buf × Nat × Nat) :=
  if cx < width then do
    let diff := width - cx
    if 16 < diff then .panic
    let yb ← copyIn y cx diff (List.replicate 16 0)
    let ud := chromaStep s diff
    let ab ← copyIn a cx ud (List.replicate 16 0)
    let ub ← copyIn u ux ud (List.replicate 16 0)
    let vb ← copyIn v ux ud (List.replicate 16 0)
    let db ← alphaBody16 rdm pm s ch rg t yb ub vb ab 0 0 (List.replicate 64 0)
    let row ← copyOut db (diff * ch.count) row (cx * ch.count)
    return (row, cx + diff, ux + ud)
  else .ok (row, cx, ux)

/-- Models `neon_yuv_to_rgba_alpha_impl`, /repo/src/neon/yuv_to_rgba_alpha.rs:98-523; the assertion that
the destination has alpha is in the caller too. -/
def alphaRow (rdm pm : Bool) (s : Sampling) (ch : Channels) (rg : ChromaRange) (t : InvCoef) (width : Nat)
    (y u v a row : Buf) (cx ux : Nat) : Outcome (Buf × Nat × Nat) := do
  let r ← vwhile 32 (chromaStep s 32) width (alphaBody32 rdm pm s ch rg t y u v a) cx ux row
  let r ← vwhile 16 (chromaStep s 16) width (alphaBody16 rdm pm s ch rg t y u v a) r.2.1 r.2.2 r.1
  alphaTail rdm pm s ch rg t width y u v a r.1 r.2.1 r.2.2

/-- Models `RgbDecoder::default` and `handle_row` on AArch64, /repo/src/yuv_to_rgba_alpha.rs:60-79 and
133-160. -/
def alphaHandler (rdm pm : Bool) (s : Sampling) (ch : Channels) (rg : ChromaRange) (t : InvCoef)
    (width : Nat) : AlphaHandler := fun y u v a row =>
  done (alphaRow rdm pm s ch rg t width y u v a row 0 0)

/-- `yuv_with_alpha_to_rgbx`, /repo/src/yuv_to_rgba_alpha.rs:163-469, on AArch64. -/
def yuvAlphaToRgbxNeon (rdm : Bool) (ch : Channels) (s : Sampling) (i : PlanarAlpha) (rgba : Buf)
    (stride : Nat) (rg : YuvRange) (m : Matrix) (pm : Bool) : Outcome Buf :=
  yuvAlphaToRgbx x64 ch s
    (alphaHandler rdm pm s ch (getYuvRange 8 rg) (searchInverse 13 8 rg m) i.width) i rgba stride rg m pm

end Verif.Neon
