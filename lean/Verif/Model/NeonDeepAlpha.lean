import Verif.Model.NeonDeep8
import Verif.Model.AlphaToRgba
/-!
# 64-bit ARM with NEON: planar 10- and 12-bit images with an alpha plane to 8-bit RGBA

/repo/src/neon/yuv_p16_to_rgba_alpha.rs, with the dispatch of /repo/src/yuv_p16_rgba_alpha.rs:177-203.  Eight
pixels per step; the last one to eight pixels of a row are left to the portable code.  The byte swaps are
compiled with the feature `big_endian` only; the model has it on.
-/
namespace Verif.Neon
open X86

/-- The body of the loop: /repo/src/neon/yuv_p16_to_rgba_alpha.rs:91-178.  The alpha words are brought to
native form (lines 92-101), unlike in the portable code. -/
def deepAlpha8Body (s : Sampling) (e : Endianness) (bp : BytesPacking) (d : Nat) (ch : Channels)
    (rg : ChromaRange) (t : InvCoef) (y u v a : Buf) (cx ux p : Nat) (row : Buf) : Outcome Buf := do
  let av ← load16 8 a cx
  let yv ← load16 8 y cx
  let uv ← deepChroma s e bp d rg u ux
  let vv ← deepChroma s e bp d rg v ux
  let c := deepWords 13 t (subsU16 (nativeReg e bp d yv) (set1_16 rg.biasY)) uv vv
  storeRgb 8 ch p (packShift d c.1) (packShift d c.2.1) (packShift d c.2.2) (packShift d (nativeReg e bp d av))
    row

/-- Models `neon_yuv_p16_to_rgba_alpha_row`, /repo/src/neon/yuv_p16_to_rgba_alpha.rs:42-193. -/
def deepAlpha8Row (s : Sampling) (e : Endianness) (bp : BytesPacking) (d : Nat) (ch : Channels)
    (rg : ChromaRange) (t : InvCoef) (width : Nat) (y u v a row : Buf) (cx ux : Nat) :
    Outcome (Buf × Nat × Nat) :=
  vwhile 8 (chromaStep s 8) width
    (fun cx ux row => deepAlpha8Body s e bp d ch rg t y u v a cx ux (cx * ch.count) row) cx ux row

/-- Models `process_wide_row`, /repo/src/yuv_p16_rgba_alpha.rs:112-205, on 64-bit ARM. -/
def deepAlpha8Handler (s : Sampling) (e : Endianness) (bp : BytesPacking) (d : Nat) (ch : Channels)
    (rg : ChromaRange) (t : InvCoef) (width : Nat) : AlphaHandler := fun y u v a row =>
  done (deepAlpha8Row s e bp d ch rg t width y u v a row 0 0)

/-- `yuv_p16_to_image_alpha_ant` of 8-bit targets (`Verif.p16AlphaToRgb8`) on 64-bit ARM. -/
def p16AlphaToRgb8 (e : Endianness) (bp : BytesPacking) (d : Nat) (ch : Channels)
    (s : Sampling) (i : PlanarAlpha) (rgba : Buf) (stride : Nat) (rg : YuvRange) (m : Matrix) :
    Outcome Buf :=
  Verif.p16AlphaToRgb8 x64 e bp d ch s
    (deepAlpha8Handler s e bp d ch (getYuvRange d rg) (searchInverse 13 d rg m) i.width) i rgba stride rg m

end Verif.Neon
