import Verif.Model.NeonNvDeep16
import Verif.Model.AlphaToRgba
/-!
# 64-bit ARM with NEON: planar 10- to 14-bit images with an alpha plane to RGBA of the same depth

/repo/src/neon/yuv_p16_to_rgba16_alpha.rs, both kernels, with the dispatch of
/repo/src/yuv_p16_rgba16_alpha.rs:94-158.  Sixteen pixels per step, then eight, the last one to eight through
zeroed buffers.  As in Verif.Model.NeonDeep16 the chroma offset is subtracted after the words are doubled.
-/
namespace Verif.Neon
open X86

/-- Red, green and blue words from native luma and chroma words, 32-bit sums:
/repo/src/neon/yuv_p16_to_rgba16_alpha.rs:66-85 (constants) and 88-101, 151-206. -/
def alphaWideWords (d : Nat) (rg : ChromaRange) (t : InvCoef) (y u v : Reg) : Reg × Reg × Reg :=
  let y := subsU16 y (set1_16 rg.biasY)
  let u := sub16 u (set1_16 rg.biasUv)
  let v := sub16 v (set1_16 rg.biasUv)
  let out := fun f : Nat → Reg => minU16 (qrshrunS 13 (f 0) (f 4)) (set1_16 (2 ^ d - 1))
  (out fun o => mlalS o (mullS o y t.y) v t.cr,
    out fun o => mlalS o (mlalS o (mullS o y t.y) v (-t.g1)) u (-t.g2),
    out fun o => mlalS o (mullS o y t.y) u t.cb)

/-- The chosen kernel, /repo/src/yuv_p16_rgba16_alpha.rs:94-129.  The arithmetic of the kernel with rounding
multiply-accumulate, /repo/src/neon/yuv_p16_to_rgba16_alpha.rs:487-613, is that of the decoders without alpha. -/
def alpha16Words (rdm : Bool) (d : Nat) (rg : ChromaRange) (t : InvCoef) : Reg → Reg → Reg → Reg × Reg × Reg :=
  if rdm = true ∧ d = 10 then rdmWords d rg t else alphaWideWords d rg t

/-- Eight pixels with the arithmetic `K`: /repo/src/neon/yuv_p16_to_rgba16_alpha.rs:238-327 and 643-728, and
377-440 and 767-840 on the buffers.  The alpha words are stored as they are. -/
def alpha16Body (K : Reg → Reg → Reg → Reg × Reg × Reg) (s : Sampling) (e : Endianness) (bp : BytesPacking)
    (d : Nat) (ch : Channels) (y u v a : Buf) (cx ux p : Nat) (row : Buf) : Outcome Buf := do
  let av ← load16 8 a cx
  let yv ← load16 8 y cx
  let uv ← chroma8 s e bp d u ux
  let vv ← chroma8 s e bp d v ux
  let c := K (nativeReg e bp d yv) uv vv
  storeRgb16 ch p c.1 c.2.1 c.2.2 av row

/-- Sixteen pixels: /repo/src/neon/yuv_p16_to_rgba16_alpha.rs:87-236 and 511-641. -/
def alpha16Body2 (K : Reg → Reg → Reg → Reg × Reg × Reg) (s : Sampling) (e : Endianness) (bp : BytesPacking)
    (d : Nat) (ch : Channels) (y u v a : Buf) (cx ux p : Nat) (row : Buf) : Outcome Buf := do
  let y0 ← load16 8 y cx
  let y1 ← load16 8 y (cx + 8)
  let uv ← chroma16 s e bp d u ux
  let vv ← chroma16 s e bp d v ux
  let c0 := K (nativeReg e bp d y0) uv.1 vv.1
  let c1 := K (nativeReg e bp d y1) uv.2 vv.2
  let a0 ← load16 8 a cx
  let a1 ← load16 8 a (cx + 8)
  let row ← storeRgb16 ch p c0.1 c0.2.1 c0.2.2 a0 row
  storeRgb16 ch (p + 8 * ch.count) c1.1 c1.2.1 c1.2.2 a1 row

/-- The last pixels of a row through zeroed buffers: /repo/src/neon/yuv_p16_to_rgba16_alpha.rs:329-452 and
730-849; `f` is the body.  As many alpha words are copied as chroma words. -/
def alpha16Tail (s : Sampling) (ch : Channels) (width : Nat)
    (f : Buf → Buf → Buf → Buf → Buf → Outcome Buf) (y u v a : Buf) (row : Buf) (cx ux : Nat) :
    Outcome (Buf × Nat × Nat) :=
  if cx < width then do
    let diff := width - cx
    if 8 < diff then .panic
    let yb ← copyIn y cx diff (List.replicate 8 0)
    let ud := chromaStep s diff
    let ab ← copyIn a cx ud (List.replicate 8 0)
    let ub ← copyIn u ux ud (List.replicate 8 0)
    let vb ← copyIn v ux ud (List.replicate 8 0)
    let db ← f yb ub vb ab (List.replicate (8 * 4) 0)
    let row ← copyOut db (diff * ch.count) row (cx * ch.count)
    return (row, cx + diff, ux + ud)
  else .ok (row, cx, ux)

/-- Models `neon_yuv_p16_to_rgba16_alpha_row`, /repo/src/neon/yuv_p16_to_rgba16_alpha.rs:38-455, and
`neon_yuv_p16_to_rgba16_alpha_row_rdm`, lines 459-852, which differ in the arithmetic `K`. -/
def alpha16Row (K : Reg → Reg → Reg → Reg × Reg × Reg) (s : Sampling) (e : Endianness) (bp : BytesPacking)
    (d : Nat) (ch : Channels) (width : Nat) (y u v a row : Buf) : Outcome (Buf × Nat × Nat) := do
  let r ← vwhile 16 (chromaStep s 16) width
    (fun cx ux row => alpha16Body2 K s e bp d ch y u v a cx ux (cx * ch.count) row) 0 0 row
  let r ← vwhile 8 (chromaStep s 8) width
    (fun cx ux row => alpha16Body K s e bp d ch y u v a cx ux (cx * ch.count) row) r.2.1 r.2.2 r.1
  alpha16Tail s ch width (fun y u v a r => alpha16Body K s e bp d ch y u v a 0 0 0 r) y u v a r.1 r.2.1 r.2.2

/-- Models `process_wide_row`, /repo/src/yuv_p16_rgba16_alpha.rs:135-218, on 64-bit ARM; `rdm` says that the
processor has rounding multiply-accumulate and the feature is on. -/
def alpha16Handler (rdm : Bool) (s : Sampling) (e : Endianness) (bp : BytesPacking) (d : Nat) (ch : Channels)
    (rg : ChromaRange) (t : InvCoef) (width : Nat) : AlphaHandler := fun y u v a row =>
  done (alpha16Row (alpha16Words rdm d rg t) s e bp d ch width y u v a row)

/-- `yuv_p16_to_image_alpha_ant` of targets of the same depth (`Verif.p16AlphaToRgb16`) on 64-bit ARM. -/
def p16AlphaToRgb16 (rdm : Bool) (e : Endianness) (bp : BytesPacking) (d : Nat) (ch : Channels)
    (s : Sampling) (i : PlanarAlpha) (rgba : Buf) (stride : Nat) (rg : YuvRange) (m : Matrix) :
    Outcome Buf :=
  Verif.p16AlphaToRgb16 x64 e bp d ch s
    (alpha16Handler rdm s e bp d ch (getYuvRange d rg) (searchInverse 13 d rg m) i.width) i rgba stride rg m

end Verif.Neon
