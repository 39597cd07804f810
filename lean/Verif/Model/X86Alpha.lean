import Verif.Model.X86Decode
import Verif.Model.AlphaToRgba
/-!
# The 8-bit decoders with an alpha plane for x86: AVX2 and SSE4.1

/repo/src/avx2/yuv_to_rgba_alpha.rs and /repo/src/sse/yuv_to_rgba_alpha.rs, with
the choice made by `RgbDecoder::default` (/repo/src/yuv_to_rgba_alpha.rs:58-126,
the `nightly_avx512` feature is off by default).
-/
namespace Verif.X86

/-- One of the two results of `avx2_div_by255_x2`, /repo/src/avx2/avx2_utils.rs:360-373. -/
def avx2Div255 (v : Reg) : Reg := srli16 8 (add16 v (srli16 8 (add16 v (set1_16 127))))
/-- Models `sse_div_by255`, /repo/src/sse/utils.rs:218-224. -/
def sseDiv255 (v : Reg) : Reg := srli16 8 (add16 (add16 v (set1_16 127)) (srli16 8 v))

/-- Red, green and blue of one half before they are packed,
/repo/src/avx2/yuv_to_rgba_alpha.rs:142-169. -/
def sumsRgb (t : InvCoef) (y : Reg) (c : Reg × Reg × Reg) : Reg × Reg × Reg :=
  let yl := mulhrs16 y (set1_16 (asI16 t.y))
  (add16 yl c.1, sub16 yl c.2.1, add16 yl c.2.2)

/-- `f` of the two halves of each colour. -/
def on3 (f : Reg → Reg → Reg) (lo hi : Reg × Reg × Reg) : Reg × Reg × Reg :=
  (f lo.1 hi.1, f lo.2.1 hi.2.1, f lo.2.2 hi.2.2)

/-- The words of two halves multiplied by alpha, divided and packed:
/repo/src/avx2/yuv_to_rgba_alpha.rs:183-201. -/
def scaleAlpha (div : Reg → Reg) (a lo hi : Reg) : Reg :=
  packus16 (div (mullo16 lo (unpacklo 1 a zero))) (div (mullo16 hi (unpackhi 1 a zero)))

/-- Premultiplication in the loop of the AVX2 kernel: the sums are packed to bytes (saturated)
first.  /repo/src/avx2/yuv_to_rgba_alpha.rs:171-202. -/
def avx2Premul (a lo hi : Reg) : Reg :=
  let v := packus16 lo hi
  scaleAlpha avx2Div255 a (unpacklo 1 v zero) (unpackhi 1 v zero)

/-- Premultiplication in the tail of the AVX2 kernel: negative sums become zero, there is no upper
bound.  /repo/src/avx2/yuv_to_rgba_alpha.rs:339-367. -/
def avx2PremulTail (a lo hi : Reg) : Reg := scaleAlpha avx2Div255 a (max16 lo zero) (max16 hi zero)

/-- Premultiplication in the SSE4.1 kernel, of the sums as they are.
/repo/src/sse/yuv_to_rgba_alpha.rs:161-174. -/
def ssePremul (a lo hi : Reg) : Reg := scaleAlpha sseDiv255 a lo hi

/-- The colours of a step: packed sums, or the premultiplication `pre`.
/repo/src/avx2/yuv_to_rgba_alpha.rs:139-207 and /repo/src/sse/yuv_to_rgba_alpha.rs:129-179. -/
def alphaRgb (pre : Reg → Reg → Reg → Reg) (pm : Bool) (rg : ChromaRange) (t : InvCoef)
    (y u v a : Reg) : Reg × Reg × Reg :=
  on3 (if pm then pre a else packus16)
    (sumsRgb t (expandLo y) (chromaTerms rg t (expandLo u) (expandLo v)))
    (sumsRgb t (expandHi y) (chromaTerms rg t (expandHi u) (expandHi v)))

/-- The chroma of 32 pixels: 16 bytes doubled with `_mm_unpacklo_epi8` and `_mm_unpackhi_epi8`, or 32
bytes.  /repo/src/avx2/yuv_to_rgba_alpha.rs:108-137. -/
def avx2AlphaChroma (s : Sampling) (c : Buf) (ux : Nat) : Outcome Reg :=
  match s with
  | .yuv420 | .yuv422 => do
    let r ← load 16 c ux
    return insertHi (unpacklo 1 r r) (unpackhi 1 r r)
  | .yuv444 => load 32 c ux

/-- The 32-pixel body of `avx2_yuv_to_rgba_alpha_impl`: sources read at `cx` and `ux`, destination
written at byte `p`.  The loop, /repo/src/avx2/yuv_to_rgba_alpha.rs:101-217, and the tail, lines
277-375, differ in `pre` only. -/
def avx2AlphaBody (pre : Reg → Reg → Reg → Reg) (pm : Bool) (s : Sampling) (ch : Channels)
    (rg : ChromaRange) (t : InvCoef) (y u v a : Buf) (cx ux p : Nat) (row : Buf) : Outcome Buf := do
  let yv ← load 32 y cx
  let av ← load 32 a cx
  let uv ← avx2AlphaChroma s u ux
  let vv ← avx2AlphaChroma s v ux
  let c := alphaRgb pre pm rg t (subsU8 yv (set1_8 rg.biasY)) uv vv av
  avx2Store ch p c.1 c.2.1 c.2.2 av row

/-- The last pixels of a row, at most 32, through zeroed buffers on the stack:
/repo/src/avx2/yuv_to_rgba_alpha.rs:231-388. -/
def avx2AlphaTail (s : Sampling) (ch : Channels) (width : Nat)
    (f : Buf → Buf → Buf → Buf → Buf → Outcome Buf) (y u v a : Buf) (row : Buf) (cx ux : Nat) :
    Outcome (Buf × Nat × Nat) :=
  if cx < width then do
    let diff := width - cx
    if 32 < diff then .panic
    let yb ← copyIn y cx diff (List.replicate 32 0)
    let ab ← copyIn a cx diff (List.replicate 32 0)
    let ud := chromaStep s diff
    let ub ← copyIn u ux ud (List.replicate 32 0)
    let vb ← copyIn v ux ud (List.replicate 32 0)
    let db ← f yb ub vb ab (List.replicate 128 0)
    let row ← copyOut db (diff * ch.count) row (cx * ch.count)
    return (row, cx + diff, ux + ud)
  else .ok (row, cx, ux)

/-- Models `avx2_yuv_to_rgba_alpha_impl`, /repo/src/avx2/yuv_to_rgba_alpha.rs:69-391. -/
def avx2AlphaRow (pm : Bool) (s : Sampling) (ch : Channels) (rg : ChromaRange) (t : InvCoef)
    (width : Nat) (y u v a row : Buf) (cx ux : Nat) : Outcome (Buf × Nat × Nat) := do
  let r ← vwhile 32 (chromaStep s 32) width
    (fun cx ux row => avx2AlphaBody avx2Premul pm s ch rg t y u v a cx ux (cx * ch.count) row) cx ux
    row
  avx2AlphaTail s ch width
    (fun y u v a d => avx2AlphaBody avx2PremulTail pm s ch rg t y u v a 0 0 0 d) y u v a r.1 r.2.1
    r.2.2

/-- The 16-pixel body of `sse_yuv_to_rgba_alpha_row_impl`,
/repo/src/sse/yuv_to_rgba_alpha.rs:106-190. -/
def sseAlphaBody (pm : Bool) (s : Sampling) (ch : Channels) (rg : ChromaRange) (t : InvCoef)
    (y u v a : Buf) (cx ux : Nat) (row : Buf) : Outcome Buf := do
  let yv ← load 16 y cx
  let av ← load 16 a cx
  let uv ← sseChroma s 16 u ux
  let vv ← sseChroma s 16 v ux
  let c := alphaRgb ssePremul pm rg t (subsU8 yv (set1_8 rg.biasY)) uv vv av
  sseStore ch (cx * ch.count) c.1 c.2.1 c.2.2 av row

/-- Models `sse_yuv_to_rgba_alpha_row_impl`, /repo/src/sse/yuv_to_rgba_alpha.rs:73-205. -/
def sseAlphaRow (pm : Bool) (s : Sampling) (ch : Channels) (rg : ChromaRange) (t : InvCoef)
    (width : Nat) (y u v a row : Buf) (cx ux : Nat) : Outcome (Buf × Nat × Nat) :=
  vwhile 16 (chromaStep s 16) width (sseAlphaBody pm s ch rg t y u v a) cx ux row

/-- Models `RgbDecoder::default` and `handle_row` for `PRECISION` 13,
/repo/src/yuv_to_rgba_alpha.rs:54-161. -/
def alphaHandlerOn (cpu : Cpu) (pm : Bool) (s : Sampling) (ch : Channels) (rg : ChromaRange)
    (t : InvCoef) (width : Nat) : AlphaHandler := fun y u v a row =>
  match cpu with
  | .avx2 => done (avx2AlphaRow pm s ch rg t width y u v a row 0 0)
  | .sse41 => done (sseAlphaRow pm s ch rg t width y u v a row 0 0)
  | .plain => noAlphaSimd y u v a row

/-- `yuv_with_alpha_to_rgbx`, /repo/src/yuv_to_rgba_alpha.rs:163-469, on a processor of class
`cpu`. -/
def yuvAlphaToRgbxOn (cpu : Cpu) (ch : Channels) (s : Sampling) (i : PlanarAlpha) (rgba : Buf)
    (stride : Nat) (rg : YuvRange) (m : Matrix) (pm : Bool) : Outcome Buf :=
  yuvAlphaToRgbx x64 ch s
    (alphaHandlerOn cpu pm s ch (getYuvRange 8 rg) (searchInverse 13 8 rg m) i.width) i rgba stride
    rg m pm

end Verif.X86
