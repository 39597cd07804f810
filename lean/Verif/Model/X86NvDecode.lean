import Verif.Model.X86Decode
import Verif.Model.NvToRgba
/-!
# The 8-bit semi-planar decoders for x86: AVX2 and SSE4.1

/repo/src/avx2/yuv_nv_to_rgba.rs, yuv_nv_to_rgba422.rs, yuv_nv_to_rgba420.rs and the same files of
/repo/src/sse, with the choice made by `NVRowHandler::default` and `NVRow420Handler::default`
(/repo/src/yuv_nv_to_rgba.rs:96-243 and 503-595) for the default precision 13.  In every kernel the
offset of the chroma words is subtracted either before or after the swap of the VU order; the model
subtracts it after the swap (`chromaTerms`), which is the same.
-/
namespace Verif.X86

/-- `avx2_interleave_even`, /repo/src/avx2/avx2_utils.rs:203-214. -/
def avx2Even (x : Reg) : Reg :=
  shuffle8 x (setr8 [0, 0, 2, 2, 4, 4, 6, 6, 8, 8, 10, 10, 12, 12, 14, 14, 16, 16, 18, 18, 20, 20,
    22, 22, 24, 24, 26, 26, 28, 28, 30, 30])
/-- `avx2_interleave_odd`, /repo/src/avx2/avx2_utils.rs:189-200. -/
def avx2Odd (x : Reg) : Reg :=
  shuffle8 x (setr8 [1, 1, 3, 3, 5, 5, 7, 7, 9, 9, 11, 11, 13, 13, 15, 15, 17, 17, 19, 19, 21, 21,
    23, 23, 25, 25, 27, 27, 29, 29, 31, 31])

/-- `_mm256_deinterleave_x2_epi8`, /repo/src/avx2/avx2_utils.rs:375-388. -/
def avx2Deinterleave (a b : Reg) : Reg × Reg :=
  let sh := setr8 [0, 2, 4, 6, 8, 10, 12, 14, 1, 3, 5, 7, 9, 11, 13, 15, 0, 2, 4, 6, 8, 10, 12, 14,
    1, 3, 5, 7, 9, 11, 13, 15]
  let p0 := shuffle8 a sh
  let p1 := shuffle8 b sh
  let pl := permute2x128 32 p0 p1
  let ph := permute2x128 49 p0 p1
  (unpacklo 8 pl ph, unpackhi 8 pl ph)

/-- `_mm_deinterleave_x2_epi8`, /repo/src/sse/utils.rs:170-184. -/
def sseDeinterleave (a b : Reg) : Reg × Reg :=
  let t10 := unpacklo 1 a b
  let t11 := unpackhi 1 a b
  let t20 := unpacklo 1 t10 t11
  let t21 := unpackhi 1 t10 t11
  let t30 := unpacklo 1 t20 t21
  let t31 := unpackhi 1 t20 t21
  (unpacklo 1 t30 t31, unpackhi 1 t30 t31)

/-- `if order == YuvNVOrder::VU { std::mem::swap(&mut u, &mut v) }`,
/repo/src/avx2/yuv_nv_to_rgba.rs:121-123. -/
def swapUv (o : NVOrder) (c : Reg × Reg) : Reg × Reg :=
  match o with
  | .uv => c
  | .vu => (c.2, c.1)

/-- Interleaved chroma bytes of `n` pixels: `diff.div_ceil(2) * 2` or `diff * 2`,
/repo/src/avx2/yuv_nv_to_rgba.rs:206-209, also the advance of `uv_x` (181-188). -/
def nvStep (s : Sampling) (n : Nat) : Nat := chromaStep s n * 2

/-! ## The ends of rows -/

/-- The last pixels of a row, at most `N` = 32 or 8, through zeroed buffers on the stack:
/repo/src/avx2/yuv_nv_to_rgba.rs:191-306, /repo/src/avx2/yuv_nv_to_rgba422.rs:169-279,
/repo/src/sse/yuv_nv_to_rgba.rs:307-425 and /repo/src/sse/yuv_nv_to_rgba422.rs:211-293 (`f` is the
`N`-pixel body). -/
def nvTailRow (N : Nat) (s : Sampling) (ch : Channels) (width : Nat)
    (f : Buf → Buf → Buf → Outcome Buf) (y uv : Buf) (row : Buf) (cx ux : Nat) :
    Outcome (Buf × Nat × Nat) :=
  if cx < width then do
    let diff := width - cx
    if N < diff then .panic
    let yb ← copyIn y cx diff (List.replicate N 0)
    let hv := nvStep s diff
    let uvb ← copyIn uv ux hv (List.replicate (N * 2) 0)
    let db ← f yb uvb (List.replicate (N * 4) 0)
    let row ← copyOut db (diff * ch.count) row (cx * ch.count)
    return (row, cx + diff, ux + hv)
  else .ok (row, cx, ux)

/-- The last pixels of a pair of rows, /repo/src/avx2/yuv_nv_to_rgba420.rs:189-332 and
/repo/src/sse/yuv_nv_to_rgba420.rs:256-373. -/
def nvTailRows (N : Nat) (ch : Channels) (width : Nat)
    (f : Buf → Buf → Buf → Buf × Buf → Outcome (Buf × Buf)) (y0 y1 uv : Buf)
    (rows : Buf × Buf) (cx ux : Nat) : Outcome ((Buf × Buf) × Nat × Nat) :=
  if cx < width then do
    let diff := width - cx
    if N < diff then .panic
    let yb0 ← copyIn y0 cx diff (List.replicate N 0)
    let yb1 ← copyIn y1 cx diff (List.replicate N 0)
    let hv := nvStep .yuv420 diff
    let uvb ← copyIn uv ux hv (List.replicate (N * 2) 0)
    let db ← f yb0 yb1 uvb (List.replicate (N * 4) 0, List.replicate (N * 4) 0)
    let row0 ← copyOut db.1 (diff * ch.count) rows.1 (cx * ch.count)
    let row1 ← copyOut db.2 (diff * ch.count) rows.2 (cx * ch.count)
    return ((row0, row1), cx + diff, ux + hv)
  else .ok (rows, cx, ux)

/-! ## AVX2 -/

/-- The chroma bytes of 32 pixels, one per pixel: /repo/src/avx2/yuv_nv_to_rgba.rs:98-123. -/
def avx2NvChroma (s : Sampling) (o : NVOrder) (uv : Buf) (ux : Nat) : Outcome (Reg × Reg) :=
  match s with
  | .yuv420 | .yuv422 => do
    let r ← load 32 uv ux
    return swapUv o (avx2Even r, avx2Odd r)
  | .yuv444 => do
    let a ← load 32 uv ux
    let b ← load 32 uv (ux + 32)
    return swapUv o (avx2Deinterleave a b)

/-- The 32-pixel body of `avx2_yuv_nv_to_rgba_row_impl`, /repo/src/avx2/yuv_nv_to_rgba.rs:96-177 (and
216-294): destination written at byte `p`. -/
def avx2NvBody (s : Sampling) (o : NVOrder) (ch : Channels) (rg : ChromaRange) (t : InvCoef)
    (y uv : Buf) (cx ux p : Nat) (row : Buf) : Outcome Buf := do
  let yv ← load 32 y cx
  let c ← avx2NvChroma s o uv ux
  let c := rgb444 rg t (subsU8 yv (set1_8 rg.biasY)) c.1 c.2
  avx2Store ch p c.1 c.2.1 c.2.2 (set1_8 255) row

/-- Models `avx2_yuv_nv_to_rgba_row_impl`, /repo/src/avx2/yuv_nv_to_rgba.rs:62-309. -/
def avx2NvRow (s : Sampling) (o : NVOrder) (ch : Channels) (rg : ChromaRange) (t : InvCoef)
    (width : Nat) (y uv row : Buf) (cx ux : Nat) : Outcome (Buf × Nat × Nat) := do
  let r ← vwhile 32 (nvStep s 32) width
    (fun cx ux row => avx2NvBody s o ch rg t y uv cx ux (cx * ch.count) row) cx ux row
  nvTailRow 32 s ch width (fun y uv d => avx2NvBody s o ch rg t y uv 0 0 0 d) y uv r.1 r.2.1 r.2.2

/-- Masks `sh_e` and `sh_o`, /repo/src/avx2/yuv_nv_to_rgba422.rs:91-98 and
/repo/src/sse/yuv_nv_to_rgba422.rs:97-98: the bytes of a word are copies of one byte. -/
def shE : Reg := setr8 [0, 0, 2, 2, 4, 4, 6, 6, 8, 8, 10, 10, 12, 12, 14, 14, 0, 0, 2, 2, 4, 4, 6, 6,
  8, 8, 10, 10, 12, 12, 14, 14]
/-- See `shE`. -/
def shO : Reg := setr8 [1, 1, 3, 3, 5, 5, 7, 7, 9, 9, 11, 11, 13, 13, 15, 15, 1, 1, 3, 3, 5, 5, 7, 7,
  9, 9, 11, 11, 13, 13, 15, 15]

/-- Ten-bit chroma words from interleaved bytes, one per pair: `_mm_shuffle_epi8` with `sh_e` and
`sh_o`, `_mm_srli_epi16::<6>` and the swap, /repo/src/avx2/yuv_nv_to_rgba422.rs:91-111,
/repo/src/sse/yuv_nv_to_rgba422.rs:97-111. -/
def nvWords (o : NVOrder) (r : Reg) : Reg × Reg :=
  swapUv o (srli16 6 (shuffle8 r shE), srli16 6 (shuffle8 r shO))

/-- The 32-pixel body of `avx2_yuv_nv_to_rgba_row_impl422`,
/repo/src/avx2/yuv_nv_to_rgba422.rs:86-163 (and 192-267). -/
def avx2NvBody422 (o : NVOrder) (ch : Channels) (rg : ChromaRange) (t : InvCoef) (y uv : Buf)
    (cx ux p : Nat) (row : Buf) : Outcome Buf := do
  let yv ← load 32 y cx
  let r ← load 32 uv ux
  let yv := subsU8 yv (set1_8 rg.biasY)
  let c := chromaTerms rg t (nvWords o r).1 (nvWords o r).2
  let c := packRgb t (expandLo yv) (expandHi yv) (dupLo c) (dupHi c)
  avx2Store ch p c.1 c.2.1 c.2.2 (set1_8 255) row

/-- Models `avx2_yuv_nv_to_rgba_row_impl422`, /repo/src/avx2/yuv_nv_to_rgba422.rs:57-282. -/
def avx2NvRow422 (o : NVOrder) (ch : Channels) (rg : ChromaRange) (t : InvCoef) (width : Nat)
    (y uv row : Buf) (cx ux : Nat) : Outcome (Buf × Nat × Nat) := do
  let r ← vwhile 32 32 width
    (fun cx ux row => avx2NvBody422 o ch rg t y uv cx ux (cx * ch.count) row) cx ux row
  nvTailRow 32 .yuv422 ch width (fun y uv d => avx2NvBody422 o ch rg t y uv 0 0 0 d) y uv r.1 r.2.1
    r.2.2

/-- The 32-pixel body of `avx2_yuv_nv_to_rgba_row_impl420`,
/repo/src/avx2/yuv_nv_to_rgba420.rs:88-184 (and 219-314). -/
def avx2NvBody420 (o : NVOrder) (ch : Channels) (rg : ChromaRange) (t : InvCoef) (y0 y1 uv : Buf)
    (cx ux p : Nat) (rows : Buf × Buf) : Outcome (Buf × Buf) := do
  let yv0 ← load 32 y0 cx
  let yv1 ← load 32 y1 cx
  let r ← load 32 uv ux
  let c := swapUv o (avx2Even r, avx2Odd r)
  let c0 := rgb444 rg t (subsU8 yv0 (set1_8 rg.biasY)) c.1 c.2
  let c1 := rgb444 rg t (subsU8 yv1 (set1_8 rg.biasY)) c.1 c.2
  let row0 ← avx2Store ch p c0.1 c0.2.1 c0.2.2 (set1_8 255) rows.1
  let row1 ← avx2Store ch p c1.1 c1.2.1 c1.2.2 (set1_8 255) rows.2
  return (row0, row1)

/-- Models `avx2_yuv_nv_to_rgba_row_impl420`, /repo/src/avx2/yuv_nv_to_rgba420.rs:59-335. -/
def avx2NvRow420 (o : NVOrder) (ch : Channels) (rg : ChromaRange) (t : InvCoef) (width : Nat)
    (y0 y1 uv row0 row1 : Buf) (cx ux : Nat) : Outcome ((Buf × Buf) × Nat × Nat) := do
  let r ← vwhile 32 32 width
    (fun cx ux rows => avx2NvBody420 o ch rg t y0 y1 uv cx ux (cx * ch.count) rows) cx ux (row0, row1)
  nvTailRows 32 ch width (fun y0 y1 uv d => avx2NvBody420 o ch rg t y0 y1 uv 0 0 0 d) y0 y1 uv r.1
    r.2.1 r.2.2

/-! ## SSE4.1 -/

/-- Ten-bit chroma words of the two halves of 16 pixels, /repo/src/sse/yuv_nv_to_rgba.rs:107-154. -/
def sseNvWords16 (s : Sampling) (o : NVOrder) (uv : Buf) (ux : Nat) :
    Outcome ((Reg × Reg) × Reg × Reg) :=
  match s with
  | .yuv420 | .yuv422 => do
    let r ← load 16 uv ux
    let c := swapUv o (shuffle8 r shE, shuffle8 r shO)
    return ((expandLo c.1, expandLo c.2), (expandHi c.1, expandHi c.2))
  | .yuv444 => do
    let row0 ← load 16 uv ux
    let row1 ← load 16 uv (ux + 16)
    return (nvWords o row0, nvWords o row1)

/-- The 16-pixel body of `sse_yuv_nv_to_rgba_impl`, /repo/src/sse/yuv_nv_to_rgba.rs:103-198. -/
def sseNvBody16 (s : Sampling) (o : NVOrder) (ch : Channels) (rg : ChromaRange) (t : InvCoef)
    (y uv : Buf) (cx ux : Nat) (row : Buf) : Outcome Buf := do
  let yv ← load 16 y cx
  let yv := subsU8 yv (set1_8 rg.biasY)
  let c ← sseNvWords16 s o uv ux
  let c := packRgb t (expandLo yv) (expandHi yv) (chromaTerms rg t c.1.1 c.1.2)
    (chromaTerms rg t c.2.1 c.2.2)
  sseStore ch (cx * ch.count) c.1 c.2.1 c.2.2 (set1_8 255) row

/-- Ten-bit chroma words of 8 pixels, /repo/src/sse/yuv_nv_to_rgba.rs:215-265 (and 335-384): from
four pairs each byte of which is copied four times, or from eight pairs. -/
def sseNvWords8 (s : Sampling) (o : NVOrder) (uv : Buf) (ux : Nat) : Outcome (Reg × Reg) :=
  match s with
  | .yuv420 | .yuv422 => do
    let r ← load 8 uv ux
    return swapUv o
      (srli16 6 (shuffle8 r (setr8 [0, 0, 0, 0, 2, 2, 2, 2, 4, 4, 4, 4, 6, 6, 6, 6])),
        srli16 6 (shuffle8 r (setr8 [1, 1, 1, 1, 3, 3, 3, 3, 5, 5, 5, 5, 7, 7, 7, 7])))
  | .yuv444 => do
    let r ← load 16 uv ux
    return nvWords o r

/-- The 8-pixel body of `sse_yuv_nv_to_rgba_impl`, /repo/src/sse/yuv_nv_to_rgba.rs:213-293 (and
331-413): destination written at byte `p`; the luma offset is subtracted with the signed
`_mm_subs_epi8` (lines 267 and 386). -/
def sseNvBody8 (s : Sampling) (o : NVOrder) (ch : Channels) (rg : ChromaRange) (t : InvCoef)
    (y uv : Buf) (cx ux p : Nat) (row : Buf) : Outcome Buf := do
  let yv ← load 8 y cx
  let c ← sseNvWords8 s o uv ux
  let c := packRgbLow t (expandLo (subsI8 yv (set1_8 rg.biasY))) (chromaTerms rg t c.1 c.2)
  sseStoreHalf ch p c.1 c.2.1 c.2.2 (set1_8 255) row

/-- Models `sse_yuv_nv_to_rgba_impl`, /repo/src/sse/yuv_nv_to_rgba.rs:66-428. -/
def sseNvRow (s : Sampling) (o : NVOrder) (ch : Channels) (rg : ChromaRange) (t : InvCoef)
    (width : Nat) (y uv row : Buf) (cx ux : Nat) : Outcome (Buf × Nat × Nat) := do
  let r ← vwhile 16 (nvStep s 16) width (sseNvBody16 s o ch rg t y uv) cx ux row
  let r ← vwhile 8 (nvStep s 8) width
    (fun cx ux row => sseNvBody8 s o ch rg t y uv cx ux (cx * ch.count) row) r.2.1 r.2.2 r.1
  nvTailRow 8 s ch width (fun y uv d => sseNvBody8 s o ch rg t y uv 0 0 0 d) y uv r.1 r.2.1 r.2.2

/-- The 16-pixel body of `sse_yuv_nv_to_rgba_impl422`, /repo/src/sse/yuv_nv_to_rgba422.rs:92-152. -/
def sseNvBody422 (o : NVOrder) (ch : Channels) (rg : ChromaRange) (t : InvCoef) (y uv : Buf)
    (cx ux : Nat) (row : Buf) : Outcome Buf := do
  let yv ← load 16 y cx
  let r ← load 16 uv ux
  let yv := subsU8 yv (set1_8 rg.biasY)
  let c := chromaTerms rg t (nvWords o r).1 (nvWords o r).2
  let c := packRgb t (expandLo yv) (expandHi yv) (dupLo c) (dupHi c)
  sseStore ch (cx * ch.count) c.1 c.2.1 c.2.2 (set1_8 255) row

/-- The 8-pixel body of `sse_yuv_nv_to_rgba_impl422`, /repo/src/sse/yuv_nv_to_rgba422.rs:159-205 (and
234-281); signed luma subtraction on lines 166 and 241. -/
def sseNvBody422Half (o : NVOrder) (ch : Channels) (rg : ChromaRange) (t : InvCoef) (y uv : Buf)
    (cx ux p : Nat) (row : Buf) : Outcome Buf := do
  let yv ← load 8 y cx
  let r ← load 8 uv ux
  let d := sseDeinterleave r zero
  let c := swapUv o (srli16 6 (sseQuad d.1), srli16 6 (sseQuad d.2))
  let c := packRgbLow t (expandLo (subsI8 yv (set1_8 rg.biasY))) (chromaTerms rg t c.1 c.2)
  sseStoreHalf ch p c.1 c.2.1 c.2.2 (set1_8 255) row

/-- Models `sse_yuv_nv_to_rgba_impl422`, /repo/src/sse/yuv_nv_to_rgba422.rs:60-296. -/
def sseNvRow422 (o : NVOrder) (ch : Channels) (rg : ChromaRange) (t : InvCoef) (width : Nat)
    (y uv row : Buf) (cx ux : Nat) : Outcome (Buf × Nat × Nat) := do
  let r ← vwhile 16 16 width (sseNvBody422 o ch rg t y uv) cx ux row
  let r ← vwhile 8 8 width
    (fun cx ux row => sseNvBody422Half o ch rg t y uv cx ux (cx * ch.count) row) r.2.1 r.2.2 r.1
  nvTailRow 8 .yuv422 ch width (fun y uv d => sseNvBody422Half o ch rg t y uv 0 0 0 d) y uv r.1
    r.2.1 r.2.2

/-- The 16-pixel body of `sse_yuv_nv_to_rgba_impl420`, /repo/src/sse/yuv_nv_to_rgba420.rs:96-179. -/
def sseNvBody420 (o : NVOrder) (ch : Channels) (rg : ChromaRange) (t : InvCoef) (y0 y1 uv : Buf)
    (cx ux : Nat) (rows : Buf × Buf) : Outcome (Buf × Buf) := do
  let yv0 ← load 16 y0 cx
  let yv1 ← load 16 y1 cx
  let r ← load 16 uv ux
  let yv0 := subsU8 yv0 (set1_8 rg.biasY)
  let yv1 := subsU8 yv1 (set1_8 rg.biasY)
  let c := chromaTerms rg t (nvWords o r).1 (nvWords o r).2
  let c0 := packRgb t (expandLo yv0) (expandHi yv0) (dupLo c) (dupHi c)
  let c1 := packRgb t (expandLo yv1) (expandHi yv1) (dupLo c) (dupHi c)
  let row0 ← sseStore ch (cx * ch.count) c0.1 c0.2.1 c0.2.2 (set1_8 255) rows.1
  let row1 ← sseStore ch (cx * ch.count) c1.1 c1.2.1 c1.2.2 (set1_8 255) rows.2
  return (row0, row1)

/-- The 8-pixel body of `sse_yuv_nv_to_rgba_impl420`, /repo/src/sse/yuv_nv_to_rgba420.rs:186-250 (and
285-355): signed luma subtraction (193-194, 294-295), and the blue term is
`_mm_mulhrs_epi16(u_low, v_cr_coeff)` (lines 221 and 322), with the coefficient of Cr. -/
def sseNvBody420Half (o : NVOrder) (ch : Channels) (rg : ChromaRange) (t : InvCoef)
    (y0 y1 uv : Buf) (cx ux p : Nat) (rows : Buf × Buf) : Outcome (Buf × Buf) := do
  let yv0 ← load 8 y0 cx
  let yv1 ← load 8 y1 cx
  let r ← load 8 uv ux
  let d := swapUv o (sseDeinterleave r zero)
  let c := chromaTerms rg { t with cb := t.cr } (expandLo (sseDouble d.1)) (expandLo (sseDouble d.2))
  let c0 := packRgbLow t (expandLo (subsI8 yv0 (set1_8 rg.biasY))) c
  let c1 := packRgbLow t (expandLo (subsI8 yv1 (set1_8 rg.biasY))) c
  let row0 ← sseStoreHalf ch p c0.1 c0.2.1 c0.2.2 (set1_8 255) rows.1
  let row1 ← sseStoreHalf ch p c1.1 c1.2.1 c1.2.2 (set1_8 255) rows.2
  return (row0, row1)

/-- Models `sse_yuv_nv_to_rgba_impl420`, /repo/src/sse/yuv_nv_to_rgba420.rs:62-376. -/
def sseNvRow420 (o : NVOrder) (ch : Channels) (rg : ChromaRange) (t : InvCoef) (width : Nat)
    (y0 y1 uv row0 row1 : Buf) (cx ux : Nat) : Outcome ((Buf × Buf) × Nat × Nat) := do
  let r ← vwhile 16 16 width (sseNvBody420 o ch rg t y0 y1 uv) cx ux (row0, row1)
  let r ← vwhile 8 8 width
    (fun cx ux rows => sseNvBody420Half o ch rg t y0 y1 uv cx ux (cx * ch.count) rows) r.2.1 r.2.2 r.1
  nvTailRows 8 ch width (fun y0 y1 uv d => sseNvBody420Half o ch rg t y0 y1 uv 0 0 0 d) y0 y1 uv r.1
    r.2.1 r.2.2

/-! ## Dispatch -/

/-- Models `NVRowHandler::default` and `handle_row` for `PRECISION` 13,
/repo/src/yuv_nv_to_rgba.rs:96-243 and 387-415. -/
def rowHandlerNV (cpu : Cpu) (o : NVOrder) (s : Sampling) (ch : Channels) (rg : ChromaRange)
    (t : InvCoef) (width : Nat) : RowHandlerNV := fun y uv row =>
  match cpu, s with
  | .avx2, .yuv444 => done (avx2NvRow s o ch rg t width y uv row 0 0)
  | .avx2, _ => done (avx2NvRow422 o ch rg t width y uv row 0 0)
  | .sse41, .yuv444 => done (sseNvRow s o ch rg t width y uv row 0 0)
  | .sse41, _ => done (sseNvRow422 o ch rg t width y uv row 0 0)
  | .plain, _ => noSimdNV y uv row

/-- Models `NVRow420Handler::default` and `handle_row` for `PRECISION` 13,
/repo/src/yuv_nv_to_rgba.rs:503-595 and 461-490. -/
def rowHandlerNV420 (cpu : Cpu) (o : NVOrder) (s : Sampling) (ch : Channels) (rg : ChromaRange)
    (t : InvCoef) (width : Nat) : RowHandlerNV420 := fun y0 y1 uv row0 row1 =>
  match cpu, s with
  | .avx2, .yuv420 => do
    let r ← avx2NvRow420 o ch rg t width y0 y1 uv row0 row1 0 0
    return (r.1.1, r.1.2, r.2.1)
  | .sse41, .yuv420 => do
    let r ← sseNvRow420 o ch rg t width y0 y1 uv row0 row1 0 0
    return (r.1.1, r.1.2, r.2.1)
  | _, _ => noSimdNV420 y0 y1 uv row0 row1

/-- The 8-bit semi-planar decoder in its default mode on a processor of class `cpu`:
`yuv_nv12_to_rgbx`, /repo/src/yuv_nv_to_rgba.rs:1126-1184, with the row handlers chosen by run-time
feature detection. -/
def nvToRgbxOn (cpu : Cpu) (o : NVOrder) (ch : Channels) (s : Sampling) (i : BiPlanar) (rgba : Buf)
    (stride : Nat) (rg : YuvRange) (m : Matrix) : Outcome Buf :=
  let c := getYuvRange 8 rg
  let t := searchInverse 13 8 rg m
  nvToRgbx x64 .balanced o ch s (rowHandlerNV cpu o s ch c t i.width)
    (rowHandlerNV420 cpu o s ch c t i.width) i rgba stride rg m

end Verif.X86
