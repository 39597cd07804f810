import Verif.Model.X86Rgb
import Verif.Model.Tables
import Verif.Model.YuvToRgba
/-!
# The 8-bit planar decoders for x86: AVX2 and SSE4.1

/repo/src/avx2/yuv_to_rgba.rs, yuv_to_rgba422.rs, yuv_to_rgba420.rs and the
same files of /repo/src/sse, with the choice made by `RowHandler::default` and
`RowHandler420::default` (/repo/src/yuv_to_rgba.rs:110-330).  The precision is
13 (any other has no vector code).  The kernels are started at `cx = ux = 0`
(/repo/src/yuv_to_rgba.rs:89-100); the models keep the start as a parameter.
-/
namespace Verif.X86

/-- `((range.bias_uv as i16) << 2) | ((range.bias_uv as i16) >> 6)`,
/repo/src/avx2/yuv_to_rgba.rs:82. -/
def uvCorr (rg : ChromaRange) : Int := (((rg.biasUv * 4) ||| (rg.biasUv / 64) : Nat) : Int)

/-- Eight bytes of each lane expanded to ten bits: `_mm_srli_epi16::<6>(_mm_unpacklo_epi8(v, v))`
(`_mm_expand8_lo_to_10`, /repo/src/sse/utils.rs:849-851, `_mm256_expand8_unordered_to_10`,
/repo/src/avx2/avx2_utils.rs:1182-1186). -/
def expandLo (v : Reg) : Reg := srli16 6 (unpacklo 1 v v)
/-- The same for the upper eight bytes of each lane. -/
def expandHi (v : Reg) : Reg := srli16 6 (unpackhi 1 v v)

/-- The chroma terms of red, green and blue from ten-bit chroma words: the `mulhrs` products of
/repo/src/avx2/yuv_to_rgba.rs:142-168. -/
def chromaTerms (rg : ChromaRange) (t : InvCoef) (u v : Reg) : Reg × Reg × Reg :=
  let cb := sub16 u (set1_16 (uvCorr rg))
  let cr := sub16 v (set1_16 (uvCorr rg))
  (mulhrs16 cr (set1_16 (asI16 t.cr)),
    add16 (mulhrs16 cr (set1_16 (asI16 t.g1))) (mulhrs16 cb (set1_16 (asI16 t.g2))),
    mulhrs16 cb (set1_16 (asI16 t.cb)))

/-- Red, green and blue from the ten-bit luma words of the two halves and the chroma terms of the
two halves, packed to bytes: /repo/src/avx2/yuv_to_rgba.rs:144-180. -/
def packRgb (t : InvCoef) (yLo yHi : Reg) (cLo cHi : Reg × Reg × Reg) : Reg × Reg × Reg :=
  let yl := mulhrs16 yLo (set1_16 (asI16 t.y))
  let yh := mulhrs16 yHi (set1_16 (asI16 t.y))
  (packus16 (add16 yl cLo.1) (add16 yh cHi.1),
    packus16 (sub16 yl cLo.2.1) (sub16 yh cHi.2.1),
    packus16 (add16 yl cLo.2.2) (add16 yh cHi.2.2))

/-- As `packRgb` with only the low half: `_mm_packus_epi16(low, zeros)`,
/repo/src/sse/yuv_to_rgba.rs:206-222. -/
def packRgbLow (t : InvCoef) (yLo : Reg) (cLo : Reg × Reg × Reg) : Reg × Reg × Reg :=
  let yl := mulhrs16 yLo (set1_16 (asI16 t.y))
  (packus16 (add16 yl cLo.1) zero, packus16 (sub16 yl cLo.2.1) zero,
    packus16 (add16 yl cLo.2.2) zero)

/-- Bytes to pixels when there is one chroma byte per luma byte: /repo/src/avx2/yuv_to_rgba.rs:120-180
(also 248-310) and /repo/src/sse/yuv_to_rgba.rs:96-151. -/
def rgb444 (rg : ChromaRange) (t : InvCoef) (y u v : Reg) : Reg × Reg × Reg :=
  packRgb t (expandLo y) (expandHi y) (chromaTerms rg t (expandLo u) (expandLo v))
    (chromaTerms rg t (expandHi u) (expandHi v))

/-- Words duplicated, low half: `_mm_unpacklo_epi16(x, x)`. -/
def dupLo (c : Reg × Reg × Reg) : Reg × Reg × Reg :=
  (unpacklo 2 c.1 c.1, unpacklo 2 c.2.1 c.2.1, unpacklo 2 c.2.2 c.2.2)
/-- Words duplicated, high half: `_mm_unpackhi_epi16(x, x)`. -/
def dupHi (c : Reg × Reg × Reg) : Reg × Reg × Reg :=
  (unpackhi 2 c.1 c.1, unpackhi 2 c.2.1 c.2.1, unpackhi 2 c.2.2 c.2.2)

/-! ## AVX2 -/

/-- The chroma bytes of 32 pixels from 16: `_mm256_inserti128_si256::<1>` and
`_mm256_shuffle_epi8` with `shuf_expand`, /repo/src/avx2/yuv_to_rgba.rs:99-109 and
/repo/src/avx2/yuv_to_rgba420.rs:100-109. -/
def avx2Double (c : Reg) : Reg :=
  shuffle8 (insertHi c c) (setr8 [0, 0, 1, 1, 2, 2, 3, 3, 4, 4, 5, 5, 6, 6, 7, 7, 8, 8, 9, 9, 10,
    10, 11, 11, 12, 12, 13, 13, 14, 14, 15, 15])

/-- The chroma of 32 pixels starting at chroma column `ux`: 16 bytes doubled for 4:2:0 and 4:2:2,
32 bytes for 4:4:4.  /repo/src/avx2/yuv_to_rgba.rs:93-137. -/
def avx2Chroma (s : Sampling) (c : Buf) (ux : Nat) : Outcome Reg :=
  match s with
  | .yuv420 | .yuv422 => do
    let r ← load 16 c ux
    return avx2Double r
  | .yuv444 => load 32 c ux

/-- The 32-pixel body of `avx2_yuv_to_rgba_row_impl`, /repo/src/avx2/yuv_to_rgba.rs:90-201: sources
read at `cx` and `ux`, destination written at byte `p`. -/
def avx2Body (s : Sampling) (ch : Channels) (rg : ChromaRange) (t : InvCoef) (y u v : Buf)
    (cx ux p : Nat) (row : Buf) : Outcome Buf := do
  let yv ← load 32 y cx
  let uv ← avx2Chroma s u ux
  let vv ← avx2Chroma s v ux
  let c := rgb444 rg t (subsU8 yv (set1_8 rg.biasY)) uv vv
  avx2Store ch p c.1 c.2.1 c.2.2 (set1_8 255) row

/-- Chroma columns per step of `n` pixels. -/
def chromaStep (s : Sampling) (n : Nat) : Nat :=
  match s with
  | .yuv420 | .yuv422 => ceil2 n
  | .yuv444 => n

/-- The last pixels of a row, at most 32, through zeroed buffers on the stack:
/repo/src/avx2/yuv_to_rgba.rs:214-329 (`f` is the 32-pixel body). -/
def avx2Tail (s : Sampling) (ch : Channels) (width : Nat)
    (f : Buf → Buf → Buf → Buf → Outcome Buf) (y u v : Buf) (row : Buf) (cx ux : Nat) :
    Outcome (Buf × Nat × Nat) :=
  if cx < width then do
    let diff := width - cx
    if 32 < diff then .panic
    let yb ← copyIn y cx diff (List.replicate 32 0)
    let ud := chromaStep s diff
    let ub ← copyIn u ux ud (List.replicate 32 0)
    let vb ← copyIn v ux ud (List.replicate 32 0)
    let db ← f yb ub vb (List.replicate 128 0)
    let row ← copyOut db (diff * ch.count) row (cx * ch.count)
    return (row, cx + diff, ux + ud)
  else .ok (row, cx, ux)

/-- Models `avx2_yuv_to_rgba_row_impl`, /repo/src/avx2/yuv_to_rgba.rs:59-333. -/
def avx2Row (s : Sampling) (ch : Channels) (rg : ChromaRange) (t : InvCoef) (width : Nat)
    (y u v row : Buf) (cx ux : Nat) : Outcome (Buf × Nat × Nat) := do
  let r ← vwhile 32 (chromaStep s 32) width
    (fun cx ux row => avx2Body s ch rg t y u v cx ux (cx * ch.count) row) cx ux row
  avx2Tail s ch width (fun y u v d => avx2Body s ch rg t y u v 0 0 0 d) y u v r.1 r.2.1 r.2.2

/-- The 32-pixel body of `avx2_yuv_to_rgba_row_impl422`, /repo/src/avx2/yuv_to_rgba422.rs:86-153:
the chroma terms are computed once per chroma sample and then duplicated. -/
def avx2Body422 (ch : Channels) (rg : ChromaRange) (t : InvCoef) (y u v : Buf) (cx ux p : Nat)
    (row : Buf) : Outcome Buf := do
  let yv ← load 32 y cx
  let uv ← load 16 u ux
  let vv ← load 16 v ux
  let yv := subsU8 yv (set1_8 rg.biasY)
  let c := chromaTerms rg t (expandLo (permute4x64 0x50 uv)) (expandLo (permute4x64 0x50 vv))
  let c := packRgb t (expandLo yv) (expandHi yv) (dupLo c) (dupHi c)
  avx2Store ch p c.1 c.2.1 c.2.2 (set1_8 255) row

/-- Models `avx2_yuv_to_rgba_row_impl422`, /repo/src/avx2/yuv_to_rgba422.rs:57-266. -/
def avx2Row422 (ch : Channels) (rg : ChromaRange) (t : InvCoef) (width : Nat)
    (y u v row : Buf) (cx ux : Nat) : Outcome (Buf × Nat × Nat) := do
  let r ← vwhile 32 16 width
    (fun cx ux row => avx2Body422 ch rg t y u v cx ux (cx * ch.count) row) cx ux row
  avx2Tail .yuv422 ch width (fun y u v d => avx2Body422 ch rg t y u v 0 0 0 d) y u v r.1 r.2.1 r.2.2

/-- The 32-pixel body of `avx2_yuv_to_rgba_row_impl420`, /repo/src/avx2/yuv_to_rgba420.rs:91-186:
two luma rows share the chroma. -/
def avx2Body420 (ch : Channels) (rg : ChromaRange) (t : InvCoef) (y0 y1 u v : Buf) (cx ux p : Nat)
    (rows : Buf × Buf) : Outcome (Buf × Buf) := do
  let yv0 ← load 32 y0 cx
  let yv1 ← load 32 y1 cx
  let uv ← load 16 u ux
  let vv ← load 16 v ux
  let c0 := rgb444 rg t (subsU8 yv0 (set1_8 rg.biasY)) (avx2Double uv) (avx2Double vv)
  let c1 := rgb444 rg t (subsU8 yv1 (set1_8 rg.biasY)) (avx2Double uv) (avx2Double vv)
  let row0 ← avx2Store ch p c0.1 c0.2.1 c0.2.2 (set1_8 255) rows.1
  let row1 ← avx2Store ch p c1.1 c1.2.1 c1.2.2 (set1_8 255) rows.2
  return (row0, row1)

/-- The last pixels of a pair of rows, /repo/src/avx2/yuv_to_rgba420.rs:193-341. -/
def avx2Tail420 (ch : Channels) (width : Nat)
    (f : Buf → Buf → Buf → Buf → Buf × Buf → Outcome (Buf × Buf)) (y0 y1 u v : Buf)
    (rows : Buf × Buf) (cx ux : Nat) : Outcome ((Buf × Buf) × Nat × Nat) :=
  if cx < width then do
    let diff := width - cx
    if 32 < diff then .panic
    let yb0 ← copyIn y0 cx diff (List.replicate 32 0)
    let yb1 ← copyIn y1 cx diff (List.replicate 32 0)
    let ud := ceil2 diff
    let ub ← copyIn u ux ud (List.replicate 32 0)
    let vb ← copyIn v ux ud (List.replicate 32 0)
    let db ← f yb0 yb1 ub vb (List.replicate 128 0, List.replicate 128 0)
    let row0 ← copyOut db.1 (diff * ch.count) rows.1 (cx * ch.count)
    let row1 ← copyOut db.2 (diff * ch.count) rows.2 (cx * ch.count)
    return ((row0, row1), cx + diff, ux + ud)
  else .ok (rows, cx, ux)

/-- Models `avx2_yuv_to_rgba_row_impl420`, /repo/src/avx2/yuv_to_rgba420.rs:61-343. -/
def avx2Row420 (ch : Channels) (rg : ChromaRange) (t : InvCoef) (width : Nat)
    (y0 y1 u v row0 row1 : Buf) (cx ux : Nat) : Outcome ((Buf × Buf) × Nat × Nat) := do
  let r ← vwhile 32 16 width
    (fun cx ux rows => avx2Body420 ch rg t y0 y1 u v cx ux (cx * ch.count) rows) cx ux (row0, row1)
  avx2Tail420 ch width (fun y0 y1 u v d => avx2Body420 ch rg t y0 y1 u v 0 0 0 d) y0 y1 u v r.1
    r.2.1 r.2.2

/-! ## SSE4.1 -/

/-- Chroma bytes doubled: `_mm_shuffle_epi8` with `reshuffle`, /repo/src/sse/yuv_to_rgba.rs:102-104
and /repo/src/sse/yuv_to_rgba420.rs:94-106. -/
def sseDouble (c : Reg) : Reg :=
  shuffle8 c (setr8 [0, 0, 1, 1, 2, 2, 3, 3, 4, 4, 5, 5, 6, 6, 7, 7])

/-- The chroma of `n` = 16 or 8 pixels: `n / 2` bytes doubled or `n` bytes.
/repo/src/sse/yuv_to_rgba.rs:100-121 and 181-200. -/
def sseChroma (s : Sampling) (n : Nat) (c : Buf) (ux : Nat) : Outcome Reg :=
  match s with
  | .yuv420 | .yuv422 => do
    let r ← load (n / 2) c ux
    return sseDouble r
  | .yuv444 => load n c ux

/-- The 16-pixel body of `sse_yuv_to_rgba_row_impl`, /repo/src/sse/yuv_to_rgba.rs:95-164. -/
def sseBody16 (s : Sampling) (ch : Channels) (rg : ChromaRange) (t : InvCoef) (y u v : Buf)
    (cx ux : Nat) (row : Buf) : Outcome Buf := do
  let yv ← load 16 y cx
  let uv ← sseChroma s 16 u ux
  let vv ← sseChroma s 16 v ux
  let c := rgb444 rg t (subsU8 yv (set1_8 rg.biasY)) uv vv
  sseStore ch (cx * ch.count) c.1 c.2.1 c.2.2 (set1_8 255) row

/-- The 8-pixel body of `sse_yuv_to_rgba_row_impl`, /repo/src/sse/yuv_to_rgba.rs:178-229.  The luma
offset is subtracted with the signed `_mm_subs_epi8` (line 179). -/
def sseBody8 (s : Sampling) (ch : Channels) (rg : ChromaRange) (t : InvCoef) (y u v : Buf)
    (cx ux : Nat) (row : Buf) : Outcome Buf := do
  let yv ← load 8 y cx
  let uv ← sseChroma s 8 u ux
  let vv ← sseChroma s 8 v ux
  let yv := subsI8 yv (set1_8 rg.biasY)
  let c := packRgbLow t (expandLo yv) (chromaTerms rg t (expandLo uv) (expandLo vv))
  sseStoreHalf ch (cx * ch.count) c.1 c.2.1 c.2.2 (set1_8 255) row

/-- Models `sse_yuv_to_rgba_row_impl`, /repo/src/sse/yuv_to_rgba.rs:61-244. -/
def sseRow (s : Sampling) (ch : Channels) (rg : ChromaRange) (t : InvCoef) (width : Nat)
    (y u v row : Buf) (cx ux : Nat) : Outcome (Buf × Nat × Nat) := do
  let r ← vwhile 16 (chromaStep s 16) width (sseBody16 s ch rg t y u v) cx ux row
  vwhile 8 (chromaStep s 8) width (sseBody8 s ch rg t y u v) r.2.1 r.2.2 r.1

/-- The 16-pixel body of `sse_yuv_to_rgba_row_impl422`, /repo/src/sse/yuv_to_rgba422.rs:93-153. -/
def sseBody422 (ch : Channels) (rg : ChromaRange) (t : InvCoef) (y u v : Buf)
    (cx ux : Nat) (row : Buf) : Outcome Buf := do
  let yv ← load 16 y cx
  let uv ← load 8 u ux
  let vv ← load 8 v ux
  let yv := subsU8 yv (set1_8 rg.biasY)
  let c := chromaTerms rg t (expandLo uv) (expandLo vv)
  let c := packRgb t (expandLo yv) (expandHi yv) (dupLo c) (dupHi c)
  sseStore ch (cx * ch.count) c.1 c.2.1 c.2.2 (set1_8 255) row

/-- Four bytes, each four times: `_mm_shuffle_epi8` with `reshuffle`,
/repo/src/sse/yuv_to_rgba422.rs:162-167. -/
def sseQuad (c : Reg) : Reg :=
  shuffle8 c (setr8 [0, 0, 0, 0, 1, 1, 1, 1, 2, 2, 2, 2, 3, 3, 3, 3])

/-- The 8-pixel body of `sse_yuv_to_rgba_row_impl422`, /repo/src/sse/yuv_to_rgba422.rs:159-202.  The
luma offset is subtracted with the signed `_mm_subs_epi8` (line 160). -/
def sseBody422Half (ch : Channels) (rg : ChromaRange) (t : InvCoef) (y u v : Buf)
    (cx ux : Nat) (row : Buf) : Outcome Buf := do
  let yv ← load 8 y cx
  let uv ← load 4 u ux
  let vv ← load 4 v ux
  let yv := subsI8 yv (set1_8 rg.biasY)
  let c := chromaTerms rg t (srli16 6 (sseQuad uv)) (srli16 6 (sseQuad vv))
  let c := packRgbLow t (expandLo yv) c
  sseStoreHalf ch (cx * ch.count) c.1 c.2.1 c.2.2 (set1_8 255) row

/-- Models `sse_yuv_to_rgba_row_impl422`, /repo/src/sse/yuv_to_rgba422.rs:61-207. -/
def sseRow422 (ch : Channels) (rg : ChromaRange) (t : InvCoef) (width : Nat)
    (y u v row : Buf) (cx ux : Nat) : Outcome (Buf × Nat × Nat) := do
  let r ← vwhile 16 8 width (sseBody422 ch rg t y u v) cx ux row
  vwhile 8 4 width (sseBody422Half ch rg t y u v) r.2.1 r.2.2 r.1

/-- The 16-pixel body of `sse_yuv_to_rgba_row_impl420`, /repo/src/sse/yuv_to_rgba420.rs:96-189. -/
def sseBody420 (ch : Channels) (rg : ChromaRange) (t : InvCoef) (y0 y1 u v : Buf)
    (cx ux : Nat) (rows : Buf × Buf) : Outcome (Buf × Buf) := do
  let yv0 ← load 16 y0 cx
  let yv1 ← load 16 y1 cx
  let uv ← load 8 u ux
  let vv ← load 8 v ux
  let c0 := rgb444 rg t (subsU8 yv0 (set1_8 rg.biasY)) (sseDouble uv) (sseDouble vv)
  let c1 := rgb444 rg t (subsU8 yv1 (set1_8 rg.biasY)) (sseDouble uv) (sseDouble vv)
  let row0 ← sseStore ch (cx * ch.count) c0.1 c0.2.1 c0.2.2 (set1_8 255) rows.1
  let row1 ← sseStore ch (cx * ch.count) c1.1 c1.2.1 c1.2.2 (set1_8 255) rows.2
  return (row0, row1)

/-- The 8-pixel body of `sse_yuv_to_rgba_row_impl420`, /repo/src/sse/yuv_to_rgba420.rs:191-246. -/
def sseBody420Half (ch : Channels) (rg : ChromaRange) (t : InvCoef) (y0 y1 u v : Buf)
    (cx ux : Nat) (rows : Buf × Buf) : Outcome (Buf × Buf) := do
  let yv0 ← load 8 y0 cx
  let yv1 ← load 8 y1 cx
  let uv ← load 4 u ux
  let vv ← load 4 v ux
  let c := chromaTerms rg t (expandLo (sseDouble uv)) (expandLo (sseDouble vv))
  let c0 := packRgbLow t (expandLo (subsU8 yv0 (set1_8 rg.biasY))) c
  let c1 := packRgbLow t (expandLo (subsU8 yv1 (set1_8 rg.biasY))) c
  let row0 ← sseStoreHalf ch (cx * ch.count) c0.1 c0.2.1 c0.2.2 (set1_8 255) rows.1
  let row1 ← sseStoreHalf ch (cx * ch.count) c1.1 c1.2.1 c1.2.2 (set1_8 255) rows.2
  return (row0, row1)

/-- Models `sse_yuv_to_rgba_row_impl420`, /repo/src/sse/yuv_to_rgba420.rs:63-249. -/
def sseRow420 (ch : Channels) (rg : ChromaRange) (t : InvCoef) (width : Nat)
    (y0 y1 u v row0 row1 : Buf) (cx ux : Nat) : Outcome ((Buf × Buf) × Nat × Nat) := do
  let r ← vwhile 16 8 width (sseBody420 ch rg t y0 y1 u v) cx ux (row0, row1)
  vwhile 8 4 width (sseBody420Half ch rg t y0 y1 u v) r.2.1 r.2.2 r.1

/-! ## Dispatch -/

/-- What the processor offers (`is_x86_feature_detected!`): the default features of the crate use
AVX2 if present, else SSE4.1 if present, else the portable code. -/
inductive Cpu where
  | avx2 | sse41 | plain
deriving DecidableEq, Repr

/-- Drops the chroma offset of a `ProcessedOffset`. -/
def done (o : Outcome (Buf × Nat × Nat)) : Outcome (Buf × Nat) := do
  let r ← o
  return (r.1, r.2.1)

/-- Models `RowHandler::default` and `handle_row` for `PRECISION` 13,
/repo/src/yuv_to_rgba.rs:73-245 (the `nightly_avx512` feature is off by default). -/
def rowHandler (cpu : Cpu) (s : Sampling) (ch : Channels) (rg : ChromaRange) (t : InvCoef)
    (width : Nat) : RowHandler := fun y u v row =>
  match cpu, s with
  | .avx2, .yuv444 => done (avx2Row s ch rg t width y u v row 0 0)
  | .avx2, _ => done (avx2Row422 ch rg t width y u v row 0 0)
  | .sse41, .yuv444 => done (sseRow s ch rg t width y u v row 0 0)
  | .sse41, _ => done (sseRow422 ch rg t width y u v row 0 0)
  | .plain, _ => noSimd y u v row

/-- Models `RowHandler420::default` and `handle_row` for `PRECISION` 13,
/repo/src/yuv_to_rgba.rs:247-372. -/
def rowHandler420 (cpu : Cpu) (s : Sampling) (ch : Channels) (rg : ChromaRange) (t : InvCoef)
    (width : Nat) : RowHandler420 := fun y0 y1 u v row0 row1 =>
  match cpu, s with
  | .avx2, .yuv420 => do
    let r ← avx2Row420 ch rg t width y0 y1 u v row0 row1 0 0
    return (r.1.1, r.1.2, r.2.1)
  | .sse41, .yuv420 => do
    let r ← sseRow420 ch rg t width y0 y1 u v row0 row1 0 0
    return (r.1.1, r.1.2, r.2.1)
  | _, _ => noSimd420 y0 y1 u v row0 row1

/-- The 8-bit planar decoder on a processor of class `cpu`: `yuv_to_rgbx`,
/repo/src/yuv_to_rgba.rs:765-781, with the row handlers chosen by run-time feature detection. -/
def yuvToRgbxOn (cpu : Cpu) (ch : Channels) (s : Sampling) (i : Planar) (rgba : Buf) (stride : Nat)
    (rg : YuvRange) (m : Matrix) : Outcome Buf :=
  let c := getYuvRange 8 rg
  let t := searchInverse 13 8 rg m
  yuvToRgbx x64 ch s (rowHandler cpu s ch c t i.width) (rowHandler420 cpu s ch c t i.width) i rgba
    stride rg m

end Verif.X86
