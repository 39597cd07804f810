import Verif.Model.X86Decode
import Verif.Model.X86NvDecode
import Verif.Model.X86Gray
/-!
# 64-bit ARM with NEON: the 8-bit planar, semi-planar and grey decoders

/repo/src/neon.  A `uint8x16_t` is a register of 16 bytes as in Verif.Model.X86,
a `uint8x8_t` one of 8, and a pair of registers (`uint8x16x2_t`) one of 32 bytes,
the first of the pair in bytes 0–15.  Loads and stores are bounds checked.  The
semantics of the intrinsics is that of the ARM intrinsics reference; those that
do the same as an x86 intrinsic are not defined again (`vqsub_u8` is `subsU8`,
`vaddq_s16` is `add16`, `vsubq_s16` is `sub16`, `vdupq_n_u8` is `set1_8`).  Four
chroma bytes are loaded as one `u32` in the code, through a pointer that need not
be aligned; alignment is not modelled, nor is the second copy of the four bytes,
which is not used.  `rdm` (`R` in the code) says whether the processor has the
rounding multiply-accumulate instructions.  The precision is 13, the only one
with vector code.
-/
namespace Verif.Neon
open X86

/-! ## Intrinsics and helpers -/

/-- `vsub_u8`, `vsubq_u8`: wrapping. -/
def sub8 (a b : Reg) : Reg := fun i => (a i + 256 - b i) % 256
/-- `vzip1_u8`, `vzip1q_u8`. -/
def zip1 (a b : Reg) : Reg := fun i => if i % 2 = 0 then a (i / 2) else b (i / 2)
/-- `vzip2_u8` (`n` = 8), `vzip2q_u8` (16). -/
def zip2 (n : Nat) (a b : Reg) : Reg := fun i =>
  if i % 2 = 0 then a (n / 2 + i / 2) else b (n / 2 + i / 2)
/-- Registers of `n` bytes one after the other: `vcombine_u8` (8), or two `uint8x16_t` (16). -/
def combine (n : Nat) (a b : Reg) : Reg := fun i => if i < n then a i else b (i - n)
/-- The upper half of a register of `2 * n` bytes: `vget_high_u8` (8), or the second of a pair (16). -/
def upper (n : Nat) (a : Reg) : Reg := fun i => a (n + i)
/-- `vshll_n_s8::<2>`. -/
def shllLow (a : Reg) : Reg := mk16 fun k => 4 * asI8 (a k)
/-- `vshll_high_n_s8::<2>`. -/
def shllHigh (a : Reg) : Reg := mk16 fun k => 4 * asI8 (a (8 + k))
/-- `vrshrq_n_u16::<6>`. -/
def rshr6 (a : Reg) : Reg := mk16 fun k => ((w16 a k + 32) / 64 : Nat)
/-- `vtbl1_u8`: zero for an index above 7. -/
def tbl1 (a : Reg) (l : List Nat) : Reg := fun i => if l.getD i 0 < 8 then a (l.getD i 0) else 0
/-- `vqmovun_s16` of two registers and `vcombine_u8` of the results. -/
def qmovun (a b : Reg) : Reg := fun i =>
  satU8 (if i < 8 then s16 a i else s16 b (i - 8))
/-- The registers `vld2_u8` and `vld2q_u8` make of the bytes they load. -/
def deinterleave (a : Reg) : Reg × Reg := (fun i => a (2 * i), fun i => a (2 * i + 1))

/-- Models `vexpand8_to_10`, /repo/src/neon/utils.rs:693-698. -/
def expandLow (a : Reg) : Reg := rshr6 (zip1 (combine 8 a a) (combine 8 a a))
/-- Models `vexpand_high_8_to_10`, /repo/src/neon/utils.rs:700-704. -/
def expandHigh (a : Reg) : Reg := rshr6 (zip2 16 a a)

/-- Models `xqdmulhq_laneq_s16` and `xqdmulhq_n_s16`, /repo/src/neon/utils.rs:739-759, for the factor
`c`: `vqrdmulhq` or `vqdmulhq`. -/
def mulh (rdm : Bool) (a : Reg) (c : Int) : Reg :=
  if rdm then mk16 fun k => satI16 ((2 * (s16 a k * c) + 32768) / 65536)
  else mk16 fun k => satI16 (2 * (s16 a k * c) / 65536)

/-- Models `xqdmlahq_laneq_s16`, /repo/src/neon/utils.rs:726-737, for the factor `c`:
`vqrdmlahq_laneq_s16`, or the sum with `vqdmulhq_laneq_s16`. -/
def mlah (rdm : Bool) (a b : Reg) (c : Int) : Reg :=
  if rdm then mk16 fun k => satI16 ((65536 * s16 a k + 2 * (s16 b k * c) + 32768) / 65536)
  else add16 a (mulh false b c)

/-- Models `neon_store_rgb8` (`n` = 16) and `neon_store_half_rgb8` (8),
/repo/src/neon/utils.rs:553-612: `vst3` and `vst4` interleave. -/
def storeRgb (n : Nat) (ch : Channels) (p : Nat) (r g b a : Reg) (row : Buf) : Outcome Buf :=
  match ch with
  | .rgb => put row p ((List.range n).flatMap fun j => [r j, g j, b j])
  | .bgr => put row p ((List.range n).flatMap fun j => [b j, g j, r j])
  | .rgba => put row p ((List.range n).flatMap fun j => [r j, g j, b j, a j])
  | .bgra => put row p ((List.range n).flatMap fun j => [b j, g j, r j, a j])

/-! ## The colour arithmetic -/

/-- Eight pixels of a single row: luma and chroma words to red, green and blue words.
/repo/src/neon/yuv_to_rgba.rs:108-117 (the weights) and 374-391; /repo/src/neon/yuv_nv_to_rgba.rs:109-119
and 395-406. -/
def rowColours (rdm : Bool) (t : InvCoef) (yw u v : Reg) : Reg × Reg × Reg :=
  let y := mulh rdm yw (asI16 t.y)
  (mlah rdm y v (asI16 t.cr),
    mlah rdm (mlah rdm y v (asI16 (-t.g1))) u (asI16 (-t.g2)),
    mlah rdm y u (asI16 t.cb))

/-- Eight pixels of one of a pair of rows: /repo/src/neon/yuv_to_rgba420.rs:104-116 (the weights) and
242-261; /repo/src/neon/yuv_nv_to_rgba420.rs:110-119 and 437-456. -/
def pairColours (rdm : Bool) (t : InvCoef) (yw u v : Reg) : Reg × Reg × Reg :=
  let y := mulh rdm yw (asI16 t.y)
  (mlah rdm y v (asI16 t.cr),
    sub16 y (mlah rdm (mulh rdm v (asI16 t.g1)) u (asI16 t.g2)),
    mlah rdm y u (asI16 t.cb))

/-- `rowColours` or `pairColours`. -/
def colours (rdm two : Bool) (t : InvCoef) : Reg → Reg → Reg → Reg × Reg × Reg :=
  if two then pairColours rdm t else rowColours rdm t

/-- Sixteen pixels from luma bytes above the offset and chroma bytes below it, stored at byte `p`:
/repo/src/neon/yuv_to_rgba.rs:288-330. -/
def put16 (rdm two : Bool) (ch : Channels) (t : InvCoef) (p : Nat) (y u v : Reg) (row : Buf) :
    Outcome Buf :=
  let lo := colours rdm two t (expandLow y) (shllLow u) (shllLow v)
  let hi := colours rdm two t (expandHigh y) (shllHigh u) (shllHigh v)
  storeRgb 16 ch p (qmovun lo.1 hi.1) (qmovun lo.2.1 hi.2.1) (qmovun lo.2.2 hi.2.2) (set1_8 255) row

/-- Eight pixels: /repo/src/neon/yuv_to_rgba.rs:371-399. -/
def put8 (rdm two : Bool) (ch : Channels) (t : InvCoef) (p : Nat) (y u v : Reg) (row : Buf) :
    Outcome Buf :=
  let lo := colours rdm two t (expandLow y) (shllLow u) (shllLow v)
  storeRgb 8 ch p (qmovun lo.1 lo.1) (qmovun lo.2.1 lo.2.1) (qmovun lo.2.2 lo.2.2) (set1_8 255) row

/-- Thirty-two pixels: /repo/src/neon/yuv_to_rgba.rs:158-239. -/
def put32 (rdm two : Bool) (ch : Channels) (t : InvCoef) (p : Nat) (y u v : Reg) (row : Buf) :
    Outcome Buf := do
  let row ← put16 rdm two ch t p y u v row
  put16 rdm two ch t (p + ch.count * 16) (upper 16 y) (upper 16 u) (upper 16 v) row

/-- The loops of the kernels do 32, 16 or 8 pixels. -/
inductive Step | s32 | s16 | s8

/-- The number of pixels. -/
def Step.n : Step → Nat
  | .s32 => 32
  | .s16 => 16
  | .s8 => 8

/-- `put32`, `put16` or `put8`. -/
def putStep (rdm two : Bool) : Step → Channels → InvCoef → Nat → Reg → Reg → Reg → Buf → Outcome Buf
  | .s32 => put32 rdm two
  | .s16 => put16 rdm two
  | .s8 => put8 rdm two

/-- Chroma bytes twice each: /repo/src/neon/yuv_to_rgba.rs:137-140 (32 pixels), 269-272 (16) and
357-358 (8). -/
def doubled : Step → Reg → Reg
  | .s32, r => combine 16 (zip1 r r) (zip2 16 r r)
  | .s16, r => combine 8 (zip1 r r) (zip2 8 r r)
  | .s8, r => zip1 r r

/-- `uv_corr`. -/
def corr (rg : ChromaRange) : Reg := set1_8 rg.biasUv

/-! ## Planar -/

/-- The chroma of a step, Cb and Cr, one byte per pixel, the offset removed:
/repo/src/neon/yuv_to_rgba.rs:129-156, 261-286 and 349-370; /repo/src/neon/yuv_to_rgba420.rs:121-134 and
222-236. -/
def planarChroma (st : Step) (s : Sampling) (rg : ChromaRange) (u v : Buf) (ux : Nat) :
    Outcome (Reg × Reg) :=
  match s with
  | .yuv420 | .yuv422 => do
    let uv ← load (st.n / 2) u ux
    let vv ← load (st.n / 2) v ux
    return (doubled st (sub8 uv (corr rg)), doubled st (sub8 vv (corr rg)))
  | .yuv444 => do
    let uv ← load st.n u ux
    let vv ← load st.n v ux
    return (sub8 uv (corr rg), sub8 vv (corr rg))

/-- The bodies of the loops of `neon_yuv_to_rgba_row_rdm_impl`, /repo/src/neon/yuv_to_rgba.rs:122-239,
254-330 and 345-399. -/
def planarBody (rdm : Bool) (st : Step) (s : Sampling) (ch : Channels) (rg : ChromaRange) (t : InvCoef)
    (y u v : Buf) (cx ux : Nat) (row : Buf) : Outcome Buf := do
  let yv ← load st.n y cx
  let c ← planarChroma st s rg u v ux
  putStep rdm false st ch t (cx * ch.count) (subsU8 yv (set1_8 rg.biasY)) c.1 c.2 row

/-- The last pixels of a row, at most eight, through zeroed buffers on the stack:
/repo/src/neon/yuv_to_rgba.rs:413-513. -/
def planarTail (rdm : Bool) (s : Sampling) (ch : Channels) (rg : ChromaRange) (t : InvCoef)
    (width : Nat) (y u v : Buf) (row : Buf) (cx ux : Nat) : Outcome (Buf × Nat × Nat) :=
  if cx < width then do
    let diff := width - cx
    if 8 < diff then .panic
    let yb ← copyIn y cx diff (List.replicate 8 0)
    let ud := chromaStep s diff
    let ub ← copyIn u ux ud (List.replicate 8 0)
    let vb ← copyIn v ux ud (List.replicate 8 0)
    let db ← planarBody rdm .s8 s ch rg t yb ub vb 0 0 (List.replicate 32 0)
    let row ← copyOut db (diff * ch.count) row (cx * ch.count)
    return (row, cx + diff, ux + ud)
  else .ok (row, cx, ux)

/-- Models `neon_yuv_to_rgba_row_rdm_impl`, /repo/src/neon/yuv_to_rgba.rs:75-514. -/
def planarRow (rdm : Bool) (s : Sampling) (ch : Channels) (rg : ChromaRange) (t : InvCoef) (width : Nat)
    (y u v row : Buf) (cx ux : Nat) : Outcome (Buf × Nat × Nat) := do
  let r ← vwhile 32 (chromaStep s 32) width (planarBody rdm .s32 s ch rg t y u v) cx ux row
  let r ← vwhile 16 (chromaStep s 16) width (planarBody rdm .s16 s ch rg t y u v) r.2.1 r.2.2 r.1
  let r ← vwhile 8 (chromaStep s 8) width (planarBody rdm .s8 s ch rg t y u v) r.2.1 r.2.2 r.1
  planarTail rdm s ch rg t width y u v r.1 r.2.1 r.2.2

/-- The bodies of the loops of `neon_yuv_to_rgba_row420_impl`, /repo/src/neon/yuv_to_rgba420.rs:118-223
and 225-282. -/
def planarBody420 (rdm : Bool) (st : Step) (ch : Channels) (rg : ChromaRange) (t : InvCoef)
    (y0 y1 u v : Buf) (cx ux : Nat) (rows : Buf × Buf) : Outcome (Buf × Buf) := do
  let yv0 ← load st.n y0 cx
  let yv1 ← load st.n y1 cx
  let c ← planarChroma st .yuv420 rg u v ux
  let row0 ← putStep rdm true st ch t (cx * ch.count) (subsU8 yv0 (set1_8 rg.biasY)) c.1 c.2 rows.1
  let row1 ← putStep rdm true st ch t (cx * ch.count) (subsU8 yv1 (set1_8 rg.biasY)) c.1 c.2 rows.2
  return (row0, row1)

/-- The last pixels of a pair of rows: /repo/src/neon/yuv_to_rgba420.rs:284-389. -/
def planarTail420 (rdm : Bool) (ch : Channels) (rg : ChromaRange) (t : InvCoef) (width : Nat)
    (y0 y1 u v : Buf) (rows : Buf × Buf) (cx ux : Nat) : Outcome ((Buf × Buf) × Nat × Nat) :=
  if cx < width then do
    let diff := width - cx
    if 8 < diff then .panic
    let yb0 ← copyIn y0 cx diff (List.replicate 8 0)
    let yb1 ← copyIn y1 cx diff (List.replicate 8 0)
    let ud := chromaStep .yuv420 diff
    let ub ← copyIn u ux ud (List.replicate 8 0)
    let vb ← copyIn v ux ud (List.replicate 8 0)
    let db ← planarBody420 rdm .s8 ch rg t yb0 yb1 ub vb 0 0 (List.replicate 32 0, List.replicate 32 0)
    let row0 ← copyOut db.1 (diff * ch.count) rows.1 (cx * ch.count)
    let row1 ← copyOut db.2 (diff * ch.count) rows.2 (cx * ch.count)
    return ((row0, row1), cx + diff, ux + ud)
  else .ok (rows, cx, ux)

/-- Models `neon_yuv_to_rgba_row420_impl`, /repo/src/neon/yuv_to_rgba420.rs:77-392. -/
def planarRow420 (rdm : Bool) (ch : Channels) (rg : ChromaRange) (t : InvCoef) (width : Nat)
    (y0 y1 u v row0 row1 : Buf) (cx ux : Nat) : Outcome ((Buf × Buf) × Nat × Nat) := do
  let r ← vwhile 16 8 width (planarBody420 rdm .s16 ch rg t y0 y1 u v) cx ux (row0, row1)
  let r ← vwhile 8 4 width (planarBody420 rdm .s8 ch rg t y0 y1 u v) r.2.1 r.2.2 r.1
  planarTail420 rdm ch rg t width y0 y1 u v r.1 r.2.1 r.2.2

/-! ## Semi-planar -/

/-- `if order == YuvNVOrder::VU { uv_values = uint8x16x2_t(uv_values.1, uv_values.0) }`,
/repo/src/neon/yuv_nv_to_rgba.rs:134-136. -/
def ordered (o : NVOrder) (c : Reg × Reg) : Reg × Reg :=
  match o with
  | .uv => c
  | .vu => (c.2, c.1)

/-- The chroma of a step with sub-sampling: /repo/src/neon/yuv_nv_to_rgba.rs:132-145 (32 pixels), 271-284
(16) and 354-380 (8); /repo/src/neon/yuv_nv_to_rgba420.rs:126-144, 324-338 and 426-435.  Whether the offset
is removed before or after the registers are swapped makes no difference. -/
def nvChroma2 (st : Step) (o : NVOrder) (rg : ChromaRange) (uv : Buf) (ux : Nat) :
    Outcome (Reg × Reg) :=
  match st with
  | .s8 => do
    let r ← load 8 uv ux
    let r := sub8 r (corr rg)
    return ordered o (tbl1 r [0, 0, 2, 2, 4, 4, 6, 6], tbl1 r [1, 1, 3, 3, 5, 5, 7, 7])
  | st => do
    let r ← load st.n uv ux
    let c := ordered o (deinterleave r)
    return (doubled st (sub8 c.1 (corr rg)), doubled st (sub8 c.2 (corr rg)))

/-- The chroma of a step without sub-sampling: /repo/src/neon/yuv_nv_to_rgba.rs:146-164 (32 pixels),
285-298 (16) and 381-392 (8). -/
def nvChroma1 (st : Step) (o : NVOrder) (rg : ChromaRange) (uv : Buf) (ux : Nat) :
    Outcome (Reg × Reg) :=
  match st with
  | .s32 => do
    let r0 ← load 32 uv ux
    let r1 ← load 32 uv (ux + 16 * 2)
    let c0 := ordered o (deinterleave r0)
    let c1 := ordered o (deinterleave r1)
    return (combine 16 (sub8 c0.1 (corr rg)) (sub8 c1.1 (corr rg)),
      combine 16 (sub8 c0.2 (corr rg)) (sub8 c1.2 (corr rg)))
  | st => do
    let r ← load (2 * st.n) uv ux
    let c := ordered o (deinterleave r)
    return (sub8 c.1 (corr rg), sub8 c.2 (corr rg))

/-- The chroma of a step of a semi-planar image. -/
def nvChroma (st : Step) (s : Sampling) (o : NVOrder) (rg : ChromaRange) (uv : Buf) (ux : Nat) :
    Outcome (Reg × Reg) :=
  match s with
  | .yuv420 | .yuv422 => nvChroma2 st o rg uv ux
  | .yuv444 => nvChroma1 st o rg uv ux

/-- The bodies of the loops of `neon_yuv_nv_to_rgba_row_impl`, /repo/src/neon/yuv_nv_to_rgba.rs:124-248,
263-340 and 358-418. -/
def nvBody (rdm : Bool) (st : Step) (s : Sampling) (o : NVOrder) (ch : Channels) (rg : ChromaRange)
    (t : InvCoef) (y uv : Buf) (cx ux : Nat) (row : Buf) : Outcome Buf := do
  let yv ← load st.n y cx
  let c ← nvChroma st s o rg uv ux
  putStep rdm false st ch t (cx * ch.count) (subsU8 yv (set1_8 rg.biasY)) c.1 c.2 row

/-- Models `neon_yuv_nv_to_rgba_row_impl`, /repo/src/neon/yuv_nv_to_rgba.rs:73-527; the end of the row is
at 432-524. -/
def nvRow (rdm : Bool) (s : Sampling) (o : NVOrder) (ch : Channels) (rg : ChromaRange) (t : InvCoef)
    (width : Nat) (y uv row : Buf) (cx ux : Nat) : Outcome (Buf × Nat × Nat) := do
  let r ← vwhile 32 (nvStep s 32) width (nvBody rdm .s32 s o ch rg t y uv) cx ux row
  let r ← vwhile 16 (nvStep s 16) width (nvBody rdm .s16 s o ch rg t y uv) r.2.1 r.2.2 r.1
  let r ← vwhile 8 (nvStep s 8) width (nvBody rdm .s8 s o ch rg t y uv) r.2.1 r.2.2 r.1
  nvTailRow 8 s ch width (fun yb ub d => nvBody rdm .s8 s o ch rg t yb ub 0 0 d) y uv r.1 r.2.1 r.2.2

/-- The bodies of the loops of `neon_yuv_nv_to_rgba_row_h_impl`,
/repo/src/neon/yuv_nv_to_rgba420.rs:124-315, 322-406 and 416-479. -/
def nvBody420 (rdm : Bool) (st : Step) (o : NVOrder) (ch : Channels) (rg : ChromaRange) (t : InvCoef)
    (y0 y1 uv : Buf) (cx ux : Nat) (rows : Buf × Buf) : Outcome (Buf × Buf) := do
  let yv0 ← load st.n y0 cx
  let yv1 ← load st.n y1 cx
  let c ← nvChroma2 st o rg uv ux
  let row0 ← putStep rdm true st ch t (cx * ch.count) (subsU8 yv0 (set1_8 rg.biasY)) c.1 c.2 rows.1
  let row1 ← putStep rdm true st ch t (cx * ch.count) (subsU8 yv1 (set1_8 rg.biasY)) c.1 c.2 rows.2
  return (row0, row1)

/-- The last pixels of a pair of rows: /repo/src/neon/yuv_nv_to_rgba420.rs:485-595.  The buffer for the
chroma has 8 bytes. -/
def nvTail420 (rdm : Bool) (o : NVOrder) (ch : Channels) (rg : ChromaRange) (t : InvCoef) (width : Nat)
    (y0 y1 uv : Buf) (rows : Buf × Buf) (cx ux : Nat) : Outcome ((Buf × Buf) × Nat × Nat) :=
  if cx < width then do
    let diff := width - cx
    if 8 < diff then .panic
    let yb0 ← copyIn y0 cx diff (List.replicate 8 0)
    let yb1 ← copyIn y1 cx diff (List.replicate 8 0)
    let hv := nvStep .yuv420 diff
    let uvb ← copyIn uv ux hv (List.replicate 8 0)
    let db ← nvBody420 rdm .s8 o ch rg t yb0 yb1 uvb 0 0 (List.replicate 32 0, List.replicate 32 0)
    let row0 ← copyOut db.1 (diff * ch.count) rows.1 (cx * ch.count)
    let row1 ← copyOut db.2 (diff * ch.count) rows.2 (cx * ch.count)
    return ((row0, row1), cx + diff, ux + hv)
  else .ok (rows, cx, ux)

/-- Models `neon_yuv_nv_to_rgba_row_h_impl`, /repo/src/neon/yuv_nv_to_rgba420.rs:79-598. -/
def nvRow420 (rdm : Bool) (o : NVOrder) (ch : Channels) (rg : ChromaRange) (t : InvCoef) (width : Nat)
    (y0 y1 uv row0 row1 : Buf) (cx ux : Nat) : Outcome ((Buf × Buf) × Nat × Nat) := do
  let r ← vwhile 32 32 width (nvBody420 rdm .s32 o ch rg t y0 y1 uv) cx ux (row0, row1)
  let r ← vwhile 16 16 width (nvBody420 rdm .s16 o ch rg t y0 y1 uv) r.2.1 r.2.2 r.1
  let r ← vwhile 8 8 width (nvBody420 rdm .s8 o ch rg t y0 y1 uv) r.2.1 r.2.2 r.1
  nvTail420 rdm o ch rg t width y0 y1 uv r.1 r.2.1 r.2.2

/-! ## Grey -/

/-- Sixteen grey levels from luma bytes above the offset: /repo/src/neon/y_to_rgb.rs:129-139. -/
def grey16 (rdm : Bool) (t : InvCoef) (y : Reg) : Reg :=
  qmovun (mulh rdm (expandLow y) (asI16 t.y)) (mulh rdm (expandHigh y) (asI16 t.y))

/-- Eight grey levels: /repo/src/neon/y_to_rgb.rs:160-165. -/
def grey8 (rdm : Bool) (t : InvCoef) (y : Reg) : Reg :=
  qmovun (mulh rdm (expandLow y) (asI16 t.y)) (mulh rdm (expandLow y) (asI16 t.y))

/-- The bodies of the loops, sources read at `cx`, destination written at byte `p`:
/repo/src/neon/y_to_rgb.rs:81-124, 126-152 and 154-178. -/
def grayBody (rdm : Bool) (st : Step) (ch : Channels) (rg : ChromaRange) (t : InvCoef) (y : Buf)
    (cx p : Nat) (row : Buf) : Outcome Buf := do
  let yv ← load st.n y cx
  let yv := subsU8 yv (set1_8 rg.biasY)
  match st with
  | .s32 => do
    let r0 := grey16 rdm t yv
    let r1 := grey16 rdm t (upper 16 yv)
    let row ← storeRgb 16 ch p r0 r0 r0 (set1_8 255) row
    storeRgb 16 ch (p + ch.count * 16) r1 r1 r1 (set1_8 255) row
  | .s16 =>
    let r := grey16 rdm t yv
    storeRgb 16 ch p r r r (set1_8 255) row
  | .s8 =>
    let r := grey8 rdm t yv
    storeRgb 8 ch p r r r (set1_8 255) row

/-- Models `neon_y_to_rgb_row_impl`, /repo/src/neon/y_to_rgb.rs:63-217. -/
def grayRow (rdm : Bool) (ch : Channels) (rg : ChromaRange) (t : InvCoef) (width : Nat) (y row : Buf)
    (cx : Nat) : Outcome Buf := do
  let r ← vwhile 32 0 width (fun cx _ row => grayBody rdm .s32 ch rg t y cx (cx * ch.count) row) cx 0 row
  let r ← vwhile 16 0 width (fun cx _ row => grayBody rdm .s16 ch rg t y cx (cx * ch.count) row) r.2.1 0 r.1
  let r ← vwhile 8 0 width (fun cx _ row => grayBody rdm .s8 ch rg t y cx (cx * ch.count) row) r.2.1 0 r.1
  grayTail 8 ch.count width (fun yb d => grayBody rdm .s8 ch rg t yb 0 0 d) y r.1 r.2.1

/-! ## The choice of the code, and the decoders -/

/-- Models `RowHandler::default` and `handle_row` on AArch64 for `PRECISION` 13,
/repo/src/yuv_to_rgba.rs:112-136. -/
def rowHandler (rdm : Bool) (s : Sampling) (ch : Channels) (rg : ChromaRange) (t : InvCoef) (width : Nat) :
    RowHandler := fun y u v row => done (planarRow rdm s ch rg t width y u v row 0 0)

/-- Models `RowHandler420::default` and `handle_row`, /repo/src/yuv_to_rgba.rs:245-275: there is a
handler only for 4:2:0. -/
def rowHandler420 (rdm : Bool) (s : Sampling) (ch : Channels) (rg : ChromaRange) (t : InvCoef)
    (width : Nat) : RowHandler420 := fun y0 y1 u v row0 row1 =>
  match s with
  | .yuv420 => do
    let r ← planarRow420 rdm ch rg t width y0 y1 u v row0 row1 0 0
    return (r.1.1, r.1.2, r.2.1)
  | _ => .ok (row0, row1, 0)

/-- Models `NVRowHandler::default` and `handle_row`, /repo/src/yuv_nv_to_rgba.rs:104-133. -/
def rowHandlerNV (rdm : Bool) (o : NVOrder) (s : Sampling) (ch : Channels) (rg : ChromaRange)
    (t : InvCoef) (width : Nat) : RowHandlerNV := fun y uv row =>
  done (nvRow rdm s o ch rg t width y uv row 0 0)

/-- Models `NVRow420Handler::default` and `handle_row`, /repo/src/yuv_nv_to_rgba.rs:509-540. -/
def rowHandlerNV420 (rdm : Bool) (o : NVOrder) (s : Sampling) (ch : Channels) (rg : ChromaRange)
    (t : InvCoef) (width : Nat) : RowHandlerNV420 := fun y0 y1 uv row0 row1 =>
  match s with
  | .yuv420 => do
    let r ← nvRow420 rdm o ch rg t width y0 y1 uv row0 row1 0 0
    return (r.1.1, r.1.2, r.2.1)
  | _ => .ok (row0, row1, 0)

/-- Models `make_limited_converter`, /repo/src/y_to_rgb.rs:156-168. -/
def grayHandler (rdm : Bool) (ch : Channels) (rg : ChromaRange) (t : InvCoef) (width : Nat) :
    MapHandler := fun rows row => do
  let r ← grayRow rdm ch rg t width (rows.getD 0 []) row 0
  return (r, width)

/-- The 8-bit planar decoder on AArch64: `yuv_to_rgbx`, /repo/src/yuv_to_rgba.rs:765-781.  `usize` has
64 bits as on `x64`. -/
def yuvToRgbxNeon (rdm : Bool) (ch : Channels) (s : Sampling) (i : Planar) (rgba : Buf) (stride : Nat)
    (rg : YuvRange) (m : Matrix) : Outcome Buf :=
  let c := getYuvRange 8 rg
  let t := searchInverse 13 8 rg m
  yuvToRgbx x64 ch s (rowHandler rdm s ch c t i.width) (rowHandler420 rdm s ch c t i.width) i rgba stride
    rg m

/-- The 8-bit semi-planar decoder, balanced mode: `yuv_nv12_to_rgbx`,
/repo/src/yuv_nv_to_rgba.rs:1126-1184. -/
def nvToRgbxNeon (rdm : Bool) (o : NVOrder) (ch : Channels) (s : Sampling) (i : BiPlanar) (rgba : Buf)
    (stride : Nat) (rg : YuvRange) (m : Matrix) : Outcome Buf :=
  let c := getYuvRange 8 rg
  let t := searchInverse 13 8 rg m
  nvToRgbx x64 .balanced o ch s (rowHandlerNV rdm o s ch c t i.width)
    (rowHandlerNV420 rdm o s ch c t i.width) i rgba stride rg m

/-- The 8-bit grey decoder: `y_to_rgbx` (`Verif.yToRgbx`). -/
def yToRgbxNeon (rdm : Bool) (ch : Channels) (i : Gray) (rgba : Buf) (stride : Nat) (rg : YuvRange)
    (m : Matrix) : Outcome Buf :=
  yToRgbx x64 ch (grayHandler rdm ch (getYuvRange 8 rg) (searchInverse 13 8 rg m) i.width) i rgba
    stride rg m

end Verif.Neon
