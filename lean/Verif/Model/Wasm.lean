import Verif.Model.X86Decode
import Verif.Model.X86NvDecode
import Verif.Model.X86Gray
/-!
# WebAssembly SIMD: the 8-bit planar, semi-planar and grey decoders

/repo/src/wasm32.  A `v128` is a register of 16 bytes as in Verif.Model.X86, and
loads and stores are bounds checked as there.  The semantics of the intrinsics is
that of the WebAssembly specification; those that do the same as an x86
intrinsic are not defined again (`u8x16_sub_sat` is `subsU8`, `i16x8_add` is
`add16`, `i16x8_sub` is `sub16`, `i16x8_shl` and `u16x8_shl` are `slli16`,
`i16x8_splat` is `set1_16`, `u8x16_splat` is `set1_8`).  The precision is 13, the
only one with vector code.
-/
namespace Verif.Wasm
open X86

/-- 32-bit WebAssembly: `usize` has 32 bits; an overflow is a panic (as for `x64`). -/
def wasm32 : Target := ⟨32, false⟩

/-! ## Intrinsics and helpers -/

/-- `u8x16_shuffle::<l>(a, b)`. -/
def shuffle (l : List Nat) (a b : Reg) : Reg := fun i =>
  if l.getD i 0 < 16 then a (l.getD i 0) else b (l.getD i 0 - 16)
/-- `i16x8_q15mulr_sat`. -/
def q15mulr (a b : Reg) : Reg := mk16 fun k => satI16 ((s16 a k * s16 b k + 16384) / 32768)
/-- `u16x8_extend_low_u8x16`. -/
def extendLow (a : Reg) : Reg := mk16 fun k => a k
/-- `u16x8_extend_high_u8x16`. -/
def extendHigh (a : Reg) : Reg := mk16 fun k => a (8 + k)
/-- `i16x8_gt`: all ones where greater. -/
def gt16 (a b : Reg) : Reg := mk16 fun k => if s16 b k < s16 a k then -1 else 0
/-- `i16x8_lt`. -/
def lt16 (a b : Reg) : Reg := mk16 fun k => if s16 a k < s16 b k then -1 else 0
/-- `v128_bitselect(a, b, m)` for a mask whose bytes are all ones or all zeros, as those of the
comparisons are. -/
def bitselect (a b m : Reg) : Reg := fun i => if m i = 255 then a i else b i

/-- Models `i16x8_pack_sat_u8x16`, /repo/src/wasm32/utils.rs:40-48. -/
def packSat (a b : Reg) : Reg :=
  let mx := set1_16 255
  let mn := set1_16 0
  let a1 := bitselect mx a (gt16 a mx)
  let a1 := bitselect mn a1 (lt16 a mn)
  let b1 := bitselect mx b (gt16 b mx)
  let b1 := bitselect mn b1 (lt16 b mn)
  shuffle [0, 2, 4, 6, 8, 10, 12, 14, 16, 18, 20, 22, 24, 26, 28, 30] a1 b1

/-- Models `wasm_zip_lo_i8x16` and `wasm_unpacklo_i8x16`, /repo/src/wasm32/utils.rs:50-60. -/
def zipLo (a b : Reg) : Reg :=
  shuffle [0, 16, 1, 17, 2, 18, 3, 19, 4, 20, 5, 21, 6, 22, 7, 23] a b
/-- Models `wasm_unpackhi_i8x16`, /repo/src/wasm32/utils.rs:80-84. -/
def zipHi (a b : Reg) : Reg :=
  shuffle [8, 24, 9, 25, 10, 26, 11, 27, 12, 28, 13, 29, 14, 30, 15, 31] a b

/-- Models `wasm_store_interleave_u8x4`, /repo/src/wasm32/transpose.rs:52-76. -/
def storeX4 (p : Nat) (a b c d : Reg) (row : Buf) : Outcome Buf := do
  let u0 := zipLo a c
  let u1 := zipHi a c
  let u2 := zipLo b d
  let u3 := zipHi b d
  let row ← store 16 (zipLo u0 u2) p row
  let row ← store 16 (zipHi u0 u2) (p + 16) row
  let row ← store 16 (zipLo u1 u3) (p + 32) row
  store 16 (zipHi u1 u3) (p + 48) row

/-- Models `wasm_store_interleave_u8x3`, /repo/src/wasm32/transpose.rs:78-94. -/
def storeX3 (p : Nat) (a b c : Reg) (row : Buf) : Outcome Buf := do
  let t00 := shuffle [0, 16, 0, 1, 17, 0, 2, 18, 0, 3, 19, 0, 4, 20, 0, 5] a b
  let t01 := shuffle [21, 0, 6, 22, 0, 7, 23, 0, 8, 24, 0, 9, 25, 0, 10, 26] a b
  let t02 := shuffle [0, 11, 27, 0, 12, 28, 0, 13, 29, 0, 14, 30, 0, 15, 31, 0] a b
  let row ← store 16 (shuffle [0, 1, 16, 3, 4, 17, 6, 7, 18, 9, 10, 19, 12, 13, 20, 15] t00 c) p row
  let row ← store 16 (shuffle [0, 21, 2, 3, 22, 5, 6, 23, 8, 9, 24, 11, 12, 25, 14, 15] t01 c) (p + 16) row
  store 16 (shuffle [26, 1, 2, 27, 4, 5, 28, 7, 8, 29, 10, 11, 30, 13, 14, 31] t02 c) (p + 32) row

/-- Models `wasm_store_rgb`, /repo/src/wasm32/utils.rs:104-131. -/
def storeRgb (ch : Channels) (p : Nat) (r g b a : Reg) (row : Buf) : Outcome Buf :=
  match ch with
  | .rgb => storeX3 p r g b row
  | .bgr => storeX3 p b g r row
  | .rgba => storeX4 p r g b a row
  | .bgra => storeX4 p b g r a row

/-! ## The colour arithmetic -/

/-- The chroma words `x`, offset removed and scaled: `i16x8_shl(i16x8_sub(x, uv_corr), V_SCALE)`,
/repo/src/wasm32/yuv_to_rgba.rs:101-102 and the other kernels. -/
def scaled (rg : ChromaRange) (x : Reg) : Reg := slli16 2 (sub16 x (set1_16 (asI16 rg.biasUv)))

/-- Luma words scaled: /repo/src/wasm32/yuv_to_rgba.rs:103-106. -/
def lumaTerm (t : InvCoef) (y : Reg) : Reg := q15mulr (slli16 2 y) (set1_16 (asI16 t.y))

/-- Eight pixels: luma term and chroma words to red, green and blue words.
/repo/src/wasm32/yuv_to_rgba.rs:108-116 and 126-134; /repo/src/wasm32/yuv_to_rgba420.rs:124-135, where
the green chroma is shared by the two rows; /repo/src/wasm32/yuv_nv_to_rgba.rs:118-126 and
/repo/src/wasm32/yuv_nv_to_rgba420.rs:129-140. -/
def colours (rg : ChromaRange) (t : InvCoef) (yt u v : Reg) : Reg × Reg × Reg :=
  let u := scaled rg u
  let v := scaled rg v
  (add16 yt (q15mulr v (set1_16 (asI16 t.cr))),
    add16 yt (add16 (q15mulr v (set1_16 (-asI16 t.g1))) (q15mulr u (set1_16 (-asI16 t.g2)))),
    add16 yt (q15mulr u (set1_16 (asI16 t.cb))))

/-- The chroma words of the sixteen pixels of a step: Cb low, Cb high, Cr low, Cr high. -/
structure Chroma where
  uLow : Reg
  uHigh : Reg
  vLow : Reg
  vHigh : Reg

/-- Sixteen pixels from luma bytes above the offset: /repo/src/wasm32/yuv_to_rgba.rs:101-138. -/
def rgb16 (rg : ChromaRange) (t : InvCoef) (y : Reg) (c : Chroma) : Reg × Reg × Reg :=
  let hi := colours rg t (lumaTerm t (extendHigh y)) c.uHigh c.vHigh
  let lo := colours rg t (lumaTerm t (extendLow y)) c.uLow c.vLow
  (packSat lo.1 hi.1, packSat lo.2.1 hi.2.1, packSat lo.2.2 hi.2.2)

/-- The words of sixteen chroma bytes of each kind: `u16x8_extend_high_u8x16` and
`u16x8_extend_low_u8x16` of both, /repo/src/wasm32/yuv_to_rgba.rs:83-86. -/
def widen (u v : Reg) : Chroma := ⟨extendLow u, extendHigh u, extendLow v, extendHigh v⟩

/-! ## Planar -/

/-- The chroma of a step of a planar image: /repo/src/wasm32/yuv_to_rgba.rs:75-99 and
/repo/src/wasm32/yuv_to_rgba420.rs:89-111.  `v128_load_half`, /repo/src/wasm32/utils.rs:34-36, loads
eight bytes and clears the others. -/
def planarChroma (s : Sampling) (u v : Buf) (ux : Nat) : Outcome Chroma :=
  match s with
  | .yuv420 | .yuv422 => do
    let uv ← load 8 u ux
    let vv ← load 8 v ux
    return widen (zipLo uv uv) (zipLo vv vv)
  | .yuv444 => do
    let uv ← load 16 u ux
    let vv ← load 16 v ux
    return widen uv vv

/-- The body of the loop of `wasm_yuv_to_rgba_row`, /repo/src/wasm32/yuv_to_rgba.rs:68-152. -/
def planarBody (s : Sampling) (ch : Channels) (rg : ChromaRange) (t : InvCoef) (y u v : Buf)
    (cx ux : Nat) (row : Buf) : Outcome Buf := do
  let yv ← load 16 y cx
  let c ← planarChroma s u v ux
  let p := rgb16 rg t (subsU8 yv (set1_8 rg.biasY)) c
  storeRgb ch (cx * ch.count) p.1 p.2.1 p.2.2 (set1_8 255) row

/-- Models `wasm_yuv_to_rgba_row`, /repo/src/wasm32/yuv_to_rgba.rs:39-167. -/
def planarRow (s : Sampling) (ch : Channels) (rg : ChromaRange) (t : InvCoef) (width : Nat)
    (y u v row : Buf) (cx ux : Nat) : Outcome (Buf × Nat × Nat) :=
  vwhile 16 (chromaStep s 16) width (planarBody s ch rg t y u v) cx ux row

/-- The body of the loop of `wasm_yuv_to_rgba_row420`, /repo/src/wasm32/yuv_to_rgba420.rs:74-186. -/
def planarBody420 (s : Sampling) (ch : Channels) (rg : ChromaRange) (t : InvCoef) (y0 y1 u v : Buf)
    (cx ux : Nat) (rows : Buf × Buf) : Outcome (Buf × Buf) := do
  let yv0 ← load 16 y0 cx
  let yv1 ← load 16 y1 cx
  let c ← planarChroma s u v ux
  let p0 := rgb16 rg t (subsU8 yv0 (set1_8 rg.biasY)) c
  let p1 := rgb16 rg t (subsU8 yv1 (set1_8 rg.biasY)) c
  let row0 ← storeRgb ch (cx * ch.count) p0.1 p0.2.1 p0.2.2 (set1_8 255) rows.1
  let row1 ← storeRgb ch (cx * ch.count) p1.1 p1.2.1 p1.2.2 (set1_8 255) rows.2
  return (row0, row1)

/-- Models `wasm_yuv_to_rgba_row420`, /repo/src/wasm32/yuv_to_rgba420.rs:40-199. -/
def planarRow420 (s : Sampling) (ch : Channels) (rg : ChromaRange) (t : InvCoef) (width : Nat)
    (y0 y1 u v row0 row1 : Buf) (cx ux : Nat) : Outcome ((Buf × Buf) × Nat × Nat) :=
  vwhile 16 (chromaStep s 16) width (planarBody420 s ch rg t y0 y1 u v) cx ux (row0, row1)

/-! ## Semi-planar -/

/-- Models `v128_deinterleave_u8_x2`, /repo/src/wasm32/transpose.rs:33-37. -/
def deinterleave (a b : Reg) : Reg × Reg :=
  (shuffle [0, 2, 4, 6, 8, 10, 12, 14, 16, 18, 20, 22, 24, 26, 28, 30] a b,
    shuffle [1, 3, 5, 7, 9, 11, 13, 15, 17, 19, 21, 23, 25, 27, 29, 31] a b)

/-- `if order == YuvNVOrder::VU { uv_values = (uv_values.1, uv_values.0) }`,
/repo/src/wasm32/yuv_nv_to_rgba.rs:87-89. -/
def ordered (o : NVOrder) (c : Reg × Reg) : Reg × Reg :=
  match o with
  | .uv => c
  | .vu => (c.2, c.1)

/-- The chroma of a step of a semi-planar image: /repo/src/wasm32/yuv_nv_to_rgba.rs:84-109 and
/repo/src/wasm32/yuv_nv_to_rgba420.rs:91-116, with the loads of /repo/src/wasm32/transpose.rs:39-50.
Without sub-sampling both high words are made of the first register and both low words of the
second (lines 104-107 and 111-114). -/
def nvChroma (s : Sampling) (o : NVOrder) (uv : Buf) (ux : Nat) : Outcome Chroma :=
  match s with
  | .yuv420 | .yuv422 => do
    let a ← load 16 uv ux
    let c := ordered o (deinterleave a zero)
    return widen (zipLo c.1 c.1) (zipLo c.2 c.2)
  | .yuv444 => do
    let a ← load 16 uv ux
    let b ← load 16 uv (ux + 16)
    let c := ordered o (deinterleave a b)
    return ⟨extendLow c.2, extendHigh c.1, extendLow c.2, extendHigh c.1⟩

/-- The body of the loop of `wasm_yuv_nv_to_rgba_row`, /repo/src/wasm32/yuv_nv_to_rgba.rs:76-159. -/
def nvBody (s : Sampling) (o : NVOrder) (ch : Channels) (rg : ChromaRange) (t : InvCoef) (y uv : Buf)
    (cx ux : Nat) (row : Buf) : Outcome Buf := do
  let yv ← load 16 y cx
  let c ← nvChroma s o uv ux
  let p := rgb16 rg t (subsU8 yv (set1_8 rg.biasY)) c
  storeRgb ch (cx * ch.count) p.1 p.2.1 p.2.2 (set1_8 255) row

/-- Models `wasm_yuv_nv_to_rgba_row`, /repo/src/wasm32/yuv_nv_to_rgba.rs:38-172. -/
def nvRow (s : Sampling) (o : NVOrder) (ch : Channels) (rg : ChromaRange) (t : InvCoef) (width : Nat)
    (y uv row : Buf) (cx ux : Nat) : Outcome (Buf × Nat × Nat) :=
  vwhile 16 (nvStep s 16) width (nvBody s o ch rg t y uv) cx ux row

/-- The body of the loop of `wasm_yuv_nv_to_rgba_row420`,
/repo/src/wasm32/yuv_nv_to_rgba420.rs:76-191. -/
def nvBody420 (s : Sampling) (o : NVOrder) (ch : Channels) (rg : ChromaRange) (t : InvCoef)
    (y0 y1 uv : Buf) (cx ux : Nat) (rows : Buf × Buf) : Outcome (Buf × Buf) := do
  let yv0 ← load 16 y0 cx
  let yv1 ← load 16 y1 cx
  let c ← nvChroma s o uv ux
  let p0 := rgb16 rg t (subsU8 yv0 (set1_8 rg.biasY)) c
  let p1 := rgb16 rg t (subsU8 yv1 (set1_8 rg.biasY)) c
  let row0 ← storeRgb ch (cx * ch.count) p0.1 p0.2.1 p0.2.2 (set1_8 255) rows.1
  let row1 ← storeRgb ch (cx * ch.count) p1.1 p1.2.1 p1.2.2 (set1_8 255) rows.2
  return (row0, row1)

/-- Models `wasm_yuv_nv_to_rgba_row420`, /repo/src/wasm32/yuv_nv_to_rgba420.rs:38-204. -/
def nvRow420 (s : Sampling) (o : NVOrder) (ch : Channels) (rg : ChromaRange) (t : InvCoef) (width : Nat)
    (y0 y1 uv row0 row1 : Buf) (cx ux : Nat) : Outcome ((Buf × Buf) × Nat × Nat) :=
  vwhile 16 (nvStep s 16) width (nvBody420 s o ch rg t y0 y1 uv) cx ux (row0, row1)

/-! ## Grey -/

/-- Sixteen grey pixels, sources read at `cx`, destination written at byte `p`:
/repo/src/wasm32/y_to_rgb.rs:54-78 and 94-110. -/
def grayBody (ch : Channels) (rg : ChromaRange) (t : InvCoef) (y : Buf) (cx p : Nat) (row : Buf) :
    Outcome Buf := do
  let yv ← load 16 y cx
  let yv := subsU8 yv (set1_8 rg.biasY)
  let r := packSat (lumaTerm t (extendLow yv)) (lumaTerm t (extendHigh yv))
  storeRgb ch p r r r (set1_8 255) row

/-- Models `wasm_y_to_rgb_row`, /repo/src/wasm32/y_to_rgb.rs:34-119. -/
def grayRow (ch : Channels) (rg : ChromaRange) (t : InvCoef) (width : Nat) (y row : Buf) (cx : Nat) :
    Outcome Buf := do
  let r ← vwhile 16 0 width (fun cx _ row => grayBody ch rg t y cx (cx * ch.count) row) cx 0 row
  grayTail 16 ch.count width (fun yb d => grayBody ch rg t yb 0 0 d) y r.1 r.2.1

/-! ## The choice of the code, and the decoders -/

/-- Models `RowHandler::default` and `handle_row` on WebAssembly with SIMD for `PRECISION` 13,
/repo/src/yuv_to_rgba.rs:224-230. -/
def rowHandler (s : Sampling) (ch : Channels) (rg : ChromaRange) (t : InvCoef) (width : Nat) :
    RowHandler := fun y u v row => done (planarRow s ch rg t width y u v row 0 0)

/-- Models `RowHandler420::default` and `handle_row`, /repo/src/yuv_to_rgba.rs:313-319. -/
def rowHandler420 (s : Sampling) (ch : Channels) (rg : ChromaRange) (t : InvCoef) (width : Nat) :
    RowHandler420 := fun y0 y1 u v row0 row1 => do
  let r ← planarRow420 s ch rg t width y0 y1 u v row0 row1 0 0
  return (r.1.1, r.1.2, r.2.1)

/-- Models `NVRowHandler::default` and `handle_row`, /repo/src/yuv_nv_to_rgba.rs:227-235. -/
def rowHandlerNV (o : NVOrder) (s : Sampling) (ch : Channels) (rg : ChromaRange) (t : InvCoef)
    (width : Nat) : RowHandlerNV := fun y uv row => done (nvRow s o ch rg t width y uv row 0 0)

/-- Models `NVRow420Handler::default` and `handle_row`, /repo/src/yuv_nv_to_rgba.rs:580-588. -/
def rowHandlerNV420 (o : NVOrder) (s : Sampling) (ch : Channels) (rg : ChromaRange) (t : InvCoef)
    (width : Nat) : RowHandlerNV420 := fun y0 y1 uv row0 row1 => do
  let r ← nvRow420 s o ch rg t width y0 y1 uv row0 row1 0 0
  return (r.1.1, r.1.2, r.2.1)

/-- Models `make_limited_converter`, /repo/src/y_to_rgb.rs:198-202. -/
def grayHandler (ch : Channels) (rg : ChromaRange) (t : InvCoef) (width : Nat) : MapHandler :=
  fun rows row => do
    let r ← grayRow ch rg t width (rows.getD 0 []) row 0
    return (r, width)

/-- The 8-bit planar decoder on WebAssembly with SIMD: `yuv_to_rgbx`,
/repo/src/yuv_to_rgba.rs:765-781. -/
def yuvToRgbxWasm (ch : Channels) (s : Sampling) (i : Planar) (rgba : Buf) (stride : Nat)
    (rg : YuvRange) (m : Matrix) : Outcome Buf :=
  let c := getYuvRange 8 rg
  let t := searchInverse 13 8 rg m
  yuvToRgbx wasm32 ch s (rowHandler s ch c t i.width) (rowHandler420 s ch c t i.width) i rgba stride
    rg m

/-- The 8-bit semi-planar decoder, balanced mode: `yuv_nv12_to_rgbx`,
/repo/src/yuv_nv_to_rgba.rs:1126-1184. -/
def nvToRgbxWasm (o : NVOrder) (ch : Channels) (s : Sampling) (i : BiPlanar) (rgba : Buf)
    (stride : Nat) (rg : YuvRange) (m : Matrix) : Outcome Buf :=
  let c := getYuvRange 8 rg
  let t := searchInverse 13 8 rg m
  nvToRgbx wasm32 .balanced o ch s (rowHandlerNV o s ch c t i.width)
    (rowHandlerNV420 o s ch c t i.width) i rgba stride rg m

/-- The 8-bit grey decoder: `y_to_rgbx` (`Verif.yToRgbx`). -/
def yToRgbxWasm (ch : Channels) (i : Gray) (rgba : Buf) (stride : Nat) (rg : YuvRange) (m : Matrix) :
    Outcome Buf :=
  yToRgbx wasm32 ch (grayHandler ch (getYuvRange 8 rg) (searchInverse 13 8 rg m) i.width) i rgba
    stride rg m

end Verif.Wasm
