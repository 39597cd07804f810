import Verif.Model.X86Encode
import Verif.Model.Gray
/-!
# The 8-bit grey converters for x86: AVX2 and SSE4.1

/repo/src/avx2/y_to_rgba.rs, y_to_rgba_alpha.rs, rgb_to_y.rs and the same files of /repo/src/sse,
with the choice made by `make_limited_converter` (/repo/src/y_to_rgb.rs:153-209),
`WideRowProcessor` (/repo/src/y_with_alpha_to_rgb.rs:42-146) and `rgbx_to_y`
(/repo/src/rgb_to_y.rs:131-176); the `nightly_avx512` feature is off by default.
-/
namespace Verif.X86

/-! ## Decoding -/

/-- The grey levels of bytes above the luma offset: `_mm256_expand8_unordered_to_10`,
`_mm256_mulhrs_epi16`, `_mm256_packus_epi16`, /repo/src/avx2/y_to_rgba.rs:79-88. -/
def grayBytes (t : InvCoef) (y : Reg) : Reg :=
  packus16 (mulhrs16 (expandLo y) (set1_16 (asI16 t.y))) (mulhrs16 (expandHi y) (set1_16 (asI16 t.y)))
/-- The same with only the low half, /repo/src/sse/y_to_rgba.rs:106-108. -/
def grayBytesLow (t : InvCoef) (y : Reg) : Reg :=
  packus16 (mulhrs16 (expandLo y) (set1_16 (asI16 t.y))) zero
/-- Sixteen bytes in a 256-bit register: `_mm256_permute4x64_epi64::<0x50>`, then `avx2_pack_u16`
with zero, /repo/src/avx2/y_to_rgba_alpha.rs:149-152. -/
def grayBytesHalf (t : InvCoef) (y : Reg) : Reg :=
  permute4x64 0xD8 (packus16 (mulhrs16 (expandLo (permute4x64 0x50 y)) (set1_16 (asI16 t.y))) zero)

/-- The alpha bytes of `n` pixels: opaque (`_mm256_set1_epi8(255u8 as i8)`,
/repo/src/avx2/y_to_rgba.rs:91) or the bytes of the alpha plane
(/repo/src/avx2/y_to_rgba_alpha.rs:119). -/
def alphaBytes (n : Nat) (a : Option Buf) (cx : Nat) : Outcome Reg :=
  match a with
  | none => .ok (set1_8 255)
  | some l => load n l cx

/-- 32 pixels: /repo/src/avx2/y_to_rgba.rs:111-135, 149-169 (the tail) and
/repo/src/avx2/y_to_rgba_alpha.rs:115-140. -/
def avx2Gray (ch : Channels) (rg : ChromaRange) (t : InvCoef) (y : Buf) (a : Option Buf) (cx p : Nat)
    (row : Buf) : Outcome Buf := do
  let yv ← load 32 y cx
  let av ← alphaBytes 32 a cx
  let v := grayBytes t (subsU8 yv (set1_8 rg.biasY))
  avx2Store ch p v v v av row

/-- 64 pixels: /repo/src/avx2/y_to_rgba.rs:71-109 and /repo/src/avx2/y_to_rgba_alpha.rs:73-113,
which interleave the loads and the arithmetic of two steps of 32; the memory they read and the memory
they write are distinct. -/
def avx2Gray64 (ch : Channels) (rg : ChromaRange) (t : InvCoef) (y : Buf) (a : Option Buf) (cx : Nat)
    (row : Buf) : Outcome Buf := do
  let row ← avx2Gray ch rg t y a cx (cx * ch.count) row
  avx2Gray ch rg t y a (cx + 32) (cx * ch.count + ch.count * 32) row

/-- 16 pixels: /repo/src/avx2/y_to_rgba_alpha.rs:142-165.  The upper half of the registers, which
`_mm256_castsi128_si256` leaves undefined, is taken as zero; it is not stored. -/
def avx2GrayHalf (ch : Channels) (rg : ChromaRange) (t : InvCoef) (y : Buf) (a : Option Buf) (cx : Nat)
    (row : Buf) : Outcome Buf := do
  let yv ← load 16 y cx
  let av ← alphaBytes 16 a cx
  let v := grayBytesHalf t (subsU8 yv (set1_8 rg.biasY))
  avx2StoreHalf ch (cx * ch.count) v v v av row

/-- 16 pixels: /repo/src/sse/y_to_rgba.rs:77-101 and /repo/src/sse/y_to_rgba_alpha.rs:79-104. -/
def sseGray (ch : Channels) (rg : ChromaRange) (t : InvCoef) (y : Buf) (a : Option Buf) (cx : Nat)
    (row : Buf) : Outcome Buf := do
  let yv ← load 16 y cx
  let av ← alphaBytes 16 a cx
  let v := grayBytes t (subsU8 yv (set1_8 rg.biasY))
  sseStore ch (cx * ch.count) v v v av row

/-- 8 pixels: /repo/src/sse/y_to_rgba.rs:103-123, 137-151 (the tail) and
/repo/src/sse/y_to_rgba_alpha.rs:106-125.  The luma offset is subtracted with the signed
`_mm_subs_epi8` (lines 104, 137 and 107). -/
def sseGrayHalf (ch : Channels) (rg : ChromaRange) (t : InvCoef) (y : Buf) (a : Option Buf) (cx p : Nat)
    (row : Buf) : Outcome Buf := do
  let yv ← load 8 y cx
  let av ← alphaBytes 8 a cx
  let v := grayBytesLow t (subsI8 yv (set1_8 rg.biasY))
  sseStoreHalf ch p v v v av row

/-- The last pixels of a row, at most `n`, through zeroed buffers on the stack (`f` is the `n`-pixel
step): /repo/src/avx2/y_to_rgba.rs:137-178 (`n` is 32), /repo/src/sse/y_to_rgba.rs:125-160 (8). -/
def grayTail (n cn width : Nat) (f : Buf → Buf → Outcome Buf) (y : Buf) (row : Buf) (cx : Nat) :
    Outcome Buf :=
  if cx < width then do
    let diff := width - cx
    if n < diff then .panic
    let yb ← copyIn y cx diff (List.replicate n 0)
    let db ← f yb (List.replicate (n * 4) 0)
    copyOut db (diff * cn) row (cx * cn)
  else .ok row

/-- Models `avx2_y_to_rgba_row_impl`, /repo/src/avx2/y_to_rgba.rs:52-179. -/
def avx2GrayRow (ch : Channels) (rg : ChromaRange) (t : InvCoef) (width : Nat) (y row : Buf)
    (cx : Nat) : Outcome Buf := do
  let r ← vwhile 64 0 width (fun cx _ row => avx2Gray64 ch rg t y none cx row) cx 0 row
  let r ← vwhile 32 0 width (fun cx _ row => avx2Gray ch rg t y none cx (cx * ch.count) row) r.2.1 0 r.1
  grayTail 32 ch.count width (fun yb d => avx2Gray ch rg t yb none 0 0 d) y r.1 r.2.1

/-- Models `sse_y_to_rgba_row_impl`, /repo/src/sse/y_to_rgba.rs:55-161. -/
def sseGrayRow (ch : Channels) (rg : ChromaRange) (t : InvCoef) (width : Nat) (y row : Buf)
    (cx : Nat) : Outcome Buf := do
  let r ← vwhile 16 0 width (fun cx _ row => sseGray ch rg t y none cx row) cx 0 row
  let r ← vwhile 8 0 width (fun cx _ row => sseGrayHalf ch rg t y none cx (cx * ch.count) row) r.2.1 0 r.1
  grayTail 8 ch.count width (fun yb d => sseGrayHalf ch rg t yb none 0 0 d) y r.1 r.2.1

/-- Models `avx2_y_to_rgba_alpha_row_impl`, /repo/src/avx2/y_to_rgba_alpha.rs:54-168. -/
def avx2GrayAlphaRow (ch : Channels) (rg : ChromaRange) (t : InvCoef) (width : Nat) (y a row : Buf)
    (cx : Nat) : Outcome (Buf × Nat) := do
  let r ← vwhile 64 0 width (fun cx _ row => avx2Gray64 ch rg t y (some a) cx row) cx 0 row
  let r ← vwhile 32 0 width (fun cx _ row => avx2Gray ch rg t y (some a) cx (cx * ch.count) row)
    r.2.1 0 r.1
  let r ← vwhile 16 0 width (fun cx _ row => avx2GrayHalf ch rg t y (some a) cx row) r.2.1 0 r.1
  return (r.1, r.2.1)

/-- Models `sse_y_to_rgba_alpha_row_impl`, /repo/src/sse/y_to_rgba_alpha.rs:56-128. -/
def sseGrayAlphaRow (ch : Channels) (rg : ChromaRange) (t : InvCoef) (width : Nat) (y a row : Buf)
    (cx : Nat) : Outcome (Buf × Nat) := do
  let r ← vwhile 16 0 width (fun cx _ row => sseGray ch rg t y (some a) cx row) cx 0 row
  let r ← vwhile 8 0 width (fun cx _ row => sseGrayHalf ch rg t y (some a) cx (cx * ch.count) row)
    r.2.1 0 r.1
  return (r.1, r.2.1)

/-- Models `make_limited_converter`, /repo/src/y_to_rgb.rs:153-209, for `PRECISION` 13.  The x86
functions finish the row; the scalar loop is the function chosen when there is neither extension. -/
def grayHandler (cpu : Cpu) (ch : Channels) (rg : ChromaRange) (t : InvCoef) (width : Nat) :
    MapHandler := fun rows row =>
  match cpu with
  | .avx2 => do
    let r ← avx2GrayRow ch rg t width (rows.getD 0 []) row 0
    return (r, width)
  | .sse41 => do
    let r ← sseGrayRow ch rg t width (rows.getD 0 []) row 0
    return (r, width)
  | .plain => noMap rows row

/-- Models `handle_row` of `WideRowProcessor<u8>`, /repo/src/y_with_alpha_to_rgb.rs:93-146: a
processor with AVX2 also has SSE4.1, so its rows go through both. -/
def grayAlphaHandler (cpu : Cpu) (ch : Channels) (rg : ChromaRange) (t : InvCoef) (width : Nat) :
    MapHandler := fun rows row =>
  match cpu with
  | .avx2 => do
    let r ← avx2GrayAlphaRow ch rg t width (rows.getD 0 []) (rows.getD 1 []) row 0
    sseGrayAlphaRow ch rg t width (rows.getD 0 []) (rows.getD 1 []) r.1 r.2
  | .sse41 => sseGrayAlphaRow ch rg t width (rows.getD 0 []) (rows.getD 1 []) row 0
  | .plain => noMap rows row

/-! ## Encoding -/

/-- Models `_mm256_load_deinterleave_half_rgb_for_yuv`, /repo/src/avx2/avx2_utils.rs:574-621: 16
pixels at byte `p`.  The upper half of the second register, which `_mm256_castsi128_si256` leaves
undefined, is taken as zero; no component of the 16 pixels is in it. -/
def avx2LoadHalf (ch : Channels) (l : Buf) (p : Nat) : Outcome (Reg × Reg × Reg) :=
  match ch with
  | .rgb => do
    let a ← load 32 l p
    let b ← load 16 l (p + 32)
    let v := avx2DeRgb a b zero
    return (v.1, v.2.1, v.2.2)
  | .bgr => do
    let a ← load 32 l p
    let b ← load 16 l (p + 32)
    let v := avx2DeRgb a b zero
    return (v.2.2, v.2.1, v.1)
  | .rgba => do
    let a ← load 32 l p
    let b ← load 32 l (p + 32)
    let v := avx2DeRgba a b zero zero
    return (v.1, v.2.1, v.2.2.1)
  | .bgra => do
    let a ← load 32 l p
    let b ← load 32 l (p + 32)
    let v := avx2DeRgba a b zero zero
    return (v.2.2.1, v.2.1, v.1)

/-- 32 pixels: /repo/src/avx2/rgb_to_y.rs:79-105. -/
def avx2ToGray (ch : Channels) (rg : ChromaRange) (t : FwdCoef) (src : Buf) (p : Nat) (cx : Nat)
    (o : Buf) : Outcome Buf := do
  let c ← avx2Load ch src p
  store 32 (dotBytes (biasLuma rg) (kLuma t) c) cx o

/-- 16 pixels: /repo/src/avx2/rgb_to_y.rs:107-137 and 151-174 (the tail).  Only
`_mm256_unpacklo_epi8` is computed, `_mm256_packus_epi16(y_l, zero)` packs within the 128-bit
lanes, and the low lane is stored. -/
def avx2ToGrayHalf (ch : Channels) (rg : ChromaRange) (t : FwdCoef) (src : Buf) (p : Nat) (cx : Nat)
    (o : Buf) : Outcome Buf := do
  let c ← avx2LoadHalf ch src p
  store 16 (dotBytesLow (biasLuma rg) (kLuma t) c) cx o

/-- 16 pixels: /repo/src/sse/rgb_to_y.rs:73-114. -/
def sseToGray (ch : Channels) (rg : ChromaRange) (t : FwdCoef) (src : Buf) (p : Nat) (cx : Nat)
    (o : Buf) : Outcome Buf := do
  let c ← sseLoad ch src p
  store 16 (dotBytes (biasLuma rg) (kLuma t) c) cx o

/-- 8 pixels: /repo/src/sse/rgb_to_y.rs:116-144 and 158-179 (the tail). -/
def sseToGrayHalf (ch : Channels) (rg : ChromaRange) (t : FwdCoef) (src : Buf) (p : Nat) (cx : Nat)
    (o : Buf) : Outcome Buf := do
  let c ← sseLoadHalf ch src p
  store 8 (dotBytesLow (biasLuma rg) (kLuma t) c) cx o

/-- The last pixels of a row, at most `n`, through zeroed buffers on the stack:
/repo/src/avx2/rgb_to_y.rs:139-182 (`n` is 16), /repo/src/sse/rgb_to_y.rs:146-187 (8). -/
def toGrayTail (n cn width : Nat) (f : Buf → Buf → Outcome Buf) (src : Buf) (o : Buf) (cx : Nat) :
    Outcome (Buf × Nat) :=
  if cx < width then do
    let diff := width - cx
    if n < diff then .panic
    let sb ← copyIn src (cx * cn) (diff * cn) (List.replicate (n * 4) 0)
    let yb ← f sb (List.replicate n 0)
    let o ← copyOut yb diff o cx
    return (o, cx + diff)
  else .ok (o, cx)

/-- Models `avx2_rgb_to_y_row_impl`, /repo/src/avx2/rgb_to_y.rs:55-185. -/
def avx2ToGrayRow (ch : Channels) (rg : ChromaRange) (t : FwdCoef) (width : Nat) (src o : Buf)
    (cx : Nat) : Outcome (Buf × Nat) := do
  let r ← vwhile 32 0 width (fun cx _ o => avx2ToGray ch rg t src (cx * ch.count) cx o) cx 0 o
  let r ← vwhile 16 0 width (fun cx _ o => avx2ToGrayHalf ch rg t src (cx * ch.count) cx o) r.2.1 0 r.1
  toGrayTail 16 ch.count width (fun sb b => avx2ToGrayHalf ch rg t sb 0 0 b) src r.1 r.2.1

/-- Models `sse_rgb_to_y_impl`, /repo/src/sse/rgb_to_y.rs:52-190. -/
def sseToGrayRow (ch : Channels) (rg : ChromaRange) (t : FwdCoef) (width : Nat) (src o : Buf)
    (cx : Nat) : Outcome (Buf × Nat) := do
  let r ← vwhile 16 0 width (fun cx _ o => sseToGray ch rg t src (cx * ch.count) cx o) cx 0 o
  let r ← vwhile 8 0 width (fun cx _ o => sseToGrayHalf ch rg t src (cx * ch.count) cx o) r.2.1 0 r.1
  toGrayTail 8 ch.count width (fun sb b => sseToGrayHalf ch rg t sb 0 0 b) src r.1 r.2.1

/-- The vector part of `rgbx_to_y`, /repo/src/rgb_to_y.rs:131-176: a processor with AVX2 also has
SSE4.1. -/
def toGrayHandler (cpu : Cpu) (ch : Channels) (rg : ChromaRange) (t : FwdCoef) (width : Nat) :
    MapHandler := fun rows row =>
  match cpu with
  | .avx2 => do
    let r ← avx2ToGrayRow ch rg t width (rows.getD 0 []) row 0
    sseToGrayRow ch rg t width (rows.getD 0 []) r.1 r.2
  | .sse41 => sseToGrayRow ch rg t width (rows.getD 0 []) row 0
  | .plain => noMap rows row

/-! ## The converters on a processor -/

/-- `y_to_rgbx` (`Verif.yToRgbx`) on a processor. -/
def yToRgbxOn (cpu : Cpu) (tg : Target) (ch : Channels) (i : Gray) (rgba : Buf) (stride : Nat)
    (rg : YuvRange) (m : Matrix) : Outcome Buf :=
  yToRgbx tg ch (grayHandler cpu ch (getYuvRange 8 rg) (searchInverse 13 8 rg m) i.width) i rgba stride
    rg m

/-- `y_with_alpha_to_rgbx` (`Verif.yAlphaToRgbx`) on a processor. -/
def yAlphaToRgbxOn (cpu : Cpu) (tg : Target) (ch : Channels) (i : GrayAlpha) (rgba : Buf)
    (stride : Nat) (rg : YuvRange) (m : Matrix) : Outcome Buf :=
  yAlphaToRgbx tg ch (grayAlphaHandler cpu ch (getYuvRange 8 rg) (searchInverse 13 8 rg m) i.width) i
    rgba stride rg m

/-- `rgbx_to_y` (`Verif.rgbxToY`) on a processor. -/
def rgbxToYOn (cpu : Cpu) (tg : Target) (ch : Channels) (i : Gray) (rgba : Buf) (stride : Nat)
    (rg : YuvRange) (m : Matrix) : Outcome Buf :=
  rgbxToY tg ch (toGrayHandler cpu ch (getYuvRange 8 rg) (searchForward 13 8 rg m) i.width) i rgba
    stride rg m

end Verif.X86
