import Verif.Model.X86YuyRgb
import Verif.Model.X86Shuffle
import Verif.Model.Packed444
/-!
# The RemoteFX encoder for x86: AVX2

/repo/src/avx2/rdp_to_yuv.rs, with the choice made in `RgbEncoder::default`
(/repo/src/rdp.rs:154-170).  There is no SSE4.1 kernel.
-/
namespace Verif.X86

/-- A store of the first `n` 16-bit elements of `r` at element `p` of an `i16` or `u16` slice
(`_mm_storeu_si128` for 8 elements, `_mm256_storeu_si256` for 16). -/
def store16 (n : Nat) (r : Reg) (p : Nat) (l : Buf) : Outcome Buf := put l p ((List.range n).map (w16 r))

/-- Two coefficients in one `i32`, the first in the low half: models `_interleaved_yr_yg`,
`_interleaved_cbr_cbg` and `_interleaved_crr_crg`, /repo/src/yuv_support.rs:130-148. -/
def interleaved (a b : Int) : Int := asI32 ((asU16 b : Int) * 65536 + asU16 a)

/-- Models `_mm256_double_affine_uv_s_dot` (/repo/src/avx2/avx2_utils.rs:1058-1090) and, with the
accumulator zero, `_mm256_double_affine_uv_dot` (lines 1015-1055), on the halves the callers make of
registers `r`, `g`, `b` of 16-bit elements (/repo/src/avx2/rdp_to_yuv.rs:153-165): sixteen
weighted sums, shifted right by `q`. -/
def dotHalf (q : Nat) (kr kg kb : Int) (r g b : Reg) : Reg :=
  let w0 := set1_32 (interleaved kr kg)
  let w1 := set1_16 (asI16 kb)
  let j0 := add32v (madd16 (unpacklo 2 r g) w0) (madd16 (unpacklo 2 b zero) w1)
  let j1 := add32v (madd16 (unpackhi 2 r g) w0) (madd16 (unpackhi 2 b zero) w1)
  packs32 (srai32 q j0) (srai32 q j1)

/-- Models `_mm256_load_rdp_deinterleave_rgb_for_yuv`, /repo/src/avx2/rdp_to_yuv.rs:58-115: 32 pixels
at byte `p` as red, green and blue.  The loads of the first four layouts are those of `avx2Load`,
those of the last two are those of `avx2Load4 .rgba`. -/
def rdpLoad (ch : RdpChannels) (l : Buf) (p : Nat) : Outcome (Reg × Reg × Reg) :=
  match ch with
  | .rgb => avx2Load .rgb l p
  | .bgr => avx2Load .bgr l p
  | .rgba => avx2Load .rgba l p
  | .bgra => avx2Load .bgra l p
  | .abgr => do
    let v ← avx2Load4 .rgba l p
    return (v.2.2.2, v.2.2.1, v.2.1)
  | .argb => do
    let v ← avx2Load4 .rgba l p
    return (v.2.1, v.2.2.1, v.2.2.2)

/-- 32 samples of one plane, read at byte `p` and written at element `q`; `off` is subtracted (4096
for luma, /repo/src/avx2/rdp_to_yuv.rs:174-175; there is no subtraction for chroma, here `off` = 0).
The loop, /repo/src/avx2/rdp_to_yuv.rs:140-217, and the tail, lines 233-294. -/
def rdpBlock (ch : RdpChannels) (kr kg kb off : Int) (src : Buf) (p q : Nat) (row : Buf) :
    Outcome Buf := do
  let v ← rdpLoad ch src p
  let lo := sub16 (dotHalf 10 kr kg kb (widenLo v.1) (widenLo v.2.1) (widenLo v.2.2)) (set1_16 off)
  let hi := sub16 (dotHalf 10 kr kg kb (widenHi v.1) (widenHi v.2.1) (widenHi v.2.2)) (set1_16 off)
  let row ← store16 16 lo q row
  store16 16 hi (q + 16) row

/-- The last samples of a row, at most 32, through zeroed buffers on the stack:
/repo/src/avx2/rdp_to_yuv.rs:219-315. -/
def rdpTail (ch : RdpChannels) (kr kg kb off : Int) (width : Nat) (src row : Buf) (cx : Nat) :
    Outcome Buf :=
  if cx < width then do
    let diff := width - cx
    if 32 < diff then .panic
    let sb ← copyIn src (cx * ch.count) (diff * ch.count) (List.replicate 128 0)
    let db ← rdpBlock ch kr kg kb off sb 0 0 (List.replicate 32 0)
    copyOut db diff row cx
  else .ok row

/-- Models `rdp_avx2_rgba_to_yuv_impl`, /repo/src/avx2/rdp_to_yuv.rs:118-318, for one plane: the
kernel fills the three planes together, but what it writes to a plane depends on the pixels only. -/
def rdpRow (ch : RdpChannels) (kr kg kb off : Int) (width : Nat) (src row : Buf) : Outcome Buf := do
  let r ← vwhile 32 32 width
    (fun cx _ row => rdpBlock ch kr kg kb off src (cx * ch.count) cx row) 0 0 row
  rdpTail ch kr kg kb off width src r.1 r.2.1

/-- Models `RgbEncoder::default` and `handle_row`, /repo/src/rdp.rs:154-170, 189-204, for one plane. -/
def rdpHandler (cpu : Cpu) (ch : RdpChannels) (kr kg kb off : Int) (width : Nat) : MapHandler :=
  fun rows row =>
  match cpu with
  | .avx2 => do
    let r ← rdpRow ch kr kg kb off width (rows.getD 0 []) row
    return (r, width)
  | .sse41 => noMap rows row
  | .plain => noMap rows row

/-- `to_rdp_yuv` (`Verif.rgbxToRdp`) on a processor. -/
def rgbxToRdpOn (cpu : Cpu) (ch : RdpChannels) (i : Planar) (rgba : Buf) (stride : Nat) :
    Outcome Planar :=
  rgbxToRdp x64 ch
    (rdpHandler cpu ch rdpFwd.yr rdpFwd.yg rdpFwd.yb 4096 i.width)
    (rdpHandler cpu ch rdpFwd.cbR rdpFwd.cbG rdpFwd.cbB 0 i.width)
    (rdpHandler cpu ch rdpFwd.crR rdpFwd.crG rdpFwd.crB 0 i.width) i rgba stride

end Verif.X86
