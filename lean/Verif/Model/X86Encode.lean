import Verif.Model.X86Load
import Verif.Model.X86Decode
import Verif.Model.RgbaToYuv
/-!
# The 8-bit encoders for x86: AVX2 and SSE4.1

/repo/src/avx2/rgba_to_yuv.rs, rgba_to_yuv420.rs, rgb_to_nv.rs, rgb_to_nv420.rs and the same files
of /repo/src/sse, with the choice made by `RgbEncoder::default`, `RgbEncoder420::default`
(/repo/src/rgba_to_yuv.rs), `SemiPlanarEncoder::default` and `SemiPlanar420Encoder::default`
(/repo/src/rgba_to_nv.rs).  The precision is 13 (the balanced mode).  The kernels are started at
`cx = ux = 0`; the models keep the start as a parameter.
-/
namespace Verif.X86

/-! ## Arithmetic -/

/-- Eight bytes of each lane of the three channels expanded to twelve bits:
`_mm_srli_epi16::<4>(_mm_unpacklo_epi8(v, v))`, /repo/src/avx2/rgba_to_yuv.rs:86-99. -/
def wideLo (c : Reg × Reg × Reg) : Reg × Reg × Reg :=
  (srli16 4 (unpacklo 1 c.1 c.1), srli16 4 (unpacklo 1 c.2.1 c.2.1),
    srli16 4 (unpacklo 1 c.2.2 c.2.2))
/-- The same for the upper eight bytes of each lane. -/
def wideHi (c : Reg × Reg × Reg) : Reg × Reg × Reg :=
  (srli16 4 (unpackhi 1 c.1 c.1), srli16 4 (unpackhi 1 c.2.1 c.2.1),
    srli16 4 (unpackhi 1 c.2.2 c.2.2))

/-- Neighbouring bytes summed and multiplied by eight, for the three channels:
`avx_pairwise_avg_epi16_epi8_j(v, 1 << 3)`, /repo/src/avx2/avx2_utils.rs:346-348, and
`sse_pairwise_avg_epi8_j`, /repo/src/sse/utils.rs:746-748. -/
def pairWords (c : Reg × Reg × Reg) : Reg × Reg × Reg :=
  (maddubs c.1 (set1_8 8), maddubs c.2.1 (set1_8 8), maddubs c.2.2 (set1_8 8))

/-- The channels of two rows averaged: `_mm256_avg_epu8`, /repo/src/avx2/rgba_to_yuv420.rs:161-163. -/
def avgRows (c d : Reg × Reg × Reg) : Reg × Reg × Reg :=
  (avg8 c.1 d.1, avg8 c.2.1 d.2.1, avg8 c.2.2 d.2.2)

/-- The weighted sum of three words: `_mm256_sqrdmlah_dot`, /repo/src/avx2/avx2_utils.rs:1200-1235,
and the same sums written out in /repo/src/avx2/rgba_to_yuv420.rs:105-122 and
/repo/src/sse/rgba_to_yuv.rs:93-99. -/
def encDot (bias : Int) (k : Int × Int × Int) (c : Reg × Reg × Reg) : Reg :=
  srli16 2 (add16 (set1_16 bias) (add16
    (add16 (mulhrs16 c.1 (set1_16 (asI16 k.1))) (mulhrs16 c.2.1 (set1_16 (asI16 k.2.1))))
    (mulhrs16 c.2.2 (set1_16 (asI16 k.2.2)))))

/-- `range.bias_y as i16 * (1 << A_E)`, /repo/src/avx2/rgba_to_yuv.rs:101. -/
def biasLuma (rg : ChromaRange) : Int := (rg.biasY : Int) * 4
/-- `range.bias_uv as i16 * (1 << A_E) + (1 << (A_E - 1)) - 1`, /repo/src/avx2/rgba_to_yuv.rs:114. -/
def biasChroma (rg : ChromaRange) : Int := (rg.biasUv : Int) * 4 + 2 - 1
/-- The weights of luma. -/
def kLuma (t : FwdCoef) : Int × Int × Int := (t.yr, t.yg, t.yb)
/-- The weights of Cb. -/
def kCb (t : FwdCoef) : Int × Int × Int := (t.cbR, t.cbG, t.cbB)
/-- The weights of Cr. -/
def kCr (t : FwdCoef) : Int × Int × Int := (t.crR, t.crG, t.crB)

/-- One output byte per input byte: `_mm256_packus_epi16` of the sums of the two halves,
/repo/src/avx2/rgba_to_yuv.rs:106-110. -/
def dotBytes (bias : Int) (k : Int × Int × Int) (c : Reg × Reg × Reg) : Reg :=
  packus16 (encDot bias k (wideLo c)) (encDot bias k (wideHi c))
/-- The same with only the low half, `_mm_packus_epi16(low, _mm_setzero_si128())`,
/repo/src/sse/rgba_to_yuv.rs:101. -/
def dotBytesLow (bias : Int) (k : Int × Int × Int) (c : Reg × Reg × Reg) : Reg :=
  packus16 (encDot bias k (wideLo c)) zero
/-- One output byte per two input bytes, `_mm_packus_epi16(cbk, cbk)`,
/repo/src/sse/rgba_to_yuv.rs:318-319. -/
def ssePairs (bias : Int) (k : Int × Int × Int) (c : Reg × Reg × Reg) : Reg :=
  packus16 (encDot bias k (pairWords c)) (encDot bias k (pairWords c))
/-- The same in 256 bits: `avx2_pack_u16(cb, cb)`, /repo/src/avx2/avx2_utils.rs:42-46. -/
def avx2Pairs (bias : Int) (k : Int × Int × Int) (c : Reg × Reg × Reg) : Reg :=
  permute4x64 0xD8 (packus16 (encDot bias k (pairWords c)) (encDot bias k (pairWords c)))

/-! ## The last pixels of a row -/

/-- The source of the last `diff` pixels of a row in a zeroed buffer for `n` pixels; if the chroma
is subsampled (`rep`) and `diff` is odd, the last pixel is repeated.
/repo/src/avx2/rgba_to_yuv.rs:214-235, /repo/src/sse/rgba_to_yuv.rs:359-379. -/
def tailSrc (n : Nat) (rep : Bool) (cn width : Nat) (rgba : Buf) (cx : Nat) : Outcome Buf := do
  let diff := width - cx
  let sb ← copyIn rgba (cx * cn) (diff * cn) (List.replicate (n * 4) 0)
  if rep && diff % 2 != 0 then do
    let lst := (width - 1) * cn
    let px ← slice rgba lst (lst + cn)
    put sb (diff * cn) px
  else .ok sb

/-- Three planes: luma, Cb, Cr. -/
abbrev Planes := Buf × Buf × Buf
/-- Four planes: luma of two rows, Cb, Cr. -/
abbrev Planes4 := Buf × Buf × Buf × Buf

/-- The last pixels of a row (at most `n`), through buffers on the stack; `f` is the `n`-pixel body.
/repo/src/avx2/rgba_to_yuv.rs:211-283 (`n` is 32) and /repo/src/sse/rgba_to_yuv.rs:355-427 (`n` is
8). -/
def encTail (n : Nat) (s : Sampling) (cn width : Nat) (f : Buf → Planes → Outcome Planes)
    (rgba : Buf) (o : Planes) (cx ux : Nat) : Outcome (Planes × Nat × Nat) :=
  if cx < width then do
    let diff := width - cx
    if n < diff then .panic
    let sb ← tailSrc n (s != .yuv444) cn width rgba cx
    let b ← f sb (List.replicate n 0, List.replicate n 0, List.replicate n 0)
    let hv := chromaStep s diff
    let y ← copyOut b.1 diff o.1 cx
    let u ← copyOut b.2.1 hv o.2.1 ux
    let v ← copyOut b.2.2 hv o.2.2 ux
    return ((y, u, v), cx + diff, ux + hv)
  else .ok (o, cx, ux)

/-- The same for two rows: /repo/src/avx2/rgba_to_yuv420.rs:244-320 and
/repo/src/sse/rgba_to_yuv420.rs:331-407. -/
def encTail420 (n cn width : Nat) (f : Buf → Buf → Planes4 → Outcome Planes4)
    (rgba0 rgba1 : Buf) (o : Planes4) (cx ux : Nat) : Outcome (Planes4 × Nat × Nat) :=
  if cx < width then do
    let diff := width - cx
    if n < diff then .panic
    let sb0 ← tailSrc n true cn width rgba0 cx
    let sb1 ← tailSrc n true cn width rgba1 cx
    let b ← f sb0 sb1 (List.replicate n 0, List.replicate n 0, List.replicate n 0, List.replicate n 0)
    let hv := ceil2 diff
    let y0 ← copyOut b.1 diff o.1 cx
    let y1 ← copyOut b.2.1 diff o.2.1 cx
    let u ← copyOut b.2.2.1 hv o.2.2.1 ux
    let v ← copyOut b.2.2.2 hv o.2.2.2 ux
    return ((y0, y1, u, v), cx + diff, ux + hv)
  else .ok (o, cx, ux)

/-! ## AVX2, planar -/

/-- Models `encode_32_part`, /repo/src/avx2/rgba_to_yuv.rs:66-163: 32 pixels at byte `p`. -/
def avx2Enc (s : Sampling) (ch : Channels) (rg : ChromaRange) (t : FwdCoef) (src : Buf) (p : Nat)
    (o : Planes) (cx ux : Nat) : Outcome Planes := do
  let c ← avx2Load ch src p
  let y ← store 32 (dotBytes (biasLuma rg) (kLuma t) c) cx o.1
  match s with
  | .yuv444 => do
    let u ← store 32 (dotBytes (biasChroma rg) (kCb t) c) ux o.2.1
    let v ← store 32 (dotBytes (biasChroma rg) (kCr t) c) ux o.2.2
    return (y, u, v)
  | .yuv420 | .yuv422 => do
    let u ← store 16 (avx2Pairs (biasChroma rg) (kCb t) c) ux o.2.1
    let v ← store 16 (avx2Pairs (biasChroma rg) (kCr t) c) ux o.2.2
    return (y, u, v)

/-- Models `avx2_rgba_to_yuv_impl`, /repo/src/avx2/rgba_to_yuv.rs:166-286. -/
def avx2EncRow (s : Sampling) (ch : Channels) (rg : ChromaRange) (t : FwdCoef) (width : Nat)
    (rgba : Buf) (o : Planes) (cx ux : Nat) : Outcome (Planes × Nat × Nat) := do
  let r ← vwhile 32 (chromaStep s 32) width
    (fun cx ux o => avx2Enc s ch rg t rgba (cx * ch.count) o cx ux) cx ux o
  encTail 32 s ch.count width (fun sb b => avx2Enc s ch rg t sb 0 b 0 0) rgba r.1 r.2.1 r.2.2

/-- Models `encode_32_part`, /repo/src/avx2/rgba_to_yuv420.rs:63-206: 32 pixels of two rows. -/
def avx2Enc420 (ch : Channels) (rg : ChromaRange) (t : FwdCoef) (src0 src1 : Buf) (p : Nat)
    (o : Planes4) (cx ux : Nat) : Outcome Planes4 := do
  let c0 ← avx2Load ch src0 p
  let c1 ← avx2Load ch src1 p
  let y0 ← store 32 (dotBytes (biasLuma rg) (kLuma t) c0) cx o.1
  let y1 ← store 32 (dotBytes (biasLuma rg) (kLuma t) c1) cx o.2.1
  let u ← store 16 (avx2Pairs (biasChroma rg) (kCb t) (avgRows c0 c1)) ux o.2.2.1
  let v ← store 16 (avx2Pairs (biasChroma rg) (kCr t) (avgRows c0 c1)) ux o.2.2.2
  return (y0, y1, u, v)

/-- Models `avx2_rgba_to_yuv_impl420`, /repo/src/avx2/rgba_to_yuv420.rs:209-323. -/
def avx2EncRow420 (ch : Channels) (rg : ChromaRange) (t : FwdCoef) (width : Nat)
    (rgba0 rgba1 : Buf) (o : Planes4) (cx ux : Nat) : Outcome (Planes4 × Nat × Nat) := do
  let r ← vwhile 32 16 width
    (fun cx ux o => avx2Enc420 ch rg t rgba0 rgba1 (cx * ch.count) o cx ux) cx ux o
  encTail420 32 ch.count width (fun s0 s1 b => avx2Enc420 ch rg t s0 s1 0 b 0 0) rgba0 rgba1 r.1
    r.2.1 r.2.2

/-! ## SSE4.1, planar -/

/-- The 16-pixel body of `sse_rgba_to_yuv_row_impl`, /repo/src/sse/rgba_to_yuv.rs:213-330. -/
def sseEnc (s : Sampling) (ch : Channels) (rg : ChromaRange) (t : FwdCoef) (src : Buf) (p : Nat)
    (o : Planes) (cx ux : Nat) : Outcome Planes := do
  let c ← sseLoad ch src p
  let y ← store 16 (dotBytes (biasLuma rg) (kLuma t) c) cx o.1
  match s with
  | .yuv444 => do
    let u ← store 16 (dotBytes (biasChroma rg) (kCb t) c) ux o.2.1
    let v ← store 16 (dotBytes (biasChroma rg) (kCr t) c) ux o.2.2
    return (y, u, v)
  | .yuv420 | .yuv422 => do
    let u ← store 8 (ssePairs (biasChroma rg) (kCb t) c) ux o.2.1
    let v ← store 8 (ssePairs (biasChroma rg) (kCr t) c) ux o.2.2
    return (y, u, v)

/-- Models `encode_8_part`, /repo/src/sse/rgba_to_yuv.rs:66-169. -/
def sseEncHalf (s : Sampling) (ch : Channels) (rg : ChromaRange) (t : FwdCoef) (src : Buf) (p : Nat)
    (o : Planes) (cx ux : Nat) : Outcome Planes := do
  let c ← sseLoadHalf ch src p
  let y ← store 8 (dotBytesLow (biasLuma rg) (kLuma t) c) cx o.1
  match s with
  | .yuv444 => do
    let u ← store 8 (dotBytesLow (biasChroma rg) (kCb t) c) ux o.2.1
    let v ← store 8 (dotBytesLow (biasChroma rg) (kCr t) c) ux o.2.2
    return (y, u, v)
  | .yuv420 | .yuv422 => do
    let u ← store 4 (ssePairs (biasChroma rg) (kCb t) c) ux o.2.1
    let v ← store 4 (ssePairs (biasChroma rg) (kCr t) c) ux o.2.2
    return (y, u, v)

/-- Models `sse_rgba_to_yuv_row_impl`, /repo/src/sse/rgba_to_yuv.rs:172-430. -/
def sseEncRow (s : Sampling) (ch : Channels) (rg : ChromaRange) (t : FwdCoef) (width : Nat)
    (rgba : Buf) (o : Planes) (cx ux : Nat) : Outcome (Planes × Nat × Nat) := do
  let r ← vwhile 16 (chromaStep s 16) width
    (fun cx ux o => sseEnc s ch rg t rgba (cx * ch.count) o cx ux) cx ux o
  let r ← vwhile 8 (chromaStep s 8) width
    (fun cx ux o => sseEncHalf s ch rg t rgba (cx * ch.count) o cx ux) r.2.1 r.2.2 r.1
  encTail 8 s ch.count width (fun sb b => sseEncHalf s ch rg t sb 0 b 0 0) rgba r.1 r.2.1 r.2.2

/-- The 16-pixel body of `sse_rgba_to_yuv_row_impl420`, /repo/src/sse/rgba_to_yuv420.rs:185-313. -/
def sseEnc420 (ch : Channels) (rg : ChromaRange) (t : FwdCoef) (src0 src1 : Buf) (p : Nat)
    (o : Planes4) (cx ux : Nat) : Outcome Planes4 := do
  let c0 ← sseLoad ch src0 p
  let y0 ← store 16 (dotBytes (biasLuma rg) (kLuma t) c0) cx o.1
  let c1 ← sseLoad ch src1 p
  let y1 ← store 16 (dotBytes (biasLuma rg) (kLuma t) c1) cx o.2.1
  let u ← store 8 (ssePairs (biasChroma rg) (kCb t) (avgRows c0 c1)) ux o.2.2.1
  let v ← store 8 (ssePairs (biasChroma rg) (kCr t) (avgRows c0 c1)) ux o.2.2.2
  return (y0, y1, u, v)

/-- Models `encode_8_part`, /repo/src/sse/rgba_to_yuv420.rs:63-152. -/
def sseEnc420Half (ch : Channels) (rg : ChromaRange) (t : FwdCoef) (src0 src1 : Buf) (p : Nat)
    (o : Planes4) (cx ux : Nat) : Outcome Planes4 := do
  let c0 ← sseLoadHalf ch src0 p
  let c1 ← sseLoadHalf ch src1 p
  let y0 ← store 8 (dotBytesLow (biasLuma rg) (kLuma t) c0) cx o.1
  let y1 ← store 8 (dotBytesLow (biasLuma rg) (kLuma t) c1) cx o.2.1
  let u ← store 4 (ssePairs (biasChroma rg) (kCb t) (avgRows c0 c1)) ux o.2.2.1
  let v ← store 4 (ssePairs (biasChroma rg) (kCr t) (avgRows c0 c1)) ux o.2.2.2
  return (y0, y1, u, v)

/-- Models `sse_rgba_to_yuv_row_impl420`, /repo/src/sse/rgba_to_yuv420.rs:155-410. -/
def sseEncRow420 (ch : Channels) (rg : ChromaRange) (t : FwdCoef) (width : Nat)
    (rgba0 rgba1 : Buf) (o : Planes4) (cx ux : Nat) : Outcome (Planes4 × Nat × Nat) := do
  let r ← vwhile 16 8 width
    (fun cx ux o => sseEnc420 ch rg t rgba0 rgba1 (cx * ch.count) o cx ux) cx ux o
  let r ← vwhile 8 4 width
    (fun cx ux o => sseEnc420Half ch rg t rgba0 rgba1 (cx * ch.count) o cx ux) r.2.1 r.2.2 r.1
  encTail420 8 ch.count width (fun s0 s1 b => sseEnc420Half ch rg t s0 s1 0 b 0 0) rgba0 rgba1 r.1
    r.2.1 r.2.2

/-! ## Dispatch, planar -/

/-- Models `RgbEncoder::default` and `handle_row` for `PRECISION` 13,
/repo/src/rgba_to_yuv.rs:79-193 (the `nightly_avx512` feature is off by default). -/
def rowEncoder (cpu : Cpu) (s : Sampling) (ch : Channels) (rg : ChromaRange) (t : FwdCoef)
    (width : Nat) : RowEncoder := fun y u v rgba =>
  match cpu with
  | .avx2 => do
    let r ← avx2EncRow s ch rg t width rgba (y, u, v) 0 0
    return (r.1.1, r.1.2.1, r.1.2.2, r.2.1)
  | .sse41 => do
    let r ← sseEncRow s ch rg t width rgba (y, u, v) 0 0
    return (r.1.1, r.1.2.1, r.1.2.2, r.2.1)
  | .plain => noEnc y u v rgba

/-- Models `RgbEncoder420::default` and `handle_row` for `PRECISION` 13,
/repo/src/rgba_to_yuv.rs:409-512. -/
def rowEncoder420 (cpu : Cpu) (ch : Channels) (rg : ChromaRange) (t : FwdCoef)
    (width : Nat) : RowEncoder420 := fun y0 y1 u v rgba0 rgba1 =>
  match cpu with
  | .avx2 => do
    let r ← avx2EncRow420 ch rg t width rgba0 rgba1 (y0, y1, u, v) 0 0
    return (r.1.1, r.1.2.1, r.1.2.2.1, r.1.2.2.2, r.2.1)
  | .sse41 => do
    let r ← sseEncRow420 ch rg t width rgba0 rgba1 (y0, y1, u, v) 0 0
    return (r.1.1, r.1.2.1, r.1.2.2.1, r.1.2.2.2, r.2.1)
  | .plain => noEnc420 y0 y1 u v rgba0 rgba1

/-- The 8-bit planar encoder in the balanced mode on a processor of class `cpu`: `rgbx_to_yuv8`,
/repo/src/rgba_to_yuv.rs, with the row encoders chosen by run-time feature detection. -/
def rgbxToYuvOn (cpu : Cpu) (ch : Channels) (s : Sampling) (i : Planar) (rgba : Buf) (stride : Nat)
    (rg : YuvRange) (m : Matrix) : Outcome Planar :=
  let c := getYuvRange 8 rg
  let t := searchForward 13 8 rg m
  rgbxToYuv x64 .balanced ch s (rowEncoder cpu s ch c t i.width) (rowEncoder420 cpu ch c t i.width) i
    rgba stride rg m

end Verif.X86
