import Verif.Model.X86Yuy2
/-!
# The 8-bit decoders from packed 4:2:2 to RGB for x86: AVX2 and SSE4.1

/repo/src/avx2/yuy2_to_rgb.rs and /repo/src/sse/yuy2_to_rgb.rs, with the choice made by
`yuy2_to_rgb_impl` (/repo/src/yuy2_to_rgb.rs:114-145): a processor with AVX2 runs the AVX2 code and
then the SSE4.1 code on what is left.
-/
namespace Verif.X86

/-- `_mm_adds_epi16`, `_mm256_adds_epi16`: saturating addition of 16-bit elements. -/
def adds16 (a b : Reg) : Reg := mk16 fun k => satI16 (s16 a k + s16 b k)
/-- `_mm256_cvtepu8_epi16(_mm256_castsi256_si128(a))`: the first 16 bytes, widened. -/
def widenLo (a : Reg) : Reg := mk16 fun k => (a k : Int)
/-- `_mm256_cvtepu8_epi16(_mm256_extracti128_si256::<1>(a))`: the last 16 bytes, widened. -/
def widenHi (a : Reg) : Reg := mk16 fun k => (a (16 + k) : Int)
/-- Models `avx2_pack_u16`, /repo/src/avx2/avx2_utils.rs:42-46. -/
def avx2PackU16 (a b : Reg) : Reg := permute4x64 216 (packus16 a b)

/-- A sum of terms to a sample: not below zero, rounded, shifted,
/repo/src/avx2/yuy2_to_rgb.rs:143-149. -/
def yuyRound (s : Reg) : Reg := srai16 6 (adds16 (max16 s zero) (set1_16 31))

/-- Red, green and blue of widened luma (offset already taken off) and widened chroma:
/repo/src/avx2/yuy2_to_rgb.rs:130-170 (and 171-210, 237-277, 278-317),
/repo/src/sse/yuy2_to_rgb.rs:130-161 (and 162-192, 227-258, 259-289, 378-403, 404-434); the
coefficients are truncated to 16 bits. -/
def yuyWords (rg : ChromaRange) (t : InvCoef) (y u v : Reg) : Reg × Reg × Reg :=
  let u := sub16 u (set1_16 (asI16 rg.biasUv))
  let v := sub16 v (set1_16 (asI16 rg.biasUv))
  let y := mullo16 y (set1_16 (asI16 t.y))
  (yuyRound (adds16 y (mullo16 v (set1_16 (asI16 t.cr)))),
    yuyRound (adds16 y (adds16 (mullo16 v (set1_16 (-asI16 t.g1))) (mullo16 u (set1_16 (-asI16 t.g2))))),
    yuyRound (adds16 y (mullo16 u (set1_16 (asI16 t.cb)))))

/-- 32 pixels from registers of bytes, /repo/src/avx2/yuy2_to_rgb.rs:130-236 (and 237-346). -/
def avx2YuyBlock (ch : Channels) (rg : ChromaRange) (t : InvCoef) (y u v : Reg) (p : Nat) (row : Buf) :
    Outcome Buf :=
  let h := yuyWords rg t (widenHi y) (widenHi u) (widenHi v)
  let l := yuyWords rg t (widenLo y) (widenLo u) (widenLo v)
  avx2Store ch p (avx2PackU16 l.1 h.1) (avx2PackU16 l.2.1 h.2.1) (avx2PackU16 l.2.2 h.2.2)
    (set1_8 255) row

/-- 64 pixels, /repo/src/avx2/yuy2_to_rgb.rs:84-349. -/
def avx2YuyRgb (t : Yuy2) (ch : Channels) (rg : ChromaRange) (tr : InvCoef) (yuy : Buf) (cx : Nat)
    (row : Buf) : Outcome Buf := do
  let j0 ← load 32 yuy (cx * 2)
  let j1 ← load 32 yuy (cx * 2 + 32)
  let j2 ← load 32 yuy (cx * 2 + 64)
  let j3 ← load 32 yuy (cx * 2 + 96)
  let q := yuyPick t (avx2DeRgba j0 j1 j2 j3)
  let y := avx2In2 q.1 q.2.1
  let u := avx2In2 q.2.2.1 q.2.2.1
  let v := avx2In2 q.2.2.2 q.2.2.2
  let row ← avx2YuyBlock ch rg tr (subsU8 y.1 (set1_8 rg.biasY)) u.1 v.1 (cx * ch.count) row
  avx2YuyBlock ch rg tr (subsU8 y.2 (set1_8 rg.biasY)) u.2 v.2 (cx * ch.count + 32 * ch.count) row

/-- Models `yuy2_to_rgb_avx_impl`, /repo/src/avx2/yuy2_to_rgb.rs:57-359; there is no chroma
position. -/
def avx2YuyRgbRow (t : Yuy2) (ch : Channels) (rg : ChromaRange) (tr : InvCoef) (width : Nat)
    (yuy row : Buf) (cx : Nat) : Outcome (Buf × Nat × Nat) :=
  vwhile 64 0 width (fun cx _ row => avx2YuyRgb t ch rg tr yuy cx row) cx 0 row

/-- 16 pixels from words, /repo/src/sse/yuy2_to_rgb.rs:194-225 (and 291-326, 436-467). -/
def sseYuyStore (ch : Channels) (l h : Reg × Reg × Reg) (p : Nat) (row : Buf) : Outcome Buf :=
  sseStore ch p (packus16 l.1 h.1) (packus16 l.2.1 h.2.1) (packus16 l.2.2 h.2.2) (set1_8 255) row

/-- 16 pixels from registers of bytes, /repo/src/sse/yuy2_to_rgb.rs:130-225 (and 227-326). -/
def sseYuyBlock (ch : Channels) (rg : ChromaRange) (t : InvCoef) (y u v : Reg) (p : Nat) (row : Buf) :
    Outcome Buf :=
  sseYuyStore ch (yuyWords rg t (unpacklo 1 y zero) (unpacklo 1 u zero) (unpacklo 1 v zero))
    (yuyWords rg t (unpackhi 1 y zero) (unpackhi 1 u zero) (unpackhi 1 v zero)) p row

/-- 32 pixels, /repo/src/sse/yuy2_to_rgb.rs:82-329. -/
def sseYuyRgb (t : Yuy2) (ch : Channels) (rg : ChromaRange) (tr : InvCoef) (yuy : Buf) (cx : Nat)
    (row : Buf) : Outcome Buf := do
  let j0 ← load 16 yuy (cx * 2)
  let j1 ← load 16 yuy (cx * 2 + 16)
  let j2 ← load 16 yuy (cx * 2 + 32)
  let j3 ← load 16 yuy (cx * 2 + 48)
  let q := yuyPick t (sseDeRgba j0 j1 j2 j3)
  let row ← sseYuyBlock ch rg tr (subsU8 (unpacklo 1 q.1 q.2.1) (set1_8 rg.biasY))
    (unpacklo 1 q.2.2.1 q.2.2.1) (unpacklo 1 q.2.2.2 q.2.2.2) (cx * ch.count) row
  sseYuyBlock ch rg tr (subsU8 (unpackhi 1 q.1 q.2.1) (set1_8 rg.biasY))
    (unpackhi 1 q.2.2.1 q.2.2.1) (unpackhi 1 q.2.2.2 q.2.2.2) (cx * ch.count + 16 * ch.count) row

/-- 16 pixels, /repo/src/sse/yuy2_to_rgb.rs:331-470. -/
def sseYuyRgbHalf (t : Yuy2) (ch : Channels) (rg : ChromaRange) (tr : InvCoef) (yuy : Buf) (cx : Nat)
    (row : Buf) : Outcome Buf := do
  let j0 ← load 16 yuy (cx * 2)
  let j1 ← load 16 yuy (cx * 2 + 16)
  let q := yuyPick t (sseDeRgba j0 j1 zero zero)
  let y := unpacklo 1 (subsU8 q.1 (set1_8 rg.biasY)) (subsU8 q.2.1 (set1_8 rg.biasY))
  let u := unpacklo 1 q.2.2.1 zero
  let v := unpacklo 1 q.2.2.2 zero
  sseYuyStore ch (yuyWords rg tr (unpacklo 1 y zero) (unpacklo 2 u u) (unpacklo 2 v v))
    (yuyWords rg tr (unpackhi 1 y zero) (unpackhi 2 u u) (unpackhi 2 v v)) (cx * ch.count) row

/-- Models `yuy2_to_rgb_sse_impl`, /repo/src/sse/yuy2_to_rgb.rs:54-480. -/
def sseYuyRgbRow (t : Yuy2) (ch : Channels) (rg : ChromaRange) (tr : InvCoef) (width : Nat)
    (yuy row : Buf) (cx : Nat) : Outcome (Buf × Nat × Nat) := do
  let r ← vwhile 32 0 width (fun cx _ row => sseYuyRgb t ch rg tr yuy cx row) cx 0 row
  vwhile 16 0 width (fun cx _ row => sseYuyRgbHalf t ch rg tr yuy cx row) r.2.1 0 r.1

/-- The vector code of one row, /repo/src/yuy2_to_rgb.rs:114-145, on a processor of the given kind. -/
def yuyRgbHandler (cpu : Cpu) (t : Yuy2) (ch : Channels) (rg : ChromaRange) (tr : InvCoef)
    (width : Nat) : YuyRgbHandler := fun yuy row =>
  match cpu with
  | .avx2 => do
    let r ← avx2YuyRgbRow t ch rg tr width yuy row 0
    let q ← sseYuyRgbRow t ch rg tr width yuy r.1 r.2.1
    return (q.1, q.2.1)
  | .sse41 => do
    let q ← sseYuyRgbRow t ch rg tr width yuy row 0
    return (q.1, q.2.1)
  | .plain => .ok (row, 0)

/-- Models `yuy2_to_rgb_impl`, /repo/src/yuy2_to_rgb.rs:44-234, on an x86 processor of the given
kind. -/
def yuy2ToRgbOn (cpu : Cpu) (t : Yuy2) (ch : Channels) (i : Packed) (rgb : Buf) (stride : Nat)
    (rg : YuvRange) (m : Matrix) : Outcome Buf :=
  yuy2ToRgb x64 t ch (yuyRgbHandler cpu t ch (getYuvRange 8 rg) (computedInverse 6 8 rg m) i.width) i
    rgb stride rg m

end Verif.X86
