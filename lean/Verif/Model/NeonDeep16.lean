import Verif.Model.NeonGrayDeep
import Verif.Model.X86Deep
/-!
# 64-bit ARM with NEON: planar 10- to 16-bit YCbCr to RGB of the same depth

/repo/src/neon/yuv_p16_to_rgba16.rs, both kernels, with the dispatch of /repo/src/yuv_p16_rgba_p16.rs.  Sixteen
pixels per step, then eight, the last one to eight through zeroed buffers.  Registers and intrinsics as in
Verif.Model.Neon.  The code subtracts the chroma offset before it doubles the words, the model after: the
subtraction acts on each word by itself.
-/
namespace Verif.Neon
open X86

/-- `vmlal_laneq_s16` (`o` = 0), `vmlal_high_laneq_s16` (4), with wrapping sums. -/
def mlalS (o : Nat) (acc v : Reg) (c : Int) : Reg := mk32 fun j => s32 acc j + s16 v (o + j) * asI16 c

/-- `vqshrun_n_s32::<q>` of two registers and `vcombine_u16` of the results. -/
def qshrunS (q : Nat) (lo hi : Reg) : Reg := mk16 fun j =>
  max 0 (min (if j < 4 then s32 lo j / 2 ^ q else s32 hi (j - 4) / 2 ^ q) 65535)

/-- Red, green and blue words from native luma and chroma words, 32-bit sums:
/repo/src/neon/yuv_p16_to_rgba16.rs:61-82 (constants), 86-98 (luma above its offset) and 155-250. -/
def wideWords (d : Nat) (rg : ChromaRange) (t : InvCoef) (y u v : Reg) : Reg × Reg × Reg :=
  let y := subsU16 y (set1_16 rg.biasY)
  let u := sub16 u (set1_16 rg.biasUv)
  let v := sub16 v (set1_16 rg.biasUv)
  let l := fun o => mlalU o (set1_32 (2 ^ 12 - 1)) y t.y
  let lim := fun r : Reg => if d = 16 then r else minU16 r (set1_16 (2 ^ d - 1))
  let out := fun f : Nat → Reg => lim (qshrunS 13 (f 0) (f 4))
  (out fun o => mlalS o (l o) v t.cr,
    out fun o => mlalS o (mlalS o (l o) v (-t.g1)) u (-t.g2),
    out fun o => mlalS o (l o) u t.cb)

/-- Red, green and blue words with 16-bit rounding multiply-accumulate:
/repo/src/neon/yuv_p16_to_rgba16.rs:577-595 (constants) and 645-685. -/
def rdmWords (d : Nat) (rg : ChromaRange) (t : InvCoef) (y u v : Reg) : Reg × Reg × Reg :=
  let l := mulh true (expandBp d (subsU16 y (set1_16 rg.biasY))) (asI16 t.y)
  let u := slli16 2 (sub16 u (set1_16 rg.biasUv))
  let v := slli16 2 (sub16 v (set1_16 rg.biasUv))
  let lim := fun x => minU16 (max16 x zero) (set1_16 (2 ^ d - 1))
  (lim (mlah true l v (asI16 t.cr)),
    lim (mlah true (mlah true l v (asI16 (-t.g1))) u (asI16 (-t.g2))),
    lim (mlah true l u (asI16 t.cb)))

/-- The chosen kernel, /repo/src/yuv_p16_rgba_p16.rs:97-137. -/
def deep16Words (rdm : Bool) (d : Nat) (rg : ChromaRange) (t : InvCoef) : Reg → Reg → Reg → Reg × Reg × Reg :=
  if rdm = true ∧ d = 10 then rdmWords d rg t else wideWords d rg t

/-- Native chroma words of 8 pixels: /repo/src/neon/yuv_p16_to_rgba16.rs:297-331 and 739-773.  `vzip1` and
`vzip2` of four words are the two halves of their interleaving. -/
def chroma8 (s : Sampling) (e : Endianness) (bp : BytesPacking) (d : Nat) (c : Buf) (ux : Nat) : Outcome Reg :=
  match s with
  | .yuv420 | .yuv422 => do
    let r ← load16 4 c ux
    return unpacklo 2 (nativeReg e bp d r) (nativeReg e bp d r)
  | .yuv444 => do
    let r ← load16 8 c ux
    return nativeReg e bp d r

/-- Native chroma words of 16 pixels, in two registers: /repo/src/neon/yuv_p16_to_rgba16.rs:100-153 and
618-658. -/
def chroma16 (s : Sampling) (e : Endianness) (bp : BytesPacking) (d : Nat) (c : Buf) (ux : Nat) :
    Outcome (Reg × Reg) :=
  match s with
  | .yuv420 | .yuv422 => do
    let r ← load16 8 c ux
    let r := nativeReg e bp d r
    return (unpacklo 2 r r, unpackhi 2 r r)
  | .yuv444 => do
    let r0 ← load16 8 c ux
    let r1 ← load16 8 c (ux + 8)
    return (nativeReg e bp d r0, nativeReg e bp d r1)

/-- Eight pixels with the arithmetic `K`: /repo/src/neon/yuv_p16_to_rgba16.rs:283-384, 442-534 and 730-790. -/
def deep16Body (K : Reg → Reg → Reg → Reg × Reg × Reg) (s : Sampling) (e : Endianness) (bp : BytesPacking)
    (d : Nat) (ch : Channels) (y u v : Buf) (cx ux p : Nat) (row : Buf) : Outcome Buf := do
  let yv ← load16 8 y cx
  let uv ← chroma8 s e bp d u ux
  let vv ← chroma8 s e bp d v ux
  let c := K (nativeReg e bp d yv) uv vv
  storeRgb16 ch p c.1 c.2.1 c.2.2 (set1_16 (2 ^ d - 1)) row

/-- Sixteen pixels: /repo/src/neon/yuv_p16_to_rgba16.rs:85-269 and 602-706. -/
def deep16Body2 (K : Reg → Reg → Reg → Reg × Reg × Reg) (s : Sampling) (e : Endianness) (bp : BytesPacking)
    (d : Nat) (ch : Channels) (y u v : Buf) (cx ux p : Nat) (row : Buf) : Outcome Buf := do
  let y0 ← load16 8 y cx
  let y1 ← load16 8 y (cx + 8)
  let uv ← chroma16 s e bp d u ux
  let vv ← chroma16 s e bp d v ux
  let c0 := K (nativeReg e bp d y0) uv.1 vv.1
  let c1 := K (nativeReg e bp d y1) uv.2 vv.2
  let row ← storeRgb16 ch p c0.1 c0.2.1 c0.2.2 (set1_16 (2 ^ d - 1)) row
  storeRgb16 ch (p + 8 * ch.count) c1.1 c1.2.1 c1.2.2 (set1_16 (2 ^ d - 1)) row

/-- Models `neon_yuv_p16_to_rgba16_row`, /repo/src/neon/yuv_p16_to_rgba16.rs:38-551, and
`neon_yuv_p16_to_rgba16_row_rdm`, lines 553-920, which differ in the arithmetic `K`. -/
def deep16Row (K : Reg → Reg → Reg → Reg × Reg × Reg) (s : Sampling) (e : Endianness) (bp : BytesPacking)
    (d : Nat) (ch : Channels) (width : Nat) (y u v row : Buf) : Outcome (Buf × Nat × Nat) := do
  let r ← vwhile 16 (chromaStep s 16) width
    (fun cx ux row => deep16Body2 K s e bp d ch y u v cx ux (cx * ch.count) row) 0 0 row
  let r ← vwhile 8 (chromaStep s 8) width
    (fun cx ux row => deep16Body K s e bp d ch y u v cx ux (cx * ch.count) row) r.2.1 r.2.2 r.1
  deepTail 8 false s ch width (fun y u v r => deep16Body K s e bp d ch y u v 0 0 0 r) y u v r.1 r.2.1 r.2.2

/-- Models `WideRowAnyHandler::default` and `handle_row`, /repo/src/yuv_p16_rgba_p16.rs:97-256, on 64-bit ARM;
`rdm` says that the processor has rounding multiply-accumulate and the feature is on. -/
def deep16Handler (rdm : Bool) (s : Sampling) (e : Endianness) (bp : BytesPacking) (d : Nat) (ch : Channels)
    (rg : ChromaRange) (t : InvCoef) (width : Nat) : RowHandler := fun y u v row =>
  done (deep16Row (deep16Words rdm d rg t) s e bp d ch width y u v row)

/-- `yuv_p16_to_image_p16_ant` (`Verif.p16ToRgb16`) on 64-bit ARM. -/
def p16ToRgb16 (rdm : Bool) (e : Endianness) (bp : BytesPacking) (d : Nat) (ch : Channels) (s : Sampling)
    (i : Planar) (rgba : Buf) (stride : Nat) (rg : YuvRange) (m : Matrix) : Outcome Buf :=
  Verif.p16ToRgb16 x64 e bp d ch s
    (deep16Handler rdm s e bp d ch (getYuvRange d rg) (searchInverse 13 d rg m) i.width) i rgba stride rg m

end Verif.Neon
