import Verif.Model.Neon
import Verif.Model.X86Yuy2
/-!
# 64-bit ARM with NEON: the 8-bit packers to and unpackers from packed 4:2:2

/repo/src/neon/yuv_to_yuy2.rs and /repo/src/neon/yuy2_to_yuv.rs, with the choice made by `process_wide_row`
(/repo/src/yuv_to_yuy2.rs:126-139, /repo/src/yuy2_to_yuv.rs:63-74).  Semantics of the intrinsics, and
registers, as in Verif.Model.Neon; `vld4` and `vst4` read and write four interleaved registers.  In both
kernels the two loops do the same with registers of `n` = 16 and of `n` = 8 bytes.
-/
namespace Verif.Neon
open X86

/-- `vrhadd_u8`, `vrhaddq_u8`. -/
def rhadd (a b : Reg) : Reg := fun i => (a i + b i + 1) / 2

/-- `vqtbl1q_u8` with `shuffle_table`, /repo/src/neon/yuv_to_yuy2.rs:45 and 60: the even bytes of a register
of 16 bytes, then the odd ones. -/
def tblEvenOdd (a : Reg) : Reg := fun i =>
  a ([0, 2, 4, 6, 8, 10, 12, 14, 1, 3, 5, 7, 9, 11, 13, 15].getD i 0)

/-! ## Packing -/

/-- The luma of the first and of the second pixels of `n` pairs: /repo/src/neon/yuv_to_yuy2.rs:82-86 (16)
and 129-132 (8). -/
def packLuma (n : Nat) (y : Reg) : Reg × Reg :=
  if n = 16 then
    let lo := tblEvenOdd y
    let hi := tblEvenOdd (upper 16 y)
    (combine 8 lo hi, combine 8 (upper 8 lo) (upper 8 hi))
  else (tblEvenOdd y, upper 8 (tblEvenOdd y))

/-- The chroma of `n` pairs: /repo/src/neon/yuv_to_yuy2.rs:71-80 (16) and 112-127 (8).  With 4:4:4 the
lower half of what is loaded is averaged with the upper half. -/
def packChroma (n : Nat) (s : Sampling) (c : Buf) (ux : Nat) : Outcome Reg :=
  match s with
  | .yuv444 => do
    let a ← load (2 * n) c ux
    return rhadd a (upper n a)
  | _ => load n c ux

/-- `2 * n` pixels: /repo/src/neon/yuv_to_yuy2.rs:63-99 and 103-146. -/
def pack (n : Nat) (s : Sampling) (t : Yuy2) (y u v : Buf) (cx ux : Nat) (yuy : Buf) : Outcome Buf := do
  let yr ← load (2 * n) y cx
  let cu ← packChroma n s u ux
  let cv ← packChroma n s v ux
  let p := packLuma n yr
  let q := yuyOrder t p.1 p.2 cu cv
  put yuy (cx * 2) ((List.range n).flatMap fun j => [q.1 j, q.2.1 j, q.2.2.1 j, q.2.2.2 j])

/-- Models `yuv_to_yuy2_neon_impl`, /repo/src/neon/yuv_to_yuy2.rs:34-152, called from
/repo/src/yuv_to_yuy2.rs:126-139. -/
def packer (s : Sampling) (t : Yuy2) (width : Nat) : YuyPacker := fun yuy y u v => do
  let r ← vwhile 32 (yuyStep s 32) width (fun cx ux yuy => pack 16 s t y u v cx ux yuy) 0 0 yuy
  let r ← vwhile 16 (yuyStep s 16) width (fun cx ux yuy => pack 8 s t y u v cx ux yuy) r.2.1 r.2.2 r.1
  return (r.1, r.2.1)

/-- Models `yuv_to_yuy2_impl` for `u8`, /repo/src/yuv_to_yuy2.rs:156-507, on AArch64. -/
def yuvToYuy2Neon (s : Sampling) (t : Yuy2) (i : Planar) (d : Packed) : Outcome Buf :=
  yuvToYuy2 x64 s t (packer s t i.width) i d

/-! ## Unpacking -/

/-- The registers `vld4` makes of the bytes it loads. -/
def deinterleave4 (a : Reg) : Reg × Reg × Reg × Reg :=
  (fun i => a (4 * i), fun i => a (4 * i + 1), fun i => a (4 * i + 2), fun i => a (4 * i + 3))

/-- Two registers of `n` bytes interleaved: `vzip1` and `vzip2`, /repo/src/neon/yuy2_to_yuv.rs:66-67 (16)
and 131-132 (8). -/
def zipBoth (n : Nat) (a b : Reg) : Reg := combine n (zip1 a b) (zip2 n a b)

/-- The store of one chroma plane: /repo/src/neon/yuy2_to_yuv.rs:89-105 (16) and 154-170 (8). -/
def putChroma (n : Nat) (s : Sampling) (c : Reg) (ux : Nat) (l : Buf) : Outcome Buf :=
  match s with
  | .yuv444 => store (2 * n) (zipBoth n c c) ux l
  | _ => store n c ux l

/-- `2 * n` pixels: /repo/src/neon/yuy2_to_yuv.rs:51-112 and 115-177. -/
def unpack (n : Nat) (s : Sampling) (t : Yuy2) (yuy : Buf) (cx ux : Nat) (p : Buf × Buf × Buf) :
    Outcome (Buf × Buf × Buf) := do
  let a ← load (4 * n) yuy (cx * 2)
  let q := yuyPick t (deinterleave4 a)
  let y ← store (2 * n) (zipBoth n q.1 q.2.1) cx p.1
  let u ← putChroma n s q.2.2.1 ux p.2.1
  let v ← putChroma n s q.2.2.2 ux p.2.2
  return (y, u, v)

/-- Models `yuy2_to_yuv_neon_impl`, /repo/src/neon/yuy2_to_yuv.rs:34-186, called from
/repo/src/yuy2_to_yuv.rs:63-74. -/
def unpacker (s : Sampling) (t : Yuy2) (width : Nat) : YuyUnpacker := fun y u v yuy => do
  let r ← vwhile 32 (yuyStep s 32) width (fun cx ux p => unpack 16 s t yuy cx ux p) 0 0 (y, u, v)
  let r ← vwhile 16 (yuyStep s 16) width (fun cx ux p => unpack 8 s t yuy cx ux p) r.2.1 r.2.2 r.1
  return (r.1.1, r.1.2.1, r.1.2.2, r.2.1)

/-- Models `yuy2_to_yuv_impl`, /repo/src/yuy2_to_yuv.rs:41-322, on AArch64. -/
def yuy2ToYuvNeon (s : Sampling) (t : Yuy2) (i : Planar) (d : Packed) : Outcome (Buf × Buf × Buf) :=
  yuy2ToYuv x64 s t (unpacker s t i.width) i d

end Verif.Neon
