import Verif.Model.X86
import Verif.Model.Support
/-!
# Deinterleaving loads of the x86 kernels

/repo/src/sse/utils.rs and /repo/src/avx2/avx2_utils.rs: RGB(A) bytes to one register per channel.
-/
namespace Verif.X86

/-- Models `avx2_deinterleave_rgb`, /repo/src/avx2/avx2_utils.rs:260-329. -/
def avx2DeRgb (a b c : Reg) : Reg × Reg × Reg :=
  let low := permute2x128 32 a c
  let high := permute2x128 49 a c
  let m0 := setr8 [0, 0, 255, 0, 0, 255, 0, 0, 255, 0, 0, 255, 0, 0, 255, 0,
    0, 255, 0, 0, 255, 0, 0, 255, 0, 0, 255, 0, 0, 255, 0, 0]
  let m1 := setr8 [0, 255, 0, 0, 255, 0, 0, 255, 0, 0, 255, 0, 0, 255, 0, 0,
    255, 0, 0, 255, 0, 0, 255, 0, 0, 255, 0, 0, 255, 0, 0, 255]
  let shB := setr8 [0, 3, 6, 9, 12, 15, 2, 5, 8, 11, 14, 1, 4, 7, 10, 13,
    0, 3, 6, 9, 12, 15, 2, 5, 8, 11, 14, 1, 4, 7, 10, 13]
  let shG := setr8 [1, 4, 7, 10, 13, 0, 3, 6, 9, 12, 15, 2, 5, 8, 11, 14,
    1, 4, 7, 10, 13, 0, 3, 6, 9, 12, 15, 2, 5, 8, 11, 14]
  let shR := setr8 [2, 5, 8, 11, 14, 1, 4, 7, 10, 13, 0, 3, 6, 9, 12, 15,
    2, 5, 8, 11, 14, 1, 4, 7, 10, 13, 0, 3, 6, 9, 12, 15]
  (shuffle8 (blendv (blendv low high m0) b m1) shB, shuffle8 (blendv (blendv high low m1) b m0) shG,
    shuffle8 (blendv (blendv b low m0) high m1) shR)

/-- Models `_mm256_deinterleave_rgba_epi8`, /repo/src/avx2/avx2_utils.rs:86-124. -/
def avx2DeRgba (a b c d : Reg) : Reg × Reg × Reg × Reg :=
  let sh := setr8 [0, 4, 8, 12, 1, 5, 9, 13, 2, 6, 10, 14, 3, 7, 11, 15,
    0, 4, 8, 12, 1, 5, 9, 13, 2, 6, 10, 14, 3, 7, 11, 15]
  let p0 := shuffle8 a sh
  let p1 := shuffle8 b sh
  let p2 := shuffle8 c sh
  let p3 := shuffle8 d sh
  let p01l := unpacklo 4 p0 p1
  let p01h := unpackhi 4 p0 p1
  let p23l := unpacklo 4 p2 p3
  let p23h := unpackhi 4 p2 p3
  let pll := permute2x128 32 p01l p23l
  let plh := permute2x128 49 p01l p23l
  let phl := permute2x128 32 p01h p23h
  let phh := permute2x128 49 p01h p23h
  (unpacklo 4 pll plh, unpackhi 4 pll plh, unpacklo 4 phl phh, unpackhi 4 phl phh)

/-- Models `_mm256_load_deinterleave_rgb_for_yuv`, /repo/src/avx2/avx2_utils.rs:477-522: 32 pixels
at byte `p`, as red, green and blue. -/
def avx2Load (ch : Channels) (l : Buf) (p : Nat) : Outcome (Reg × Reg × Reg) := do
  let a ← load 32 l p
  let b ← load 32 l (p + 32)
  let c ← load 32 l (p + 64)
  match ch with
  | .rgb => let v := avx2DeRgb a b c; return (v.1, v.2.1, v.2.2)
  | .bgr => let v := avx2DeRgb a b c; return (v.2.2, v.2.1, v.1)
  | .rgba => do
    let d ← load 32 l (p + 96)
    let v := avx2DeRgba a b c d
    return (v.1, v.2.1, v.2.2.1)
  | .bgra => do
    let d ← load 32 l (p + 96)
    let v := avx2DeRgba a b c d
    return (v.2.2.1, v.2.1, v.1)

/-- Models `sse_deinterleave_rgb`, /repo/src/sse/utils.rs:108-147. -/
def sseDeRgb (rgb0 rgb1 rgb2 : Reg) : Reg × Reg × Reg :=
  let idx := setr8 [0, 3, 6, 9, 12, 15, 2, 5, 8, 11, 14, 1, 4, 7, 10, 13]
  let a := shuffle8 rgb0 idx
  let b := shuffle8 rgb1 idx
  let c := shuffle8 rgb2 idx
  let m010 := setr8 [0, 0, 0, 0, 0, 0, 255, 255, 255, 255, 255, 0, 0, 0, 0, 0]
  let m001 := setr8 [0, 0, 0, 0, 0, 0, 0, 0, 0, 0, 0, 255, 255, 255, 255, 255]
  let b2b0b1 := blendv (blendv c b m001) a m010
  let r0r1r2 := blendv (blendv a b m010) c m001
  let g1g2g0 := blendv (blendv b a m001) c m010
  (r0r1r2, alignr 11 g1g2g0 g1g2g0, alignr 6 b2b0b1 b2b0b1)

/-- Models `sse_deinterleave_rgba`, /repo/src/sse/utils.rs:71-105. -/
def sseDeRgba (a b c d : Reg) : Reg × Reg × Reg × Reg :=
  let t0 := unpacklo 1 a b
  let t1 := unpackhi 1 a b
  let t2 := unpacklo 1 c d
  let t3 := unpackhi 1 c d
  let t4 := unpacklo 2 t0 t2
  let t5 := unpackhi 2 t0 t2
  let t6 := unpacklo 2 t1 t3
  let t7 := unpackhi 2 t1 t3
  let l1 := unpacklo 4 t4 t6
  let l2 := unpackhi 4 t4 t6
  let l3 := unpacklo 4 t5 t7
  let l4 := unpackhi 4 t5 t7
  let sh := setr8 [0, 4, 8, 12, 1, 5, 9, 13, 2, 6, 10, 14, 3, 7, 11, 15]
  (shuffle8 (unpacklo 4 l1 l3) sh, shuffle8 (unpackhi 4 l1 l3) sh,
    shuffle8 (unpacklo 4 l2 l4) sh, shuffle8 (unpackhi 4 l2 l4) sh)

/-- Models `_mm_load_deinterleave_rgb_for_yuv`, /repo/src/sse/utils.rs:374-417: 16 pixels at byte
`p`. -/
def sseLoad (ch : Channels) (l : Buf) (p : Nat) : Outcome (Reg × Reg × Reg) := do
  let a ← load 16 l p
  let b ← load 16 l (p + 16)
  let c ← load 16 l (p + 32)
  match ch with
  | .rgb => let v := sseDeRgb a b c; return (v.1, v.2.1, v.2.2)
  | .bgr => let v := sseDeRgb a b c; return (v.2.2, v.2.1, v.1)
  | .rgba => do
    let d ← load 16 l (p + 48)
    let v := sseDeRgba a b c d
    return (v.1, v.2.1, v.2.2.1)
  | .bgra => do
    let d ← load 16 l (p + 48)
    let v := sseDeRgba a b c d
    return (v.2.2.1, v.2.1, v.1)

/-- Models `_mm_load_deinterleave_half_rgb_for_yuv`, /repo/src/sse/utils.rs:469-510: 8 pixels at
byte `p`. -/
def sseLoadHalf (ch : Channels) (l : Buf) (p : Nat) : Outcome (Reg × Reg × Reg) :=
  match ch with
  | .rgb => do
    let a ← load 16 l p
    let b ← load 8 l (p + 16)
    let v := sseDeRgb a b zero
    return (v.1, v.2.1, v.2.2)
  | .bgr => do
    let a ← load 16 l p
    let b ← load 8 l (p + 16)
    let v := sseDeRgb a b zero
    return (v.2.2, v.2.1, v.1)
  | .rgba => do
    let a ← load 16 l p
    let b ← load 16 l (p + 16)
    let v := sseDeRgba a b zero zero
    return (v.1, v.2.1, v.2.2.1)
  | .bgra => do
    let a ← load 16 l p
    let b ← load 16 l (p + 16)
    let v := sseDeRgba a b zero zero
    return (v.2.2.1, v.2.1, v.1)

end Verif.X86
