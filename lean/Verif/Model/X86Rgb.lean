import Verif.Model.X86
import Verif.Model.Support
/-!
# Interleaving stores of the x86 kernels

/repo/src/sse/utils.rs and /repo/src/avx2/avx2_utils.rs.
-/
namespace Verif.X86

/-- Models `sse_interleave_rgba`, /repo/src/sse/utils.rs:43-59. -/
def sseInterleaveRgba (r g b a : Reg) : Reg × Reg × Reg × Reg :=
  let rgLo := unpacklo 1 r g
  let rgHi := unpackhi 1 r g
  let baLo := unpacklo 1 b a
  let baHi := unpackhi 1 b a
  (unpacklo 2 rgLo baLo, unpackhi 2 rgLo baLo, unpacklo 2 rgHi baHi, unpackhi 2 rgHi baHi)

/-- Models `sse_interleave_rgb`, /repo/src/sse/utils.rs:150-168. -/
def sseInterleaveRgb (r g b : Reg) : Reg × Reg × Reg :=
  let shA := setr8 [0, 11, 6, 1, 12, 7, 2, 13, 8, 3, 14, 9, 4, 15, 10, 5]
  let shB := setr8 [5, 0, 11, 6, 1, 12, 7, 2, 13, 8, 3, 14, 9, 4, 15, 10]
  let shC := setr8 [10, 5, 0, 11, 6, 1, 12, 7, 2, 13, 8, 3, 14, 9, 4, 15]
  let a0 := shuffle8 r shA
  let b0 := shuffle8 g shB
  let c0 := shuffle8 b shC
  let m0 := setr8 [0, 0, 255, 0, 0, 255, 0, 0, 255, 0, 0, 255, 0, 0, 255, 0]
  let m1 := setr8 [0, 255, 0, 0, 255, 0, 0, 255, 0, 0, 255, 0, 0, 255, 0, 0]
  (blendv (blendv a0 b0 m1) c0 m0, blendv (blendv b0 c0 m1) a0 m0,
    blendv (blendv c0 a0 m1) b0 m0)

/-- Models `sse_store_rgba`, /repo/src/sse/utils.rs:62-68. -/
def sseStoreRgba (p : Nat) (r g b a : Reg) (row : Buf) : Outcome Buf := do
  let v := sseInterleaveRgba r g b a
  let row ← store 16 v.1 p row
  let row ← store 16 v.2.1 (p + 16) row
  let row ← store 16 v.2.2.1 (p + 32) row
  store 16 v.2.2.2 (p + 48) row

/-- Models `sse_store_rgb_u8`, /repo/src/sse/utils.rs:199-204. -/
def sseStoreRgb (p : Nat) (r g b : Reg) (row : Buf) : Outcome Buf := do
  let v := sseInterleaveRgb r g b
  let row ← store 16 v.1 p row
  let row ← store 16 v.2.1 (p + 16) row
  store 16 v.2.2 (p + 32) row

/-- Models `_mm_store_interleave_rgb_for_yuv`, /repo/src/sse/utils.rs:645-668. -/
def sseStore (ch : Channels) (p : Nat) (r g b a : Reg) (row : Buf) : Outcome Buf :=
  match ch with
  | .rgb => sseStoreRgb p r g b row
  | .bgr => sseStoreRgb p b g r row
  | .rgba => sseStoreRgba p r g b a row
  | .bgra => sseStoreRgba p b g r a row

/-- Models `_mm_store_interleave_half_rgb_for_yuv`, /repo/src/sse/utils.rs:671-702. -/
def sseStoreHalf (ch : Channels) (p : Nat) (r g b a : Reg) (row : Buf) : Outcome Buf :=
  match ch with
  | .rgb => do
    let v := sseInterleaveRgb r g b
    let row ← store 16 v.1 p row
    store 8 v.2.1 (p + 16) row
  | .bgr => do
    let v := sseInterleaveRgb b g r
    let row ← store 16 v.1 p row
    store 8 v.2.1 (p + 16) row
  | .rgba => do
    let v := sseInterleaveRgba r g b a
    let row ← store 16 v.1 p row
    store 16 v.2.1 (p + 16) row
  | .bgra => do
    let v := sseInterleaveRgba b g r a
    let row ← store 16 v.1 p row
    store 16 v.2.1 (p + 16) row

/-- Models `_mm256_interleave_rgba`, /repo/src/avx2/avx2_utils.rs:136-157. -/
def avx2InterleaveRgba (r g b a : Reg) : Reg × Reg × Reg × Reg :=
  let bg0 := unpacklo 1 r g
  let bg1 := unpackhi 1 r g
  let ra0 := unpacklo 1 b a
  let ra1 := unpackhi 1 b a
  let rgba0 := unpacklo 2 bg0 ra0
  let rgba1 := unpackhi 2 bg0 ra0
  let rgba2 := unpacklo 2 bg1 ra1
  let rgba3 := unpackhi 2 bg1 ra1
  (permute2x128 32 rgba0 rgba1, permute2x128 32 rgba2 rgba3,
    permute2x128 49 rgba0 rgba1, permute2x128 49 rgba2 rgba3)

/-- Models `avx2_interleave_rgb`, /repo/src/avx2/avx2_utils.rs:217-257. -/
def avx2InterleaveRgb (r g b : Reg) : Reg × Reg × Reg :=
  let shB := setr8 [0, 11, 6, 1, 12, 7, 2, 13, 8, 3, 14, 9, 4, 15, 10, 5,
    0, 11, 6, 1, 12, 7, 2, 13, 8, 3, 14, 9, 4, 15, 10, 5]
  let shG := setr8 [5, 0, 11, 6, 1, 12, 7, 2, 13, 8, 3, 14, 9, 4, 15, 10,
    5, 0, 11, 6, 1, 12, 7, 2, 13, 8, 3, 14, 9, 4, 15, 10]
  let shR := setr8 [10, 5, 0, 11, 6, 1, 12, 7, 2, 13, 8, 3, 14, 9, 4, 15,
    10, 5, 0, 11, 6, 1, 12, 7, 2, 13, 8, 3, 14, 9, 4, 15]
  let b0 := shuffle8 r shB
  let g0 := shuffle8 g shG
  let r0 := shuffle8 b shR
  let m0 := setr8 [0, 255, 0, 0, 255, 0, 0, 255, 0, 0, 255, 0, 0, 255, 0, 0,
    0, 255, 0, 0, 255, 0, 0, 255, 0, 0, 255, 0, 0, 255, 0, 0]
  let m1 := setr8 [0, 0, 255, 0, 0, 255, 0, 0, 255, 0, 0, 255, 0, 0, 255, 0,
    0, 0, 255, 0, 0, 255, 0, 0, 255, 0, 0, 255, 0, 0, 255, 0]
  let p0 := blendv (blendv b0 g0 m0) r0 m1
  let p1 := blendv (blendv g0 r0 m0) b0 m1
  let p2 := blendv (blendv r0 b0 m0) g0 m1
  (permute2x128 32 p0 p1, permute2x128 48 p2 p0, permute2x128 49 p1 p2)

/-- Models `avx2_store_u8_rgb`, /repo/src/avx2/avx2_utils.rs:127-133. -/
def avx2StoreRgb (p : Nat) (r g b : Reg) (row : Buf) : Outcome Buf := do
  let v := avx2InterleaveRgb r g b
  let row ← store 32 v.1 p row
  let row ← store 32 v.2.1 (p + 32) row
  store 32 v.2.2 (p + 64) row

/-- Models `_mm256_store_interleaved_epi8`, /repo/src/avx2/avx2_utils.rs:160-186. -/
def avx2StoreRgba (p : Nat) (r g b a : Reg) (row : Buf) : Outcome Buf := do
  let v := avx2InterleaveRgba r g b a
  let row ← store 32 v.1 p row
  let row ← store 32 v.2.1 (p + 32) row
  let row ← store 32 v.2.2.1 (p + 64) row
  store 32 v.2.2.2 (p + 96) row

/-- Models `_mm256_store_interleave_rgb_for_yuv`, /repo/src/avx2/avx2_utils.rs:704-727. -/
def avx2Store (ch : Channels) (p : Nat) (r g b a : Reg) (row : Buf) : Outcome Buf :=
  match ch with
  | .rgb => avx2StoreRgb p r g b row
  | .bgr => avx2StoreRgb p b g r row
  | .rgba => avx2StoreRgba p r g b a row
  | .bgra => avx2StoreRgba p b g r a row

/-- Models `_mm256_store_interleave_rgb_half_for_yuv`, /repo/src/avx2/avx2_utils.rs:664-701. -/
def avx2StoreHalf (ch : Channels) (p : Nat) (r g b a : Reg) (row : Buf) : Outcome Buf :=
  match ch with
  | .rgb => do
    let v := avx2InterleaveRgb r g b
    let row ← store 32 v.1 p row
    store 16 v.2.1 (p + 32) row
  | .bgr => do
    let v := avx2InterleaveRgb b g r
    let row ← store 32 v.1 p row
    store 16 v.2.1 (p + 32) row
  | .rgba => do
    let v := avx2InterleaveRgba r g b a
    let row ← store 32 v.1 p row
    store 32 v.2.1 (p + 32) row
  | .bgra => do
    let v := avx2InterleaveRgba b g r a
    let row ← store 32 v.1 p row
    store 32 v.2.1 (p + 32) row

end Verif.X86
