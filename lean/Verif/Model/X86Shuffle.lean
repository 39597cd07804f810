import Verif.Model.X86Rgb
import Verif.Model.X86Load
import Verif.Model.X86Decode
import Verif.Model.Shuffle
/-!
# The channel shuffles for x86: AVX2 and SSE4.1

/repo/src/avx2/shuffle.rs and /repo/src/sse/shuffle.rs, with the choice made by `make_converter`
(/repo/src/shuffle.rs:74-107).
-/
namespace Verif.X86

/-- Models `_mm256_load_deinterleave_rgb`, /repo/src/avx2/avx2_utils.rs:524-571: 32 pixels at byte
`p`, as red, green, blue and alpha. -/
def avx2Load4 (ch : Channels) (l : Buf) (p : Nat) : Outcome (Reg × Reg × Reg × Reg) := do
  let a ← load 32 l p
  let b ← load 32 l (p + 32)
  let c ← load 32 l (p + 64)
  match ch with
  | .rgb => let v := avx2DeRgb a b c; return (v.1, v.2.1, v.2.2, set1_8 255)
  | .bgr => let v := avx2DeRgb a b c; return (v.2.2, v.2.1, v.1, set1_8 255)
  | .rgba => do
    let d ← load 32 l (p + 96)
    return avx2DeRgba a b c d
  | .bgra => do
    let d ← load 32 l (p + 96)
    let v := avx2DeRgba a b c d
    return (v.2.2.1, v.2.1, v.1, v.2.2.2)

/-- Models `_mm_load_deinterleave_rgbx`, /repo/src/sse/utils.rs:420-466: 16 pixels. -/
def sseLoad4 (ch : Channels) (l : Buf) (p : Nat) : Outcome (Reg × Reg × Reg × Reg) := do
  let a ← load 16 l p
  let b ← load 16 l (p + 16)
  let c ← load 16 l (p + 32)
  match ch with
  | .rgb => let v := sseDeRgb a b c; return (v.1, v.2.1, v.2.2, set1_8 255)
  | .bgr => let v := sseDeRgb a b c; return (v.2.2, v.2.1, v.1, set1_8 255)
  | .rgba => do
    let d ← load 16 l (p + 48)
    return sseDeRgba a b c d
  | .bgra => do
    let d ← load 16 l (p + 48)
    let v := sseDeRgba a b c d
    return (v.2.2.1, v.2.1, v.1, v.2.2.2)

/-- Models `_mm_load_deinterleave_half_rgbx`, /repo/src/sse/utils.rs:513-557: 8 pixels. -/
def sseLoadHalf4 (ch : Channels) (l : Buf) (p : Nat) : Outcome (Reg × Reg × Reg × Reg) :=
  match ch with
  | .rgb => do
    let a ← load 16 l p
    let b ← load 8 l (p + 16)
    let v := sseDeRgb a b zero
    return (v.1, v.2.1, v.2.2, set1_8 255)
  | .bgr => do
    let a ← load 16 l p
    let b ← load 8 l (p + 16)
    let v := sseDeRgb a b zero
    return (v.2.2, v.2.1, v.1, set1_8 255)
  | .rgba => do
    let a ← load 16 l p
    let b ← load 16 l (p + 16)
    return sseDeRgba a b zero zero
  | .bgra => do
    let a ← load 16 l p
    let b ← load 16 l (p + 16)
    let v := sseDeRgba a b zero zero
    return (v.2.2.1, v.2.1, v.1, v.2.2.2)

/-- The turns of `chunkLoop`. -/
def chunkGo (m n : Nat) (f : Nat → Nat → Buf → Outcome Buf) : Nat → Nat → Nat → Buf → Outcome Buf
  | 0, _, _, row => .ok row
  | k + 1, p, q, row => do
    let row ← f p q row
    chunkGo m n f k (p + m) (q + n) row

/-- `for (src, dst) in src.chunks_exact(m).zip(dst.chunks_exact_mut(n)) { f }` on the parts of the
slices from bytes `p` and `q` on, then `chunks_exact(m).remainder()` and
`chunks_exact_mut(n).into_remainder()`: the row and where the remainders begin. -/
def chunkLoop (m n : Nat) (f : Nat → Nat → Buf → Outcome Buf) (srcLen : Nat) (r : Buf × Nat × Nat) :
    Outcome (Buf × Nat × Nat) := do
  let ks := (srcLen - r.2.1) / m
  let kd := (r.1.length - r.2.2) / n
  let row ← chunkGo m n f (min ks kd) r.2.1 r.2.2 r.1
  return (row, r.2.1 + ks * m, r.2.2 + kd * n)

/-- The remainders, through zeroed buffers of `n` bytes on the stack:
/repo/src/avx2/shuffle.rs:80-89 and 216-226, /repo/src/sse/shuffle.rs:97-106 and 222-232. -/
def chunkTail (n lim : Nat) (f : Buf → Buf → Outcome Buf) (src : Buf) (r : Buf × Nat × Nat) :
    Outcome Buf :=
  let sl := src.length - r.2.1
  let dl := r.1.length - r.2.2
  if sl ≠ 0 ∧ dl ≠ 0 then
    if lim ≤ sl then .panic
    else if lim ≤ dl then .panic
    else do
      let sb ← copyIn src r.2.1 sl (List.replicate n 0)
      let db ← f sb (List.replicate n 0)
      copyOut db dl r.1 r.2.2
  else .ok r.1

/-- 32 pixels, /repo/src/avx2/shuffle.rs:69-70 and 86-87. -/
def avx2Shuf (sc dc : Channels) (src : Buf) (p q : Nat) (row : Buf) : Outcome Buf := do
  let v ← avx2Load4 sc src p
  avx2Store dc q v.1 v.2.1 v.2.2.1 v.2.2.2 row

/-- Models `shuffle_channels8_avx_impl`, /repo/src/avx2/shuffle.rs:57-90. -/
def avx2ShufRow (sc dc : Channels) (src row : Buf) : Outcome Buf := do
  let r ← chunkLoop (32 * sc.count) (32 * dc.count) (avx2Shuf sc dc src) src.length (row, 0, 0)
  chunkTail 128 128 (fun sb db => avx2Shuf sc dc sb 0 0 db) src r

/-- 16 pixels, /repo/src/sse/shuffle.rs:71-72. -/
def sseShuf (sc dc : Channels) (src : Buf) (p q : Nat) (row : Buf) : Outcome Buf := do
  let v ← sseLoad4 sc src p
  sseStore dc q v.1 v.2.1 v.2.2.1 v.2.2.2 row

/-- 8 pixels, /repo/src/sse/shuffle.rs:86-87 and 103-104. -/
def sseShufHalf (sc dc : Channels) (src : Buf) (p q : Nat) (row : Buf) : Outcome Buf := do
  let v ← sseLoadHalf4 sc src p
  sseStoreHalf dc q v.1 v.2.1 v.2.2.1 v.2.2.2 row

/-- Models `shuffle_channels8_impl`, /repo/src/sse/shuffle.rs:60-107. -/
def sseShufRow (sc dc : Channels) (src row : Buf) : Outcome Buf := do
  let r ← chunkLoop (16 * sc.count) (16 * dc.count) (sseShuf sc dc src) src.length (row, 0, 0)
  let r ← chunkLoop (8 * sc.count) (8 * dc.count) (sseShufHalf sc dc src) src.length r
  chunkTail 64 64 (fun sb db => sseShufHalf sc dc sb 0 0 db) src r

/-- Models `RGBA_TO_BGRA_TABLE`, /repo/src/sse/shuffle.rs:116-133, and its 256-bit version,
/repo/src/avx2/shuffle.rs:99-132, which holds it twice. -/
def swapTable : List Nat := [2, 1, 0, 3, 6, 5, 4, 7, 10, 9, 8, 11, 14, 13, 12, 15]

/-- Models `create` of `ShuffleQTableConverterAvx2` and `ShuffleQTableConverterSse`,
/repo/src/avx2/shuffle.rs:135-160, /repo/src/sse/shuffle.rs:136-159: the same table for every pair of
layouts with four channels. -/
def qTable (sc dc : Channels) : List Nat :=
  match sc, dc with
  | .rgba, .rgba => swapTable
  | .rgba, .bgra => swapTable
  | .bgra, .rgba => swapTable
  | .bgra, .bgra => swapTable
  | _, _ => []

/-- `n` bytes through the table: load, `_mm_shuffle_epi8`, store (/repo/src/avx2/shuffle.rs:205-211,
222-224, /repo/src/sse/shuffle.rs:204-208, 213-217 and 228-230). -/
def qStep (n : Nat) (tb : List Nat) (src : Buf) (p q : Nat) (row : Buf) : Outcome Buf := do
  let a ← load n src p
  store n (shuffle8 a (setr8 (tb ++ tb))) q row

/-- Four registers of `n` bytes, /repo/src/avx2/shuffle.rs:185-200 and
/repo/src/sse/shuffle.rs:184-199. -/
def qStep4 (n : Nat) (tb : List Nat) (src : Buf) (p q : Nat) (row : Buf) : Outcome Buf := do
  let a ← load n src p
  let b ← load n src (p + n)
  let c ← load n src (p + 2 * n)
  let d ← load n src (p + 3 * n)
  let t := setr8 (tb ++ tb)
  let row ← store n (shuffle8 a t) q row
  let row ← store n (shuffle8 b t) (q + n) row
  let row ← store n (shuffle8 c t) (q + 2 * n) row
  store n (shuffle8 d t) (q + 3 * n) row

/-- Models `shuffle_qtable_channels8_avx_impl`, /repo/src/avx2/shuffle.rs:172-227. -/
def avx2QRow (sc dc : Channels) (src row : Buf) : Outcome Buf := do
  let r ← chunkLoop 128 128 (qStep4 32 (qTable sc dc) src) src.length (row, 0, 0)
  let r ← chunkLoop 32 32 (qStep 32 (qTable sc dc) src) src.length r
  chunkTail 32 32 (fun sb db => qStep 32 (qTable sc dc) sb 0 0 db) src r

/-- Models `shuffle_qtable_channels8_impl`, /repo/src/sse/shuffle.rs:171-233. -/
def sseQRow (sc dc : Channels) (src row : Buf) : Outcome Buf := do
  let r ← chunkLoop 64 64 (qStep4 16 (qTable sc dc) src) src.length (row, 0, 0)
  let r ← chunkLoop 16 16 (qStep 16 (qTable sc dc) src) src.length r
  let r ← chunkLoop 8 8 (qStep 8 (qTable sc dc) src) src.length r
  chunkTail 16 16 (fun sb db => qStep 8 (qTable sc dc) sb 0 0 db) src r

/-- Models `make_converter`, /repo/src/shuffle.rs:76-107; the converters finish the row. -/
def shuffleHandler (cpu : Cpu) (sc dc : Channels) (width : Nat) : MapHandler := fun rows row =>
  match cpu with
  | .avx2 => do
    let r ← if sc.count = 4 ∧ dc.count = 4 then avx2QRow sc dc (rows.getD 0 []) row
      else avx2ShufRow sc dc (rows.getD 0 []) row
    return (r, width)
  | .sse41 => do
    let r ← if sc.count = 4 ∧ dc.count = 4 then sseQRow sc dc (rows.getD 0 []) row
      else sseShufRow sc dc (rows.getD 0 []) row
    return (r, width)
  | .plain => noMap rows row

end Verif.X86
