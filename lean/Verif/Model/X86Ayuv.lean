import Verif.Model.X86Alpha
import Verif.Model.X86Shuffle
import Verif.Model.Packed444
/-!
# The packed 4:4:4 decoders for x86: AVX2

/repo/src/avx2/ayuv_to_rgba.rs, with the choice made by `make_executor`
(/repo/src/ayuv_to_rgb.rs:194-220).  There is no SSE4.1 kernel: `default_executor_sse` (lines 178-192)
is the scalar loop.
-/
namespace Verif.X86

/-- Models `_mm256_load_deintl_ayuv`, /repo/src/avx2/ayuv_to_rgba.rs:59-75: 32 pixels at byte `p` as
alpha, luma, Cb and Cr.  The four loads and `_mm256_deinterleave_rgba_epi8` are those of
`avx2Load4 .rgba`. -/
def avx2LoadAyuv (f : Packed444) (l : Buf) (p : Nat) : Outcome (Reg × Reg × Reg × Reg) := do
  let v ← avx2Load4 .rgba l p
  match f with
  | .ayuv => return v
  | .vuya => return (v.2.2.2, v.2.2.1, v.2.1, v.1)

/-- Premultiplication in the tail, of the sums as they are.
/repo/src/avx2/ayuv_to_rgba.rs:239-256. -/
def avx2PremulRaw (a lo hi : Reg) : Reg := scaleAlpha avx2Div255 a lo hi

/-- 32 pixels, read at byte `p` and written at byte `q`.  The loop,
/repo/src/avx2/ayuv_to_rgba.rs:102-178, and the tail, lines 195-271, differ in `pre` only. -/
def avx2AyuvBody (pre : Reg → Reg → Reg → Reg) (pm : Bool) (f : Packed444) (ch : Channels)
    (rg : ChromaRange) (t : InvCoef) (src : Buf) (p q : Nat) (row : Buf) : Outcome Buf := do
  let v ← avx2LoadAyuv f src p
  let c := alphaRgb pre pm rg t (subsU8 v.2.1 (set1_8 rg.biasY)) v.2.2.1 v.2.2.2 v.1
  avx2Store ch q c.1 c.2.1 c.2.2 v.1 row

/-- The last pixels of a row, at most 32, through zeroed buffers on the stack:
/repo/src/avx2/ayuv_to_rgba.rs:180-278. -/
def avx2AyuvTail (cn width : Nat) (f : Buf → Buf → Outcome Buf) (src row : Buf) (cx : Nat) :
    Outcome Buf :=
  if cx < width then do
    let diff := width - cx
    if 32 < diff then .panic
    let sb ← copyIn src (cx * 4) (diff * 4) (List.replicate 128 0)
    let db ← f sb (List.replicate 128 0)
    copyOut db (diff * cn) row (cx * cn)
  else .ok row

/-- Models `avx2_ayuv_to_rgba_impl`, /repo/src/avx2/ayuv_to_rgba.rs:78-279. -/
def avx2AyuvRow (pm : Bool) (f : Packed444) (ch : Channels) (rg : ChromaRange) (t : InvCoef)
    (width : Nat) (src row : Buf) : Outcome Buf := do
  let r ← vwhile 32 0 width
    (fun cx _ row => avx2AyuvBody avx2Premul pm f ch rg t src (cx * 4) (cx * ch.count) row) 0 0 row
  avx2AyuvTail ch.count width (fun sb d => avx2AyuvBody avx2PremulRaw pm f ch rg t sb 0 0 d) src r.1
    r.2.1

/-- Models `make_executor`, /repo/src/ayuv_to_rgb.rs:194-220: the AVX2 executor takes the whole row,
the other two are the scalar loop of `Verif.ayuvToRgbx`. -/
def ayuvHandler (cpu : Cpu) (pm : Bool) (f : Packed444) (ch : Channels) (rg : ChromaRange)
    (t : InvCoef) (width : Nat) : MapHandler := fun rows row =>
  match cpu with
  | .avx2 => do
    let r ← avx2AyuvRow pm f ch rg t width (rows.getD 0 []) row
    return (r, width)
  | .sse41 => noMap rows row
  | .plain => noMap rows row

/-- `ayuv_to_rgb_launch` (`Verif.ayuvToRgbx`) on a processor. -/
def ayuvToRgbxOn (cpu : Cpu) (f : Packed444) (ch : Channels) (i : Packed) (dst : Buf) (stride : Nat)
    (rg : YuvRange) (m : Matrix) (pm : Bool) : Outcome Buf :=
  ayuvToRgbx x64 f ch
    (ayuvHandler cpu pm f ch (getYuvRange 8 rg) (searchInverse 13 8 rg m).castI16 i.width) i dst
    stride rg m pm

end Verif.X86
