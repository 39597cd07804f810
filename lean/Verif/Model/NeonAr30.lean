import Verif.Model.NeonNvP10
import Verif.Model.Ar30
/-!
# 64-bit ARM with NEON: P010 and P210 to 30-bit RGB

/repo/src/neon/yuv_nv_p10_to_ar30.rs and ar30_utils.rs, with the choice made by the `default` function of
/repo/src/yuv_nv_p10_to_ar30.rs:84-106, which is for a precision of 14 bits.  Eight pixels per step, then the rest
of the row through zeroed buffers for eight pixels.  Images of 10 bits only (the code also serves 12 bits); the
processor is little-endian.
-/
namespace Verif.Neon
open X86

/-- Red, green and blue words from luma and chroma words without their offsets:
/repo/src/neon/yuv_nv_p10_to_ar30.rs:62-85 (constants) and 105-153 (219-267), at 10 bits. -/
def ar30Words (t : InvCoef) (y u v : Reg) : Reg × Reg × Reg :=
  let l := fun o => mlalS o (set1_32 (2 ^ 14 - 1)) y t.y
  let out := fun f : Nat → Reg => minU16 (qshrunS 14 (f 0) (f 4)) (set1_16 (2 ^ 10 - 1))
  (out fun o => mlalS o (l o) v t.cr,
    out fun o => mlalS o (mlalS o (l o) v (-t.g1)) u (-t.g2),
    out fun o => mlalS o (mlalS o (l o) u (t.cb - 32767)) u 32767)

/-- One 32-bit lane of `vzipq_4_ar30`, /repo/src/neon/ar30_utils.rs:39-122: the constant 3 is in the lowest bits for
`Ar30` and `Ab30` and in the highest bits for `Ra30` and `Ba30`. -/
def zipAr30 (o : ByteOrder30) (l : Rgb30) (r g b : Nat) : Nat :=
  let v := (match l with
    | .ar30 => 3 ||| (b <<< 20) ||| (g <<< 10) ||| r
    | .ab30 => 3 ||| (r <<< 20) ||| (g <<< 10) ||| b
    | .ra30 => (3 <<< 30) ||| (b <<< 22) ||| (g <<< 12) ||| (r <<< 2)
    | .ba30 => (3 <<< 30) ||| (r <<< 22) ||| (g <<< 12) ||| (b <<< 2)) % 2 ^ 32
  match o with
  | .host => v
  | .network => toBe .little v

/-- Four lanes from lane `k`, stored by `vst1q_u32`. -/
def ar30Four (o : ByteOrder30) (l : Rgb30) (c : Reg × Reg × Reg) (k : Nat) : Buf :=
  (List.range 4).flatMap fun j =>
    neBytes .little (zipAr30 o l (w16 c.1 (k + j)) (w16 c.2.1 (k + j)) (w16 c.2.2 (k + j)))

/-- Eight pixels: /repo/src/neon/yuv_nv_p10_to_ar30.rs:90-164 and (through the stack buffers) 206-275. -/
def ar30Body (ob : ByteOrder30) (l : Rgb30) (o : NVOrder) (s : Sampling) (e : Endianness) (bp : BytesPacking)
    (rg : ChromaRange) (t : InvCoef) (y uv : Buf) (cx ux p : Nat) (row : Buf) : Outcome Buf := do
  let yv ← load16 8 y cx
  let c ← nvChroma8 s o e bp 10 uv ux
  let r := ar30Words t (subsU16 (nativeReg e bp 10 yv) (set1_16 rg.biasY))
    (sub16 c.1 (set1_16 rg.biasUv)) (sub16 c.2 (set1_16 rg.biasUv))
  let row ← put row p (ar30Four ob l r 0)
  put row (p + 4 * 4) (ar30Four ob l r 4)

/-- Models `neon_yuv_nv12_p10_to_ar30_row`, /repo/src/neon/yuv_nv_p10_to_ar30.rs:37-288; a pixel has four bytes, as
in `Channels.rgba`. -/
def ar30Row (ob : ByteOrder30) (l : Rgb30) (o : NVOrder) (s : Sampling) (e : Endianness) (bp : BytesPacking)
    (rg : ChromaRange) (t : InvCoef) (width : Nat) (y uv row : Buf) : Outcome (Buf × Nat × Nat) := do
  let r ← vwhile 8 (nvStep s 8) width
    (fun cx ux row => ar30Body ob l o s e bp rg t y uv cx ux (cx * 4) row) 0 0 row
  nvTailRow 8 s .rgba width (fun y uv d => ar30Body ob l o s e bp rg t y uv 0 0 0 d) y uv r.1 r.2.1 r.2.2

/-- Models `handle_row`, /repo/src/yuv_nv_p10_to_ar30.rs:109-149. -/
def ar30Handler (ob : ByteOrder30) (l : Rgb30) (o : NVOrder) (s : Sampling) (e : Endianness) (bp : BytesPacking)
    (rg : ChromaRange) (t : InvCoef) (width : Nat) : RowHandlerNV :=
  fun y uv row => done (ar30Row ob l o s e bp rg t width y uv row)

/-- `yuv_nv_p10_to_image_impl_d` (`Verif.nvP16ToAr30`) of 10-bit images on 64-bit ARM. -/
def nvP10ToAr30 (ob : ByteOrder30) (l : Rgb30) (o : NVOrder) (e : Endianness) (bp : BytesPacking)
    (s : Sampling) (i : BiPlanar) (rgba : Buf) (stride : Nat) (rg : YuvRange) (m : Matrix) : Outcome Buf :=
  Verif.nvP16ToAr30 x64 .little ob l o e bp 10 14 s
    (ar30Handler ob l o s e bp (getYuvRange 10 rg) (searchInverse 14 10 rg m) i.width) i rgba stride rg m

end Verif.Neon
