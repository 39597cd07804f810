import Verif.Model.Core
/-!
# x86 vector registers and the intrinsics the kernels use

A register is the function from byte index to byte.  The same definitions serve
`__m128i` (bytes 0–15) and `__m256i` (bytes 0–31): the intrinsics that do not
cross 128-bit lanes act on byte `i` inside the lane that starts at `i / 16 * 16`.
Bytes beyond the width of the register carry no meaning.  The semantics is that
of the Intel intrinsics guide; intrinsics have no source in /repo, so the
comments name the intrinsic.  Loads and stores through pointers are bounds
checked here: an access outside the slice the pointer was made from is
`Outcome.panic` (in the code it would be undefined behaviour), so a theorem that
a kernel ends in `ok` says that all its accesses are in bounds.
-/
namespace Verif.X86

/-- A vector register: byte `i`. -/
abbrev Reg := Nat → Nat

/-! ## Elements -/

/-- 16-bit element `k`, unsigned. -/
def w16 (r : Reg) (k : Nat) : Nat := r (2 * k) + 256 * r (2 * k + 1)
/-- 16-bit element `k`, signed. -/
def s16 (r : Reg) (k : Nat) : Int := asI16 (w16 r k)
/-- The register whose 16-bit elements are `f k`, wrapped. -/
def mk16 (f : Nat → Int) : Reg := fun i =>
  if i % 2 = 0 then asU16 (f (i / 2)) % 256 else asU16 (f (i / 2)) / 256
/-- Conversion to `u32`. -/
def asU32 (x : Int) : Nat := (x % 4294967296).toNat
/-- Conversion to `i32`. -/
def asI32 (x : Int) : Int := (x + 2147483648) % 4294967296 - 2147483648
/-- 32-bit element `k`, unsigned. -/
def w32 (r : Reg) (k : Nat) : Nat := w16 r (2 * k) + 65536 * w16 r (2 * k + 1)
/-- 32-bit element `k`, signed. -/
def s32 (r : Reg) (k : Nat) : Int := asI32 (w32 r k)
/-- The register whose 32-bit elements are `f k`, wrapped. -/
def mk32 (f : Nat → Int) : Reg := fun i => asU32 (f (i / 4)) / 256 ^ (i % 4) % 256
/-- Saturation to `u8`. -/
def satU8 (x : Int) : Nat := (max 0 (min x 255)).toNat
/-- Saturation to `u16`. -/
def satU16 (x : Int) : Nat := (max 0 (min x 65535)).toNat
/-- Saturation to `i16`. -/
def satI16 (x : Int) : Int := max (-32768) (min x 32767)
/-- Conversion to `i8`. -/
def asI8 (x : Int) : Int := (x + 128) % 256 - 128

/-! ## Constants -/

/-- `_mm_setzero_si128`, `_mm256_setzero_si256`. -/
def zero : Reg := fun _ => 0
/-- `_mm_set1_epi8`, `_mm256_set1_epi8`. -/
def set1_8 (x : Int) : Reg := fun _ => asU8 x
/-- `_mm_set1_epi16`, `_mm256_set1_epi16`. -/
def set1_16 (x : Int) : Reg := mk16 fun _ => x
/-- `_mm_set1_epi32`, `_mm256_set1_epi32`. -/
def set1_32 (x : Int) : Reg := mk32 fun _ => x
/-- `_mm_setr_epi8`, `_mm256_setr_epi8` (-1 is written 255). -/
def setr8 (l : List Nat) : Reg := fun i => l.getD i 0

/-! ## Arithmetic -/

/-- `_mm_subs_epu8`: unsigned saturating. -/
def subsU8 (a b : Reg) : Reg := fun i => a i - b i
/-- `_mm_subs_epi8`: signed saturating. -/
def subsI8 (a b : Reg) : Reg := fun i => asU8 (max (-128) (min (asI8 (a i) - asI8 (b i)) 127))
/-- `_mm_avg_epu8`: mean rounded up. -/
def avg8 (a b : Reg) : Reg := fun i => (a i + b i + 1) / 2
/-- `_mm_add_epi16`. -/
def add16 (a b : Reg) : Reg := mk16 fun k => s16 a k + s16 b k
/-- `_mm_sub_epi16`. -/
def sub16 (a b : Reg) : Reg := mk16 fun k => s16 a k - s16 b k
/-- `_mm_mulhrs_epi16`: `((a*b >> 14) + 1) >> 1`. -/
def mulhrs16 (a b : Reg) : Reg := mk16 fun k => (s16 a k * s16 b k / 16384 + 1) / 2
/-- `_mm_mullo_epi16`. -/
def mullo16 (a b : Reg) : Reg := mk16 fun k => s16 a k * s16 b k
/-- `_mm_max_epi16`. -/
def max16 (a b : Reg) : Reg := mk16 fun k => max (s16 a k) (s16 b k)
/-- `_mm_srli_epi16::<n>`. -/
def srli16 (n : Nat) (a : Reg) : Reg := mk16 fun k => ((w16 a k / 2 ^ n : Nat) : Int)
/-- `_mm_slli_epi16::<n>`. -/
def slli16 (n : Nat) (a : Reg) : Reg := mk16 fun k => ((w16 a k * 2 ^ n : Nat) : Int)
/-- `_mm_srai_epi16::<n>`. -/
def srai16 (n : Nat) (a : Reg) : Reg := mk16 fun k => s16 a k / 2 ^ n
/-- `_mm_add_epi32`. -/
def add32v (a b : Reg) : Reg := mk32 fun k => s32 a k + s32 b k
/-- `_mm_sub_epi32`. -/
def sub32v (a b : Reg) : Reg := mk32 fun k => s32 a k - s32 b k
/-- `_mm_srli_epi32::<n>`. -/
def srli32 (n : Nat) (a : Reg) : Reg := mk32 fun k => ((w32 a k / 2 ^ n : Nat) : Int)
/-- `_mm_srai_epi32::<n>`. -/
def srai32 (n : Nat) (a : Reg) : Reg := mk32 fun k => s32 a k / 2 ^ n
/-- `_mm_madd_epi16`: products of the 16-bit elements, pairwise sums. -/
def madd16 (a b : Reg) : Reg := mk32 fun k =>
  s16 a (2 * k) * s16 b (2 * k) + s16 a (2 * k + 1) * s16 b (2 * k + 1)
/-- `_mm_maddubs_epi16`: unsigned bytes of `a` times signed bytes of `b`, saturating pair sums. -/
def maddubs (a b : Reg) : Reg := mk16 fun k =>
  satI16 (a (2 * k) * asI8 (b (2 * k)) + a (2 * k + 1) * asI8 (b (2 * k + 1)))

/-! ## Packing and moving -/

/-- `_mm_packus_epi16`: per lane, eight elements of `a` then eight of `b`, saturated to `u8`. -/
def packus16 (a b : Reg) : Reg := fun i =>
  satU8 (s16 (if i % 16 < 8 then a else b) (i / 16 * 8 + i % 8))
/-- `_mm_packus_epi32`. -/
def packus32 (a b : Reg) : Reg := mk16 fun k =>
  satU16 (s32 (if k % 8 < 4 then a else b) (k / 8 * 4 + k % 4))
/-- `_mm_packs_epi32`. -/
def packs32 (a b : Reg) : Reg := mk16 fun k =>
  satI16 (s32 (if k % 8 < 4 then a else b) (k / 8 * 4 + k % 4))
/-- `_mm_unpacklo_epi{8,16,32,64}` with elements of `e` = 1, 2, 4, 8 bytes. -/
def unpacklo (e : Nat) (a b : Reg) : Reg := fun i =>
  (if i % 16 / e % 2 = 0 then a else b) (i / 16 * 16 + i % 16 / (2 * e) * e + i % e)
/-- `_mm_unpackhi_epi{8,16,32,64}` with elements of `e` = 1, 2, 4, 8 bytes. -/
def unpackhi (e : Nat) (a b : Reg) : Reg := fun i =>
  (if i % 16 / e % 2 = 0 then a else b) (i / 16 * 16 + 8 + i % 16 / (2 * e) * e + i % e)
/-- `_mm_shuffle_epi8`. -/
def shuffle8 (a m : Reg) : Reg := fun i => if 128 ≤ m i then 0 else a (i / 16 * 16 + m i % 16)
/-- `_mm_blendv_epi8`. -/
def blendv (a b m : Reg) : Reg := fun i => if 128 ≤ m i then b i else a i
/-- `_mm_alignr_epi8::<n>`. -/
def alignr (n : Nat) (a b : Reg) : Reg := fun i =>
  if i % 16 + n < 16 then b (i / 16 * 16 + i % 16 + n)
  else if i % 16 + n < 32 then a (i / 16 * 16 + i % 16 + n - 16) else 0
/-- `_mm256_permute2x128_si256::<imm>`. -/
def permute2x128 (imm : Nat) (a b : Reg) : Reg := fun i =>
  if imm / 16 ^ (i / 16) / 8 % 2 = 1 then 0
  else (if imm / 16 ^ (i / 16) % 4 < 2 then a else b) (imm / 16 ^ (i / 16) % 2 * 16 + i % 16)
/-- `_mm256_permute4x64_epi64::<imm>`. -/
def permute4x64 (imm : Nat) (a : Reg) : Reg := fun i => a (imm / 4 ^ (i / 8) % 4 * 8 + i % 8)
/-- `_mm256_inserti128_si256::<1>(_mm256_castsi128_si256(a), b)`. -/
def insertHi (a b : Reg) : Reg := fun i => if i < 16 then a i else b (i - 16)

/-! ## Memory -/

/-- A load of `n` bytes at offset `p` of a `u8` slice; the bytes above are zero
(`_mm_loadu_si128`, `_mm256_loadu_si256`, `_mm_loadl_epi64`, `_mm_loadu_si32`). -/
def load (n : Nat) (l : Buf) (p : Nat) : Outcome Reg :=
  if p + n ≤ l.length then .ok (fun i => if i < n then l.getD (p + i) 0 else 0)
  else .panic
/-- The first `n` bytes of a register. -/
def bytes (n : Nat) (r : Reg) : Buf := (List.range n).map r
/-- `l` with `b` written at offset `p`. -/
def splice (l : Buf) (p : Nat) (b : Buf) : Buf := l.take p ++ b ++ l.drop (p + b.length)
/-- A store of `b` at offset `p` of a slice. -/
def put (l : Buf) (p : Nat) (b : Buf) : Outcome Buf :=
  if p + b.length ≤ l.length then .ok (splice l p b) else .panic
/-- A store of the first `n` bytes of `r` at offset `p` of a `u8` slice
(`_mm_storeu_si128`, `_mm256_storeu_si256`, `_mm_storeu_si64`). -/
def store (n : Nat) (r : Reg) (p : Nat) (l : Buf) : Outcome Buf := put l p (bytes n r)
/-- `std::ptr::copy_nonoverlapping(src[p..], dst, n)`: the first `n` elements of `dst` replaced. -/
def copyIn (src : Buf) (p n : Nat) (dst : Buf) : Outcome Buf :=
  if p + n ≤ src.length then put dst 0 ((src.drop p).take n) else .panic
/-- `std::ptr::copy_nonoverlapping(src, dst[p..], n)`. -/
def copyOut (src : Buf) (n : Nat) (dst : Buf) (p : Nat) : Outcome Buf :=
  if n ≤ src.length then put dst p (src.take n) else .panic

/-! ## Loops -/

/-- `while cx + step < width { body; cx += step; uv_x += ustep }`, at most `fuel` times. -/
def whileGo {σ : Type} (step ustep width : Nat) (body : Nat → Nat → σ → Outcome σ) :
    Nat → Nat → Nat → σ → Outcome (σ × Nat × Nat)
  | 0, cx, ux, s => .ok (s, cx, ux)
  | fuel + 1, cx, ux, s =>
    if cx + step < width then do
      let s ← body cx ux s
      whileGo step ustep width body fuel (cx + step) (ux + ustep) s
    else .ok (s, cx, ux)
/-- `while cx + step < width { body; cx += step; uv_x += ustep }`; with `step > 0` there are
fewer than `width` turns. -/
def vwhile {σ : Type} (step ustep width : Nat) (body : Nat → Nat → σ → Outcome σ)
    (cx ux : Nat) (s : σ) : Outcome (σ × Nat × Nat) :=
  whileGo step ustep width body width cx ux s

end Verif.X86
