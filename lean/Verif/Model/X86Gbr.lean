import Verif.Model.X86Gray
import Verif.Model.Identity
/-!
# The 8-bit GBR decoders for x86: AVX2 and SSE4.1

/repo/src/avx2/gbr_to_rgb.rs and /repo/src/sse/gbr_to_rgb.rs, with the choice made by
`WideRowGbrProcessor` and `WideRowGbrLimitedProcessor` (/repo/src/from_identity.rs:64-167).
-/
namespace Verif.X86

/-- What becomes of the bytes of a plane in limited range: the saturating `_mm256_subs_epu8`, then
`_mm256_expand8_unordered_to_10`, `_mm256_mulhrs_epi16` and `_mm256_packus_epi16`,
/repo/src/avx2/gbr_to_rgb.rs:182-202, 247-267; with 128-bit registers
/repo/src/sse/gbr_to_rgb.rs:180-202, 249-271. -/
def gbrLimited (bias : Nat) (k : Int) (v : Reg) : Reg :=
  grayBytes ⟨k, 0, 0, 0, 0⟩ (subsU8 v (set1_8 bias))

/-- 32 pixels, `f` being applied to the bytes of each plane: full range (`f` is the identity)
/repo/src/avx2/gbr_to_rgb.rs:69-82, 111-121 (the tail); limited range 178-213, 243-275. -/
def avx2Gbr (ch : Channels) (f : Reg → Reg) (g b r : Buf) (cx p : Nat) (row : Buf) : Outcome Buf := do
  let gv ← load 32 g cx
  let bv ← load 32 b cx
  let rv ← load 32 r cx
  avx2Store ch p (f rv) (f gv) (f bv) (set1_8 255) row

/-- 16 pixels: full range /repo/src/sse/gbr_to_rgb.rs:67-80, 109-119 (the tail); limited range
176-213, 245-279. -/
def sseGbr (ch : Channels) (f : Reg → Reg) (g b r : Buf) (cx p : Nat) (row : Buf) : Outcome Buf := do
  let gv ← load 16 g cx
  let bv ← load 16 b cx
  let rv ← load 16 r cx
  sseStore ch p (f rv) (f gv) (f bv) (set1_8 255) row

/-- The last pixels of a row, at most `n`, through zeroed buffers on the stack (`f` is the `n`-pixel
step): /repo/src/avx2/gbr_to_rgb.rs:87-133, 216-286 (`n` is 32), /repo/src/sse/gbr_to_rgb.rs:85-131,
218-292 (16). -/
def gbrTail (n cn width : Nat) (f : Buf → Buf → Buf → Buf → Outcome Buf) (g b r row : Buf) (cx : Nat) :
    Outcome (Buf × Nat) :=
  if cx < width then do
    let diff := width - cx
    if n < diff then .panic
    let gb ← copyIn g cx diff (List.replicate n 0)
    let bb ← copyIn b cx diff (List.replicate n 0)
    let rb ← copyIn r cx diff (List.replicate n 0)
    let db ← f gb bb rb (List.replicate (n * 4) 0)
    let row ← copyOut db (diff * cn) row (cx * cn)
    return (row, cx + diff)
  else .ok (row, cx)

/-- Models `avx_yuv_to_rgba_row_full_impl` and `avx_yuv_to_rgba_row_limited_impl`,
/repo/src/avx2/gbr_to_rgb.rs:54-137 and 158-287. -/
def avx2GbrRow (ch : Channels) (f : Reg → Reg) (width : Nat) (g b r row : Buf) (cx : Nat) :
    Outcome (Buf × Nat) := do
  let s ← vwhile 32 0 width (fun cx _ row => avx2Gbr ch f g b r cx (cx * ch.count) row) cx 0 row
  gbrTail 32 ch.count width (fun g b r d => avx2Gbr ch f g b r 0 0 d) g b r s.1 s.2.1

/-- Models `sse_yuv_to_rgba_row_full_impl` and `sse_yuv_to_rgba_row_limited_impl`,
/repo/src/sse/gbr_to_rgb.rs:51-135 and 156-293. -/
def sseGbrRow (ch : Channels) (f : Reg → Reg) (width : Nat) (g b r row : Buf) (cx : Nat) :
    Outcome (Buf × Nat) := do
  let s ← vwhile 16 0 width (fun cx _ row => sseGbr ch f g b r cx (cx * ch.count) row) cx 0 row
  gbrTail 16 ch.count width (fun g b r d => sseGbr ch f g b r 0 0 d) g b r s.1 s.2.1

/-- Models `handle_row` of `WideRowGbrProcessor<u8>` and `WideRowGbrLimitedProcessor<u8>`,
/repo/src/from_identity.rs:195-258, with the handlers of lines 64-167: the planes are those of Y
(green), U (blue) and V (red), line 365-374. -/
def gbrHandler (cpu : Cpu) (ch : Channels) (f : Reg → Reg) (width : Nat) : MapHandler := fun rows row =>
  match cpu with
  | .avx2 => avx2GbrRow ch f width (rows.getD 0 []) (rows.getD 1 []) (rows.getD 2 []) row 0
  | .sse41 => sseGbrRow ch f width (rows.getD 0 []) (rows.getD 1 []) (rows.getD 2 []) row 0
  | .plain => noMap rows row

/-- `gbr_to_rgbx` (`Verif.gbrToRgbx`) at 8 bits on a processor. -/
def gbrToRgbxOn (cpu : Cpu) (tg : Target) (ch : Channels) (i : Planar) (rgba : Buf) (stride : Nat)
    (rg : YuvRange) : Outcome Buf :=
  gbrToRgbx tg 8 ch
    (gbrHandler cpu ch (gbrLimited (getYuvRange 8 .limited).biasY (gbrInvCoef 8)) i.width)
    (gbrHandler cpu ch id i.width) i rgba stride rg

end Verif.X86
