import Verif.Model.Neon
import Verif.Model.Ycgco
/-!
# 64-bit ARM with NEON: the 8-bit YCgCo decoder

/repo/src/neon/ycgco_to_rgb.rs, used for full range.  Registers and intrinsics are those of
Verif.Model.Neon.
-/
namespace Verif.Neon
open X86

/-- `vmovl_u8` of the lower half. -/
def movlLow (a : Reg) : Reg := mk16 fun k => (a k : Int)
/-- `vmovl_high_u8`. -/
def movlHigh (a : Reg) : Reg := mk16 fun k => (a (8 + k) : Int)
/-- `vmovl_s8` of the lower eight bytes. -/
def movsLow (a : Reg) : Reg := mk16 fun k => asI8 (a k)
/-- `vmovl_s8` of the upper eight bytes. -/
def movsHigh (a : Reg) : Reg := mk16 fun k => asI8 (a (8 + k))

/-- Eight pixels, luma and chroma words to red, green and blue words:
/repo/src/neon/ycgco_to_rgb.rs:107-115 (also 220-228, 308-326, 423-441). -/
def cgcoColours (y u v : Reg) : Reg × Reg × Reg :=
  let t := sub16 y u
  (add16 t v, add16 y u, sub16 t v)

/-- Sixteen pixels with alpha `a` from luma bytes above the offset and chroma bytes below it, stored at
byte `p`: /repo/src/neon/ycgco_to_rgb.rs:99-129 (also 212-240, 297-351, 412-464). -/
def cgcoPut16 (a : Nat) (ch : Channels) (p : Nat) (y u v : Reg) (row : Buf) : Outcome Buf :=
  let lo := cgcoColours (movlLow y) (movsLow u) (movsLow v)
  let hi := cgcoColours (movlHigh y) (movsHigh u) (movsHigh v)
  storeRgb 16 ch p (qmovun lo.1 hi.1) (qmovun lo.2.1 hi.2.1) (qmovun lo.2.2 hi.2.2) (set1_8 a) row

/-- The body of the loop of `neon_ycgco_full_range_to_rgb`, /repo/src/neon/ycgco_to_rgb.rs:62-129: alpha
is zero.  The chroma is loaded as in the other planar decoders. -/
def cgcoBody (s : Sampling) (ch : Channels) (rg : ChromaRange) (y u v : Buf) (cx ux : Nat) (row : Buf) :
    Outcome Buf := do
  let yv ← load 16 y cx
  let c ← planarChroma .s16 s rg u v ux
  cgcoPut16 0 ch (cx * ch.count) (subsU8 yv (set1_8 rg.biasY)) c.1 c.2 row

/-- The last pixels of a row, at most sixteen, through zeroed buffers on the stack:
/repo/src/neon/ycgco_to_rgb.rs:143-251. -/
def cgcoTail (s : Sampling) (ch : Channels) (rg : ChromaRange) (width : Nat) (y u v : Buf) (row : Buf)
    (cx ux : Nat) : Outcome (Buf × Nat × Nat) :=
  if cx < width then do
    let diff := width - cx
    if 16 < diff then .panic
    let yb ← copyIn y cx diff (List.replicate 16 0)
    let ud := chromaStep s diff
    let ub ← copyIn u ux ud (List.replicate 16 0)
    let vb ← copyIn v ux ud (List.replicate 16 0)
    let db ← cgcoBody s ch rg yb ub vb 0 0 (List.replicate 64 0)
    let row ← copyOut db (diff * ch.count) row (cx * ch.count)
    return (row, cx + diff, ux + ud)
  else .ok (row, cx, ux)

/-- Models `neon_ycgco_full_range_to_rgb`, /repo/src/neon/ycgco_to_rgb.rs:36-254. -/
def cgcoRow (s : Sampling) (ch : Channels) (rg : ChromaRange) (width : Nat) (y u v row : Buf) :
    Outcome (Buf × Nat × Nat) := do
  let r ← vwhile 16 (chromaStep s 16) width (cgcoBody s ch rg y u v) 0 0 row
  cgcoTail s ch rg width y u v r.1 r.2.1 r.2.2

/-- The body of the loop of `neon_ycgco420_to_rgba_row`, /repo/src/neon/ycgco_to_rgb.rs:279-351: alpha is
255. -/
def cgcoBody420 (ch : Channels) (rg : ChromaRange) (y0 y1 u v : Buf) (cx ux : Nat) (rows : Buf × Buf) :
    Outcome (Buf × Buf) := do
  let yv0 ← load 16 y0 cx
  let yv1 ← load 16 y1 cx
  let c ← planarChroma .s16 .yuv420 rg u v ux
  let row0 ← cgcoPut16 255 ch (cx * ch.count) (subsU8 yv0 (set1_8 rg.biasY)) c.1 c.2 rows.1
  let row1 ← cgcoPut16 255 ch (cx * ch.count) (subsU8 yv1 (set1_8 rg.biasY)) c.1 c.2 rows.2
  return (row0, row1)

/-- The last pixels of a pair of rows: /repo/src/neon/ycgco_to_rgb.rs:357-481. -/
def cgcoTail420 (ch : Channels) (rg : ChromaRange) (width : Nat) (y0 y1 u v : Buf) (rows : Buf × Buf)
    (cx ux : Nat) : Outcome ((Buf × Buf) × Nat × Nat) :=
  if cx < width then do
    let diff := width - cx
    if 16 < diff then .panic
    let yb0 ← copyIn y0 cx diff (List.replicate 16 0)
    let yb1 ← copyIn y1 cx diff (List.replicate 16 0)
    let ud := chromaStep .yuv420 diff
    let ub ← copyIn u ux ud (List.replicate 16 0)
    let vb ← copyIn v ux ud (List.replicate 16 0)
    let db ← cgcoBody420 ch rg yb0 yb1 ub vb 0 0 (List.replicate 64 0, List.replicate 64 0)
    let row0 ← copyOut db.1 (diff * ch.count) rows.1 (cx * ch.count)
    let row1 ← copyOut db.2 (diff * ch.count) rows.2 (cx * ch.count)
    return ((row0, row1), cx + diff, ux + ud)
  else .ok (rows, cx, ux)

/-- Models `neon_ycgco420_to_rgba_row`, /repo/src/neon/ycgco_to_rgb.rs:257-484. -/
def cgcoRow420 (ch : Channels) (rg : ChromaRange) (width : Nat) (y0 y1 u v row0 row1 : Buf) :
    Outcome ((Buf × Buf) × Nat × Nat) := do
  let r ← vwhile 16 8 width (cgcoBody420 ch rg y0 y1 u v) 0 0 (row0, row1)
  cgcoTail420 ch rg width y0 y1 u v r.1 r.2.1 r.2.2

/-- Models `Rgb8Converter::new` and `handle_row`, /repo/src/ycgco_to_rgb.rs:96-111 and 173-199. -/
def cgcoHandler (rg : YuvRange) (s : Sampling) (ch : Channels) (width : Nat) : RowHandler :=
  fun y u v row =>
  match rg with
  | .full => done (cgcoRow s ch (getYuvRange 8 rg) width y u v row)
  | .limited => .ok (row, 0)

/-- Models `Rgb8Converter420::new` and `handle_row420` for 4:2:0, /repo/src/ycgco_to_rgb.rs:113-133 and
201-231. -/
def cgcoHandler420 (rg : YuvRange) (ch : Channels) (width : Nat) : RowHandler420 :=
  fun y0 y1 u v row0 row1 =>
  match rg with
  | .full => do
    let r ← cgcoRow420 ch (getYuvRange 8 rg) width y0 y1 u v row0 row1
    return (r.1.1, r.1.2, r.2.1)
  | .limited => .ok (row0, row1, 0)

/-- The 8-bit YCgCo decoder on AArch64: `ycgco_ro_rgbx`, /repo/src/ycgco_to_rgb.rs:279-667, as
`Verif.ycgcoToRgbx` but with the handlers. -/
def ycgcoToRgbxNeon (ch : Channels) (s : Sampling) (i : Planar) (rgba : Buf) (stride : Nat)
    (rg : YuvRange) : Outcome Buf := do
  checkRgba x64 rgba.length stride i.width i.height ch.count
  i.check x64 s
  let put := putCgco 8 (getYuvRange 8 rg) ch 255
  let hd := cgcoHandler rg s ch i.width
  match s with
  | .yuv444 => decode444 true ch.count put hd i rgba stride
  | .yuv422 => decode422 true ch.count put hd i rgba stride
  | .yuv420 => decode420 ch.count put put hd (cgcoHandler420 rg ch i.width) i rgba stride

end Verif.Neon
