import Verif.Model.NeonYuy2
import Verif.Model.X86YuyRgb
/-!
# 64-bit ARM with NEON: the 8-bit decoders from packed 4:2:2 to RGB

/repo/src/neon/yuy2_to_rgb.rs, with the choice made by `yuy2_to_rgb_impl` (/repo/src/yuy2_to_rgb.rs:146-158).
The precision is 6.  Semantics of the intrinsics, and registers, as in Verif.Model.Neon.
-/
namespace Verif.Neon
open X86

/-- `vmull_u8` with all elements of the second operand `c`. -/
def mull8 (a : Reg) (c : Nat) : Reg := mk16 fun k => ((a k * c : Nat) : Int)
/-- `vqrshrun_n_s16::<6>`: shifted with ties up, saturated to a byte. -/
def qrshrun6 (a : Reg) : Reg := fun k => satU8 ((s16 a k + 32) / 64)

/-- Red, green and blue of eight pixels, from bytes of luma (offset already taken off) and of chroma:
/repo/src/neon/yuy2_to_rgb.rs:54-62 (the weights) and 127-154 (and 104-125, 200-226, 177-198, 314-337,
290-312). -/
def yuyColours (rg : ChromaRange) (t : InvCoef) (y u v : Reg) : Reg × Reg × Reg :=
  let u := sub16 (widenLo u) (set1_16 (asI16 rg.biasUv))
  let v := sub16 (widenLo v) (set1_16 (asI16 rg.biasUv))
  let y := mull8 y (asU8 t.y)
  (qrshrun6 (max16 (adds16 y (mullo16 v (set1_16 (asI16 t.cr)))) zero),
    qrshrun6 (max16 (adds16 y (adds16 (mullo16 v (set1_16 (-asI16 t.g1)))
      (mullo16 u (set1_16 (-asI16 t.g2))))) zero),
    qrshrun6 (max16 (adds16 y (mullo16 u (set1_16 (asI16 t.cb)))) zero))

/-- Sixteen pixels: /repo/src/neon/yuy2_to_rgb.rs:104-175 (and 177-247, 287-350). -/
def yuyBlock (ch : Channels) (rg : ChromaRange) (t : InvCoef) (y u v : Reg) (p : Nat) (row : Buf) :
    Outcome Buf :=
  let l := yuyColours rg t y u v
  let h := yuyColours rg t (upper 8 y) (upper 8 u) (upper 8 v)
  storeRgb 16 ch p (combine 8 l.1 h.1) (combine 8 l.2.1 h.2.1) (combine 8 l.2.2 h.2.2) (set1_8 255) row

/-- Thirty-two pixels: /repo/src/neon/yuy2_to_rgb.rs:64-249. -/
def yuyRgb32 (t : Yuy2) (ch : Channels) (rg : ChromaRange) (tr : InvCoef) (yuy : Buf) (cx : Nat)
    (row : Buf) : Outcome Buf := do
  let a ← load 64 yuy (cx * 2)
  let q := yuyPick t (deinterleave4 a)
  let y := subsU8 (zipBoth 16 q.1 q.2.1) (set1_8 rg.biasY)
  let u := zipBoth 16 q.2.2.1 q.2.2.1
  let v := zipBoth 16 q.2.2.2 q.2.2.2
  let row ← yuyBlock ch rg tr y u v (cx * ch.count) row
  yuyBlock ch rg tr (upper 16 y) (upper 16 u) (upper 16 v) (cx * ch.count + 16 * ch.count) row

/-- Sixteen pixels: /repo/src/neon/yuy2_to_rgb.rs:251-353. -/
def yuyRgb16 (t : Yuy2) (ch : Channels) (rg : ChromaRange) (tr : InvCoef) (yuy : Buf) (cx : Nat)
    (row : Buf) : Outcome Buf := do
  let a ← load 32 yuy (cx * 2)
  let q := yuyPick t (deinterleave4 a)
  yuyBlock ch rg tr (subsU8 (zipBoth 8 q.1 q.2.1) (set1_8 rg.biasY)) (zipBoth 8 q.2.2.1 q.2.2.1)
    (zipBoth 8 q.2.2.2 q.2.2.2) (cx * ch.count) row

/-- Models `yuy2_to_rgb_neon`, /repo/src/neon/yuy2_to_rgb.rs:35-362, called from
/repo/src/yuy2_to_rgb.rs:146-158. -/
def yuyRgbHandler (t : Yuy2) (ch : Channels) (rg : ChromaRange) (tr : InvCoef) (width : Nat) :
    YuyRgbHandler := fun yuy row => do
  let r ← vwhile 32 0 width (fun cx _ row => yuyRgb32 t ch rg tr yuy cx row) 0 0 row
  let r ← vwhile 16 0 width (fun cx _ row => yuyRgb16 t ch rg tr yuy cx row) r.2.1 0 r.1
  return (r.1, r.2.1)

/-- Models `yuy2_to_rgb_impl`, /repo/src/yuy2_to_rgb.rs:44-234, on AArch64. -/
def yuy2ToRgbNeon (t : Yuy2) (ch : Channels) (i : Packed) (rgb : Buf) (stride : Nat) (rg : YuvRange)
    (m : Matrix) : Outcome Buf :=
  yuy2ToRgb x64 t ch (yuyRgbHandler t ch (getYuvRange 8 rg) (computedInverse 6 8 rg m) i.width) i rgb
    stride rg m

end Verif.Neon
