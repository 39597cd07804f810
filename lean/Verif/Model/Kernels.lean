import Verif.Model.F32
/-!
# Pixel kernels

The arithmetic every converter performs per pixel, operation by operation.
`i32` operations are checked: an overflow is a panic (debug build).
-/
namespace Verif

/-- The decoder kernel of the 4:4:4 and single-row paths,
/repo/src/yuv_to_rgba.rs:658-666 (and 427-435, 446-452, 465-475): `q` is the final
rounding shift (`qrshr::<PRECISION, BIT_DEPTH>` there).  Returns `(r, g, b)`. -/
def decodeRow (q : Int → Outcome Int) (t : InvCoef) (biasY biasUv : Nat) (y u v : Nat) :
    Outcome (Int × Int × Int) := do
  let yd ← sub32 y biasY
  let yv ← mul32 yd t.y
  let cb ← sub32 u biasUv
  let cr ← sub32 v biasUv
  let rm ← mul32 t.cr cr
  let rs ← add32 yv rm
  let r ← q rs
  let bm ← mul32 t.cb cb
  let bs ← add32 yv bm
  let b ← q bs
  let gm1 ← mul32 t.g1 cr
  let gs1 ← sub32 yv gm1
  let gm2 ← mul32 t.g2 cb
  let gs ← sub32 gs1 gm2
  let g ← q gs
  return (r, g, b)

/-- The decoder kernel of the two-row 4:2:0 path, which builds the green chroma
term first: /repo/src/yuv_to_rgba.rs:516-524 (and 535-539, 550-554, 565-569, 582-604). -/
def decodeTwoRow (q : Int → Outcome Int) (t : InvCoef) (biasY biasUv : Nat) (y u v : Nat) :
    Outcome (Int × Int × Int) := do
  let yd ← sub32 y biasY
  let yv ← mul32 yd t.y
  let cb ← sub32 u biasUv
  let cr ← sub32 v biasUv
  let n1 ← sub32 0 t.g1
  let gm1 ← mul32 n1 cr
  let gm2 ← mul32 t.g2 cb
  let gb ← sub32 gm1 gm2
  let rm ← mul32 t.cr cr
  let rs ← add32 yv rm
  let r ← q rs
  let bm ← mul32 t.cb cb
  let bs ← add32 yv bm
  let b ← q bs
  let gs ← add32 yv gb
  let g ← q gs
  return (r, g, b)

/-- `r * c_r + g * c_g + b * c_b + bias) >> PRECISION`, the encoder kernel,
/repo/src/rgba_to_yuv.rs:938-939 (luma), 942-947 (chroma). -/
def encodeSum (p : Nat) (cr cg cb bias : Int) (r g b : Int) : Outcome Int := do
  let a ← mul32 r cr
  let c ← mul32 g cg
  let s1 ← add32 a c
  let d ← mul32 b cb
  let s2 ← add32 s1 d
  let s3 ← add32 s2 bias
  return sar s3 p

/-- `bias * (1 << PRECISION) + ((1 << (PRECISION - 1)) - 1)`,
/repo/src/rgba_to_yuv.rs:689-691. -/
def encodeBias (p bias : Nat) : Int := (bias : Int) * 2 ^ p + (2 ^ (p - 1) - 1)

/-- Luma of an RGB triple, /repo/src/rgba_to_yuv.rs:938-940, before the cast. -/
def encodeY (p : Nat) (t : FwdCoef) (biasY : Nat) (r g b : Int) : Outcome Int :=
  encodeSum p t.yr t.yg t.yb (encodeBias p biasY) r g b
/-- Cb of an RGB triple, /repo/src/rgba_to_yuv.rs:942-944, before the cast. -/
def encodeCb (p : Nat) (t : FwdCoef) (biasUv : Nat) (r g b : Int) : Outcome Int :=
  encodeSum p t.cbR t.cbG t.cbB (encodeBias p biasUv) r g b
/-- Cr of an RGB triple, /repo/src/rgba_to_yuv.rs:945-947, before the cast. -/
def encodeCr (p : Nat) (t : FwdCoef) (biasUv : Nat) (r g b : Int) : Outcome Int :=
  encodeSum p t.crR t.crG t.crB (encodeBias p biasUv) r g b

end Verif
