import Verif.Model.Tables
/-!
# IEEE-754 binary32 arithmetic and the coefficient computation

The crate computes the conversion coefficients in `f32` and rounds them to
integers.  Here an `f32` value is the rational number it denotes, and an
operation is the exact rational operation followed by `rn32`, the rounding to
nearest with ties to even on a 24-bit significand.  Subnormals, infinities and
NaN are not modelled: with the coefficients of the named matrices every
intermediate value is a normal number between 2^-4 and 2^25.
-/
namespace Verif

/-- `2^e` for an integer exponent. -/
def pow2 (e : Int) : Rat :=
  if 0 ≤ e then ((2 ^ e.toNat : Nat) : Rat) else 1 / ((2 ^ (-e).toNat : Nat) : Rat)

/-- `⌊log2 a⌋` of a positive rational. -/
def ilog2 (a : Rat) : Int :=
  let e : Int := (Nat.log2 a.num.natAbs : Int) - (Nat.log2 a.den : Int)
  if pow2 e ≤ a then e else e - 1

/-- Nearest integer, ties to even. -/
def roundEven (q : Rat) : Int :=
  let f := q.floor
  let r := q - (f : Rat)
  if r < 1 / 2 then f
  else if 1 / 2 < r then f + 1
  else if f % 2 = 0 then f else f + 1

/-- Round to the nearest binary32 number, ties to even. -/
def rn32 (q : Rat) : Rat :=
  if q = 0 then 0
  else
    let e := ilog2 (if q < 0 then -q else q)
    (roundEven (q * pow2 (23 - e)) : Rat) * pow2 (e - 23)

/-- `f32` multiplication. -/
def fmul (a b : Rat) : Rat := rn32 (a * b)
/-- `f32` division. -/
def fdiv (a b : Rat) : Rat := rn32 (a / b)
/-- `f32` subtraction. -/
def fsub (a b : Rat) : Rat := rn32 (a - b)

/-- `f32::round() as i32`: nearest integer, ties away from zero. -/
def roundAway (q : Rat) : Int :=
  if q < 0 then -((-q + 1 / 2).floor) else (q + 1 / 2).floor

/-- `u32 as f32`; exact for the ranges involved (all below 2^24). -/
def u32AsF32 (n : Nat) : Rat := rn32 (n : Rat)

/-- Models `YuvStandardMatrix::get_kr_kb`, /repo/src/yuv_support.rs:288-316: the
decimal literals, rounded to `f32`. -/
def Matrix.krKb : Matrix → Rat × Rat
  | .bt601 => (rn32 (299 / 1000), rn32 (114 / 1000))
  | .bt709 => (rn32 (2126 / 10000), rn32 (722 / 10000))
  | .bt2020 => (rn32 (2627 / 10000), rn32 (593 / 10000))
  | .smpte240 => (rn32 (87 / 1000), rn32 (212 / 1000))
  | .bt470_6 => (rn32 (2220 / 10000), rn32 (713 / 10000))
  | .fcc => (rn32 (30 / 100), rn32 (11 / 100))

/-- `CbCrInverseTransform<f32>`, /repo/src/yuv_support.rs:33-40. -/
structure InvF where
  y : Rat
  cr : Rat
  cb : Rat
  g1 : Rat
  g2 : Rat

/-- `CbCrForwardTransform<f32>`, /repo/src/yuv_support.rs:114-126. -/
structure FwdF where
  yr : Rat
  yg : Rat
  yb : Rat
  cbR : Rat
  cbG : Rat
  cbB : Rat
  crR : Rat
  crG : Rat
  crB : Rat

/-- Models `get_inverse_transform`, /repo/src/yuv_support.rs:96-113.  The
assertion `kg != 0` holds for every named matrix and is left out. -/
def getInverseTransform (rangeBgra rangeY rangeUv : Nat) (kr kb : Rat) : InvF :=
  let rangeUv' := fdiv (u32AsF32 rangeBgra) (u32AsF32 rangeUv)
  let yCoef := fdiv (u32AsF32 rangeBgra) (u32AsF32 rangeY)
  let cr := fmul (fmul 2 (fsub 1 kr)) rangeUv'
  let cb := fmul (fmul 2 (fsub 1 kb)) rangeUv'
  let kg := fsub (fsub 1 kr) kb
  let g1 := fmul (fmul 2 (fdiv (fmul (fsub 1 kr) kr) kg)) rangeUv'
  let g2 := fmul (fmul 2 (fdiv (fmul (fsub 1 kb) kb) kg)) rangeUv'
  ⟨yCoef, cr, cb, g1, g2⟩

/-- Models `CbCrInverseTransform<f32>::to_integers`, /repo/src/yuv_support.rs:60-77. -/
def InvF.toIntegers (t : InvF) (p : Nat) : InvCoef :=
  let s : Rat := ((2 ^ p : Nat) : Rat)
  { y := roundAway (fmul t.y s), cr := roundAway (fmul t.cr s), cb := roundAway (fmul t.cb s)
    g1 := roundAway (fmul t.g1 s), g2 := roundAway (fmul t.g2 s) }

/-- Models `get_forward_transform`, /repo/src/yuv_support.rs:192-224. -/
def getForwardTransform (rangeRgba rangeY rangeUv : Nat) (kr kb : Rat) : FwdF :=
  let kg := fsub (fsub 1 kr) kb
  let ry := u32AsF32 rangeY
  let ruv := u32AsF32 rangeUv
  let rr := u32AsF32 rangeRgba
  let luma := fun k => fdiv (fmul k ry) rr
  let chroma := fun k d => fdiv (fmul (fdiv (fmul (-1 / 2) k) (fsub 1 d)) ruv) rr
  let half := fdiv (fmul (1 / 2) ruv) rr
  { yr := luma kr, yg := luma kg, yb := luma kb
    cbR := chroma kr kb, cbG := chroma kg kb, cbB := half
    crR := half, crG := chroma kg kr, crB := chroma kb kr }

/-- Models `CbCrForwardTransform<f32>::to_integers`, /repo/src/yuv_support.rs:155-171. -/
def FwdF.toIntegers (t : FwdF) (p : Nat) : FwdCoef :=
  let r := fun q => roundAway (fmul q ((2 ^ p : Nat) : Rat))
  { yr := r t.yr, yg := r t.yg, yb := r t.yb
    cbR := r t.cbR, cbG := r t.cbG, cbB := r t.cbB
    crR := r t.crR, crG := r t.crG, crB := r t.crB }

/-- The transform `search_forward_transform` computes when no table matches,
/repo/src/yuv_support.rs:774-781. -/
def computedForward (p depth : Nat) (range : YuvRange) (m : Matrix) : FwdCoef :=
  let c := getYuvRange depth range
  (getForwardTransform (2 ^ depth - 1) c.rangeY c.rangeUv m.krKb.1 m.krKb.2).toIntegers p

/-- The transform `search_inverse_transform` computes when no table matches,
/repo/src/yuv_support.rs:797-803, before the clamp of the 6-bit mode. -/
def computedInverse (p depth : Nat) (range : YuvRange) (m : Matrix) : InvCoef :=
  let c := getYuvRange depth range
  (getInverseTransform (2 ^ depth - 1) c.rangeY c.rangeUv m.krKb.1 m.krKb.2).toIntegers p

/-- Models `search_forward_transform`, /repo/src/yuv_support.rs:762-783.  The
chroma range is the one `get_yuv_range` gives for the same depth and range, as
in every caller. -/
def searchForward (p depth : Nat) (range : YuvRange) (m : Matrix) : FwdCoef :=
  match builtForward p depth range m with
  | some t => t
  | none => computedForward p depth range m

/-- Models `search_inverse_transform`, /repo/src/yuv_support.rs:786-816. -/
def searchInverse (p depth : Nat) (range : YuvRange) (m : Matrix) : InvCoef :=
  match builtInverse p depth range m with
  | some t => t
  | none =>
    let t := computedInverse p depth range m
    if p = 6 then
      { y := t.y, cr := min t.cr 127, cb := min t.cb 127, g1 := min t.g1 127, g2 := min t.g2 127 }
    else t

end Verif
