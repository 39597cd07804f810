import Verif.Model.Core
/-!
# Enumerations, sample ranges and small numeric helpers

Models /repo/src/numerics.rs and the enumerations of /repo/src/yuv_support.rs.
-/
namespace Verif

/-! ## Ranges and matrices -/

/-- Models `YuvRange`, /repo/src/yuv_support.rs:226-233. -/
inductive YuvRange where
  | limited
  | full
deriving DecidableEq, Repr

/-- Models `YuvChromaRange`, /repo/src/yuv_support.rs:235-243 (the copy of the
`range` argument is dropped). -/
structure ChromaRange where
  biasY : Nat
  biasUv : Nat
  rangeY : Nat
  rangeUv : Nat
deriving DecidableEq, Repr

/-- Models `get_yuv_range`, /repo/src/yuv_support.rs:245-263.  The shifts are on
`u32`; every caller passes a depth from 8 to 16, for which nothing overflows. -/
def getYuvRange (depth : Nat) : YuvRange → ChromaRange
  | .limited =>
    { biasY := 16 * 2 ^ (depth - 8), biasUv := 2 ^ (depth - 1),
      rangeY := 219 * 2 ^ (depth - 8), rangeUv := 224 * 2 ^ (depth - 8) }
  | .full =>
    { biasY := 0, biasUv := 2 ^ (depth - 1),
      rangeY := 2 ^ depth - 1, rangeUv := 2 ^ depth - 1 }

/-- The named matrices of `YuvStandardMatrix`, /repo/src/yuv_support.rs:265-280.
`Custom` is not a constructor here: everything proved about integer
coefficients in general covers it, everything about tables is about the named
matrices. -/
inductive Matrix where
  | bt601 | bt709 | bt2020 | smpte240 | bt470_6 | fcc
deriving DecidableEq, Repr

/-- Models `YuvChromaSubsampling`, /repo/src/yuv_support.rs:354-360. -/
inductive Sampling where
  | yuv420 | yuv422 | yuv444
deriving DecidableEq, Repr

/-- Models `YuvConversionMode`, /repo/src/yuv_support.rs:818-845. -/
inductive Mode where
  | fast | balanced | professional
deriving DecidableEq, Repr

/-! ## Layouts -/

/-- Models `YuvSourceChannels`, /repo/src/yuv_support.rs:430-437. -/
inductive Channels where
  | rgb | rgba | bgra | bgr
deriving DecidableEq, Repr

namespace Channels
/-- Models `get_channels_count`, /repo/src/yuv_support.rs:466-472. -/
def count : Channels → Nat
  | rgb => 3 | bgr => 3 | rgba => 4 | bgra => 4
/-- Models `has_alpha`, /repo/src/yuv_support.rs:474-480. -/
def hasAlpha : Channels → Bool
  | rgb => false | bgr => false | rgba => true | bgra => true
/-- Models `get_r_channel_offset`, /repo/src/yuv_support.rs:484-492. -/
def rOff : Channels → Nat
  | rgb => 0 | rgba => 0 | bgra => 2 | bgr => 2
/-- Models `get_g_channel_offset`, /repo/src/yuv_support.rs:494-500. -/
def gOff : Channels → Nat
  | rgb => 1 | bgr => 1 | rgba => 1 | bgra => 1
/-- Models `get_b_channel_offset`, /repo/src/yuv_support.rs:502-510. -/
def bOff : Channels → Nat
  | rgb => 2 | rgba => 2 | bgra => 0 | bgr => 0
/-- Models `get_a_channel_offset`, /repo/src/yuv_support.rs:511-517. -/
def aOff : Channels → Nat
  | rgb => 0 | bgr => 0 | rgba => 3 | bgra => 3
end Channels

/-- Models `YuvNVOrder`, /repo/src/yuv_support.rs:317-322. -/
inductive NVOrder where
  | uv | vu
deriving DecidableEq, Repr

namespace NVOrder
/-- Models `get_u_position`, /repo/src/yuv_support.rs:325-331. -/
def uPos : NVOrder → Nat
  | uv => 0 | vu => 1
/-- Models `get_v_position`, /repo/src/yuv_support.rs:332-338. -/
def vPos : NVOrder → Nat
  | uv => 1 | vu => 0
end NVOrder

/-- Models `Yuy2Description`, /repo/src/yuv_support.rs:520-528. -/
inductive Yuy2 where
  | yuyv | uyvy | yvyu | vyuy
deriving DecidableEq, Repr

namespace Yuy2
/-- Models `get_u_position`, /repo/src/yuv_support.rs:545-553. -/
def uPos : Yuy2 → Nat
  | yuyv => 1 | uyvy => 0 | yvyu => 3 | vyuy => 2
/-- Models `get_v_position`, /repo/src/yuv_support.rs:555-563. -/
def vPos : Yuy2 → Nat
  | yuyv => 3 | uyvy => 2 | yvyu => 1 | vyuy => 0
/-- Models `get_first_y_position`, /repo/src/yuv_support.rs:565-573. -/
def y0Pos : Yuy2 → Nat
  | yuyv => 0 | uyvy => 1 | yvyu => 0 | vyuy => 1
/-- Models `get_second_y_position`, /repo/src/yuv_support.rs:575-583. -/
def y1Pos : Yuy2 → Nat
  | yuyv => 2 | uyvy => 3 | yvyu => 2 | vyuy => 3
end Yuy2

/-- Models `YuvPacked444Format`, /repo/src/yuv_support.rs:586-590. -/
inductive Packed444 where
  | ayuv | vuya
deriving DecidableEq, Repr

namespace Packed444
/-- Models `get_a_ps`, /repo/src/yuv_support.rs:604-609. -/
def aPos : Packed444 → Nat
  | ayuv => 0 | vuya => 3
/-- Models `get_u_ps`, /repo/src/yuv_support.rs:611-616. -/
def uPos : Packed444 → Nat
  | ayuv => 2 | vuya => 1
/-- Models `get_v_ps`, /repo/src/yuv_support.rs:618-623. -/
def vPos : Packed444 → Nat
  | ayuv => 3 | vuya => 0
/-- Models `get_y_ps`, /repo/src/yuv_support.rs:625-630. -/
def yPos : Packed444 → Nat
  | ayuv => 1 | vuya => 2
end Packed444

/-- Models `YuvBytesPacking`, /repo/src/yuv_support.rs:412-415. -/
inductive BytesPacking where
  | msb | lsb
deriving DecidableEq, Repr

/-- Models `YuvEndianness`, /repo/src/yuv_support.rs:376-383. -/
inductive Endianness where
  | big | little
deriving DecidableEq, Repr

/-! ## Numeric helpers -/

/-- Models `qrshr::<PRECISION, BIT_DEPTH>`, /repo/src/numerics.rs:33-39. -/
def qrshr (p bd : Nat) (v : Int) : Outcome Int := do
  let s ← add32 v (2 ^ (p - 1) - 1)
  return max (min (sar s p) (2 ^ bd - 1)) 0

/-- Models `qrshr_n::<PRECISION>`, /repo/src/numerics.rs:63-68. -/
def qrshrN (p : Nat) (v mx : Int) : Outcome Int := do
  let s ← add32 v (2 ^ (p - 1))
  return max (min (sar s p) mx) 0

/-- Models `div_by_255`, /repo/src/numerics.rs:43-45.  The additions are on
`u16` (they panic on overflow in a debug build), the result is truncated to `u8`. -/
def divBy255 (v : Nat) : Outcome Nat :=
  if v + 0x80 < 65536 ∧ (v + 0x80) / 256 + v + 0x80 < 65536 then
    .ok (((v + 0x80) / 256 + v + 0x80) / 256 % 256)
  else .panic

/-- `u16::swap_bytes`. -/
def swap16 (v : Nat) : Nat := v % 256 * 256 + v / 256 % 256

/-- `u16::from_be` / `u16::from_le` on a little-endian host (/repo/src/numerics.rs:52-56). -/
def fromEndian : Endianness → Nat → Nat
  | .big, v => swap16 v
  | .little, v => v

/-- Models `to_ne`, /repo/src/numerics.rs:49-61, on a little-endian host. -/
def toNe (e : Endianness) (p : BytesPacking) (v msb : Nat) : Nat :=
  match p with
  | .msb => fromEndian e v / 2 ^ msb
  | .lsb => fromEndian e v

/-! ## Pixel stores -/

/-- The four assignments
`dst[r_offset] = r; dst[g_offset] = g; dst[b_offset] = b; if has_alpha { dst[a_offset] = a }`
that end every decoder kernel, e.g. /repo/src/yuv_to_rgba.rs:668-673. -/
def storePix (ch : Channels) (c : Buf) (r g b a : Nat) : Outcome Buf := do
  let c ← setIdx c ch.rOff r
  let c ← setIdx c ch.gOff g
  let c ← setIdx c ch.bOff b
  if ch.hasAlpha then setIdx c ch.aOff a else return c

end Verif
