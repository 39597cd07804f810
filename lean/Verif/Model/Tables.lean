import Verif.Model.Support
/-!
# Prebuilt coefficient tables

Transcribed mechanically from /repo/src/built_coefficients.rs: one definition
per `static`, then the two selector functions.
-/
namespace Verif

/-- Models `CbCrInverseTransform<i32>`, /repo/src/yuv_support.rs:33-40. -/
structure InvCoef where
  y : Int
  cr : Int
  cb : Int
  g1 : Int
  g2 : Int
deriving DecidableEq, Repr

/-- Models `CbCrForwardTransform<i32>`, /repo/src/yuv_support.rs:114-126. -/
structure FwdCoef where
  yr : Int
  yg : Int
  yb : Int
  cbR : Int
  cbG : Int
  cbB : Int
  crR : Int
  crG : Int
  crB : Int
deriving DecidableEq, Repr

/-- Models `FORWARD_BT601_FULL_8_13PREC`, /repo/src/built_coefficients.rs:32-42. -/
def forwardBt601Full813prec : FwdCoef :=
  ⟨2449, 4809, 934, -1382, -2714, 4096, 4096, -3430, -666⟩

/-- Models `FORWARD_BT601_LIMITED_8_13PREC`, /repo/src/built_coefficients.rs:44-54. -/
def forwardBt601Limited813prec : FwdCoef :=
  ⟨2104, 4130, 802, -1214, -2384, 3598, 3598, -3013, -585⟩

/-- Models `FORWARD_BT601_LIMITED_10_13PREC`, /repo/src/built_coefficients.rs:56-66. -/
def forwardBt601Limited1013prec : FwdCoef :=
  ⟨2097, 4118, 800, -1211, -2377, 3588, 3588, -3004, -583⟩

/-- Models `FORWARD_BT601_LIMITED_12_13PREC`, /repo/src/built_coefficients.rs:68-78. -/
def forwardBt601Limited1213prec : FwdCoef :=
  ⟨2096, 4115, 799, -1210, -2375, 3585, 3585, -3002, -583⟩

/-- Models `FORWARD_BT601_FULL_10_13PREC`, /repo/src/built_coefficients.rs:80-90. -/
def forwardBt601Full1013prec : FwdCoef :=
  ⟨2449, 4809, 934, -1382, -2714, 4096, 4096, -3430, -666⟩

/-- Models `FORWARD_BT601_FULL_12_13PREC`, /repo/src/built_coefficients.rs:92-102. -/
def forwardBt601Full1213prec : FwdCoef :=
  ⟨2449, 4809, 934, -1382, -2714, 4096, 4096, -3430, -666⟩

/-- Models `FORWARD_BT709_LIMITED_8_13PREC`, /repo/src/built_coefficients.rs:104-114. -/
def forwardBt709Limited813prec : FwdCoef :=
  ⟨1496, 5032, 508, -824, -2774, 3598, 3598, -3268, -330⟩

/-- Models `FORWARD_BT709_LIMITED_10_13PREC`, /repo/src/built_coefficients.rs:116-126. -/
def forwardBt709Limited1013prec : FwdCoef :=
  ⟨1491, 5017, 506, -822, -2765, 3588, 3588, -3259, -329⟩

/-- Models `FORWARD_BT709_LIMITED_12_13PREC`, /repo/src/built_coefficients.rs:128-138. -/
def forwardBt709Limited1213prec : FwdCoef :=
  ⟨1490, 5013, 506, -821, -2763, 3585, 3585, -3256, -329⟩

/-- Models `FORWARD_BT709_FULL_8_13PREC`, /repo/src/built_coefficients.rs:139-149. -/
def forwardBt709Full813prec : FwdCoef :=
  ⟨1742, 5859, 591, -939, -3157, 4096, 4096, -3720, -376⟩

/-- Models `FORWARD_BT709_FULL_10_13PREC`, /repo/src/built_coefficients.rs:151-161. -/
def forwardBt709Full1013prec : FwdCoef :=
  ⟨1742, 5859, 591, -939, -3157, 4096, 4096, -3720, -376⟩

/-- Models `FORWARD_BT709_FULL_12_13PREC`, /repo/src/built_coefficients.rs:163-173. -/
def forwardBt709Full1213prec : FwdCoef :=
  ⟨1742, 5859, 591, -939, -3157, 4096, 4096, -3720, -376⟩

/-- Models `FORWARD_BT2020_LIMITED_8_13PREC`, /repo/src/built_coefficients.rs:175-185. -/
def forwardBt2020Limited813prec : FwdCoef :=
  ⟨1848, 4770, 417, -1005, -2593, 3598, 3598, -3309, -289⟩

/-- Models `FORWARD_BT2020_LIMITED_10_13PREC`, /repo/src/built_coefficients.rs:187-197. -/
def forwardBt2020Limited1013prec : FwdCoef :=
  ⟨1843, 4756, 416, -1002, -2586, 3588, 3588, -3299, -289⟩

/-- Models `FORWARD_BT2020_LIMITED_12_13PREC`, /repo/src/built_coefficients.rs:199-209. -/
def forwardBt2020Limited1213prec : FwdCoef :=
  ⟨1841, 4753, 416, -1001, -2584, 3585, 3585, -3297, -288⟩

/-- Models `FORWARD_BT2020_FULL_8_13PREC`, /repo/src/built_coefficients.rs:211-221. -/
def forwardBt2020Full813prec : FwdCoef :=
  ⟨2152, 5554, 486, -1144, -2952, 4096, 4096, -3767, -329⟩

/-- Models `FORWARD_BT2020_FULL_10_13PREC`, /repo/src/built_coefficients.rs:223-233. -/
def forwardBt2020Full1013prec : FwdCoef :=
  ⟨2152, 5554, 486, -1144, -2952, 4096, 4096, -3767, -329⟩

/-- Models `FORWARD_BT2020_FULL_12_13PREC`, /repo/src/built_coefficients.rs:235-245. -/
def forwardBt2020Full1213prec : FwdCoef :=
  ⟨2152, 5554, 486, -1144, -2952, 4096, 4096, -3767, -329⟩

/-- Models `FORWARD_SMPTE240_LIMITED_8_13PREC`, /repo/src/built_coefficients.rs:247-257. -/
def forwardSmpte240Limited813prec : FwdCoef :=
  ⟨612, 4932, 1492, -397, -3201, 3598, 3598, -2763, -835⟩

/-- Models `FORWARD_SMPTE240_FULL_8_13PREC`, /repo/src/built_coefficients.rs:259-269. -/
def forwardSmpte240Full813prec : FwdCoef :=
  ⟨713, 5743, 1737, -452, -3644, 4096, 4096, -3145, -951⟩

/-- Models `FORWARD_BT470_FULL_8_13PREC`, /repo/src/built_coefficients.rs:271-281. -/
def forwardBt470Full813prec : FwdCoef :=
  ⟨1819, 5789, 584, -979, -3117, 4096, 4096, -3721, -375⟩

/-- Models `FORWARD_BT470_LIMITED_8_13PREC`, /repo/src/built_coefficients.rs:283-293. -/
def forwardBt470Limited813prec : FwdCoef :=
  ⟨1562, 4972, 502, -860, -2738, 3598, 3598, -3268, -330⟩

/-- Models `INVERSE_BT601_LIMITED_8_PREC13`, /repo/src/built_coefficients.rs:369-375. -/
def inverseBt601Limited8Prec13 : InvCoef :=
  ⟨9539, 13075, 16525, 6660, 3209⟩

/-- Models `INVERSE_BT601_FULL_8_PREC13`, /repo/src/built_coefficients.rs:377-383. -/
def inverseBt601Full8Prec13 : InvCoef :=
  ⟨8192, 11485, 14516, 5850, 2819⟩

/-- Models `INVERSE_BT709_LIMITED_8_PREC13`, /repo/src/built_coefficients.rs:385-391. -/
def inverseBt709Limited8Prec13 : InvCoef :=
  ⟨9539, 14686, 17305, 4366, 1747⟩

/-- Models `INVERSE_BT709_FULL_8_PREC13`, /repo/src/built_coefficients.rs:393-399. -/
def inverseBt709Full8Prec13 : InvCoef :=
  ⟨8192, 12901, 15201, 3835, 1535⟩

/-- Models `INVERSE_BT2020_LIMITED_8_PREC13`, /repo/src/built_coefficients.rs:401-407. -/
def inverseBt2020Limited8Prec13 : InvCoef :=
  ⟨9539, 13752, 17545, 5328, 1535⟩

/-- Models `INVERSE_BT2020_FULL_8_PREC13`, /repo/src/built_coefficients.rs:409-415. -/
def inverseBt2020Full8Prec13 : InvCoef :=
  ⟨8192, 12080, 15412, 4681, 1348⟩

/-- Models `INVERSE_SMPTE240_LIMITED_8_PREC13`, /repo/src/built_coefficients.rs:417-423. -/
def inverseSmpte240Limited8Prec13 : InvCoef :=
  ⟨9539, 17029, 14697, 2113, 4445⟩

/-- Models `INVERSE_SMPTE240_FULL_8_PREC13`, /repo/src/built_coefficients.rs:425-431. -/
def inverseSmpte240Full8Prec13 : InvCoef :=
  ⟨8192, 14959, 12911, 1856, 3904⟩

/-- Models `INVERSE_BT470_LIMITED_8_PREC13`, /repo/src/built_coefficients.rs:433-439. -/
def inverseBt470Limited8Prec13 : InvCoef :=
  ⟨9539, 14511, 17322, 4558, 1748⟩

/-- Models `INVERSE_BT470_FULL_8_PREC13`, /repo/src/built_coefficients.rs:441-447. -/
def inverseBt470Full8Prec13 : InvCoef :=
  ⟨8192, 12747, 15216, 4004, 1535⟩

/-- Models `INVERSE_BT601_LIMITED_10_PREC13`, /repo/src/built_coefficients.rs:449-455. -/
def inverseBt601Limited10Prec13 : InvCoef :=
  ⟨9567, 13113, 16574, 6679, 3219⟩

/-- Models `INVERSE_BT601_FULL_10_PREC13`, /repo/src/built_coefficients.rs:457-463. -/
def inverseBt601Full10Prec13 : InvCoef :=
  ⟨8192, 11485, 14516, 5850, 2819⟩

/-- Models `INVERSE_BT709_LIMITED_10_PREC13`, /repo/src/built_coefficients.rs:465-471. -/
def inverseBt709Limited10Prec13 : InvCoef :=
  ⟨9567, 14729, 17356, 4378, 1752⟩

/-- Models `INVERSE_BT709_FULL_10_PREC13`, /repo/src/built_coefficients.rs:473-479. -/
def inverseBt709Full10Prec13 : InvCoef :=
  ⟨8192, 12901, 15201, 3835, 1535⟩

/-- Models `INVERSE_BT2020_LIMITED_10_PREC13`, /repo/src/built_coefficients.rs:481-487. -/
def inverseBt2020Limited10Prec13 : InvCoef :=
  ⟨9567, 13792, 17597, 5344, 1539⟩

/-- Models `INVERSE_BT2020_FULL_10_PREC13`, /repo/src/built_coefficients.rs:489-495. -/
def inverseBt2020Full10Prec13 : InvCoef :=
  ⟨8192, 12080, 15412, 4681, 1348⟩

/-- Models `INVERSE_BT601_LIMITED_12_PREC13`, /repo/src/built_coefficients.rs:497-503. -/
def inverseBt601Limited12Prec13 : InvCoef :=
  ⟨9574, 13123, 16586, 6684, 3221⟩

/-- Models `INVERSE_BT601_FULL_12_PREC13`, /repo/src/built_coefficients.rs:505-511. -/
def inverseBt601Full12Prec13 : InvCoef :=
  ⟨8192, 11485, 14516, 5850, 2819⟩

/-- Models `INVERSE_BT709_LIMITED_12_PREC13`, /repo/src/built_coefficients.rs:513-519. -/
def inverseBt709Limited12Prec13 : InvCoef :=
  ⟨9574, 14740, 17368, 4382, 1753⟩

/-- Models `INVERSE_BT709_FULL_12_PREC13`, /repo/src/built_coefficients.rs:521-527. -/
def inverseBt709Full12Prec13 : InvCoef :=
  ⟨8192, 12901, 15201, 3835, 1535⟩

/-- Models `INVERSE_BT2020_LIMITED_12_PREC13`, /repo/src/built_coefficients.rs:529-535. -/
def inverseBt2020Limited12Prec13 : InvCoef :=
  ⟨9574, 13802, 17610, 5348, 1540⟩

/-- Models `INVERSE_BT2020_FULL_12_PREC13`, /repo/src/built_coefficients.rs:537-543. -/
def inverseBt2020Full12Prec13 : InvCoef :=
  ⟨8192, 12080, 15412, 4681, 1348⟩

/-- Models `get_built_forward_transform`, /repo/src/built_coefficients.rs:295-367. -/
def builtForward (prec depth : Nat) (range : YuvRange) (m : Matrix) : Option FwdCoef :=
  if prec ≠ 13 then none
  else if depth = 8 then
    match m, range with
    | .bt601, .limited => some forwardBt601Limited813prec
    | .bt601, .full => some forwardBt601Full813prec
    | .bt709, .full => some forwardBt709Full813prec
    | .bt709, .limited => some forwardBt709Limited813prec
    | .bt2020, .full => some forwardBt2020Full813prec
    | .bt2020, .limited => some forwardBt2020Limited813prec
    | .smpte240, .full => some forwardSmpte240Full813prec
    | .smpte240, .limited => some forwardSmpte240Limited813prec
    | .bt470_6, .full => some forwardBt470Full813prec
    | .bt470_6, .limited => some forwardBt470Limited813prec
    | _, _ => none
  else if depth = 10 then
    match m, range with
    | .bt601, .limited => some forwardBt601Limited1013prec
    | .bt601, .full => some forwardBt601Full1013prec
    | .bt709, .limited => some forwardBt709Limited1013prec
    | .bt709, .full => some forwardBt709Full1013prec
    | .bt2020, .limited => some forwardBt2020Limited1013prec
    | .bt2020, .full => some forwardBt2020Full1013prec
    | _, _ => none
  else if depth = 12 then
    match m, range with
    | .bt601, .limited => some forwardBt601Limited1213prec
    | .bt601, .full => some forwardBt601Full1213prec
    | .bt709, .limited => some forwardBt709Limited1213prec
    | .bt709, .full => some forwardBt709Full1213prec
    | .bt2020, .limited => some forwardBt2020Limited1213prec
    | .bt2020, .full => some forwardBt2020Full1213prec
    | _, _ => none
  else none

/-- Models `get_built_inverse_transform`, /repo/src/built_coefficients.rs:545-617. -/
def builtInverse (prec depth : Nat) (range : YuvRange) (m : Matrix) : Option InvCoef :=
  if prec ≠ 13 then none
  else if depth = 8 then
    match m, range with
    | .bt601, .limited => some inverseBt601Limited8Prec13
    | .bt601, .full => some inverseBt601Full8Prec13
    | .bt709, .limited => some inverseBt709Limited8Prec13
    | .bt709, .full => some inverseBt709Full8Prec13
    | .bt2020, .limited => some inverseBt2020Limited8Prec13
    | .bt2020, .full => some inverseBt2020Full8Prec13
    | .smpte240, .limited => some inverseSmpte240Limited8Prec13
    | .smpte240, .full => some inverseSmpte240Full8Prec13
    | .bt470_6, .limited => some inverseBt470Limited8Prec13
    | .bt470_6, .full => some inverseBt470Full8Prec13
    | _, _ => none
  else if depth = 10 then
    match m, range with
    | .bt601, .limited => some inverseBt601Limited10Prec13
    | .bt601, .full => some inverseBt601Full10Prec13
    | .bt709, .limited => some inverseBt709Limited10Prec13
    | .bt709, .full => some inverseBt709Full10Prec13
    | .bt2020, .limited => some inverseBt2020Limited10Prec13
    | .bt2020, .full => some inverseBt2020Full10Prec13
    | _, _ => none
  else if depth = 12 then
    match m, range with
    | .bt601, .limited => some inverseBt601Limited12Prec13
    | .bt601, .full => some inverseBt601Full12Prec13
    | .bt709, .limited => some inverseBt709Limited12Prec13
    | .bt709, .full => some inverseBt709Full12Prec13
    | .bt2020, .limited => some inverseBt2020Limited12Prec13
    | .bt2020, .full => some inverseBt2020Full12Prec13
    | _, _ => none
  else none

end Verif
