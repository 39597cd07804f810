import Verif.Model.X86Parts
import Verif.Model.X86DeepEncode
/-!
# The 8-bit encoders of the professional mode for x86

/repo/src/avx2/rgb_to_yuv_prof.rs, rgb_to_yuv420_prof.rs, rgb_to_nv_prof.rs, rgb_to_nv420_prof.rs and the
same files of /repo/src/sse, with the choice made by `RgbEncoderProfessional::default`,
`RgbEncoder420Professional::default` (/repo/src/rgba_to_yuv.rs:276-312, 532-569),
`SemiPlanarEncoderProfessional::default` and `SemiPlanar420EncoderProfessional::default`
(/repo/src/rgba_to_nv.rs:502-543, 245-310).  The feature `professional_mode` is on, `nightly_avx512` is
off: the `HAS_DOT` branches are not compiled.
-/
namespace Verif.X86

/-- Models `_mm_interleave_epi16`, /repo/src/sse/utils.rs:325-329. -/
def sseInterleave16 (a b : Reg) : Reg × Reg := (unpacklo 2 a b, unpackhi 2 a b)

/-- One register of 32-bit sums, shifted by `q`: /repo/src/avx2/avx2_utils.rs:1155-1170 and
/repo/src/sse/utils.rs:787-801. -/
def profSum (q : Nat) (bias : Int) (k : Int × Int × Int) (rg b : Reg) : Reg :=
  srli32 q (add32v (set1_32 bias) (add32v (madd16 rg (set1_32 (interleaved k.1 k.2.1)))
    (madd16 b (set1_32 k.2.2))))

/-- Models `_mm256_affine_dot`, /repo/src/avx2/avx2_utils.rs:1118-1172, on the interleaved registers its
callers make of the words `c`, /repo/src/avx2/rgb_to_yuv_prof.rs:107-116: one word per word. -/
def avx2ProfDot (q : Nat) (bias : Int) (k : Int × Int × Int) (c : Reg × Reg × Reg) : Reg :=
  let rg := avx2Interleave16 c.1 c.2.1
  let bz := avx2Interleave16 c.2.2 zero
  permute4x64 0xD8 (packus32 (profSum q bias k rg.1 bz.1) (profSum q bias k rg.2 bz.2))
/-- Models `_mm_affine_uv_dot`, /repo/src/sse/utils.rs:777-802, on the interleaved registers its callers
make of the words `c`, /repo/src/sse/rgb_to_yuv_prof.rs:97-106. -/
def sseProfDot (q : Nat) (bias : Int) (k : Int × Int × Int) (c : Reg × Reg × Reg) : Reg :=
  let rg := sseInterleave16 c.1 c.2.1
  let bz := sseInterleave16 c.2.2 zero
  packus32 (profSum q bias k rg.1 bz.1) (profSum q bias k rg.2 bz.2)

/-- The lower eight bytes of each lane as words: `_mm256_unpacklo_epi8(v, zero)`,
/repo/src/avx2/rgb_to_yuv_prof.rs:107-109. -/
def zextLo (c : Reg × Reg × Reg) : Reg × Reg × Reg :=
  (unpacklo 1 c.1 zero, unpacklo 1 c.2.1 zero, unpacklo 1 c.2.2 zero)
/-- The upper eight: /repo/src/avx2/rgb_to_yuv_prof.rs:118-120. -/
def zextHi (c : Reg × Reg × Reg) : Reg × Reg × Reg :=
  (unpackhi 1 c.1 zero, unpackhi 1 c.2.1 zero, unpackhi 1 c.2.2 zero)
/-- Sums of two neighbouring bytes: `avx_pairwise_avg_epi16_epi8_j(v, 1)`,
/repo/src/avx2/rgb_to_yuv_prof.rs:154-156, /repo/src/avx2/avx2_utils.rs:346-348. -/
def sumPairs (c : Reg × Reg × Reg) : Reg × Reg × Reg :=
  (maddubs c.1 (set1_8 1), maddubs c.2.1 (set1_8 1), maddubs c.2.2 (set1_8 1))

/-- `bias * (1 << q) + (1 << (q - 1)) - 1`, /repo/src/avx2/rgb_to_yuv_prof.rs:87-88, 92-98. -/
def profBias (q bias : Nat) : Int := (bias : Int) * 2 ^ q + (2 ^ (q - 1) - 1)

/-- One byte per pixel: /repo/src/avx2/rgb_to_yuv_prof.rs:107-128 (luma) and 131-150 (chroma). -/
def profBytes (dot : Nat → Int → Int × Int × Int → Reg × Reg × Reg → Reg) (bias : Nat)
    (k : Int × Int × Int) (c : Reg × Reg × Reg) : Reg :=
  packus16 (dot 15 (profBias 15 bias) k (zextLo c)) (dot 15 (profBias 15 bias) k (zextHi c))

/-- One byte per two pixels: /repo/src/avx2/rgb_to_yuv_prof.rs:154-168. -/
def avx2ProfPairs (bias : Nat) (k : Int × Int × Int) (c : Reg × Reg × Reg) : Reg :=
  permute4x64 0xD8 (packus16 (avx2ProfDot 16 (profBias 16 bias) k (sumPairs c))
    (avx2ProfDot 16 (profBias 16 bias) k (sumPairs c)))
/-- One byte per two pixels: /repo/src/sse/rgb_to_yuv_prof.rs:136-148. -/
def sseProfPairs (bias : Nat) (k : Int × Int × Int) (c : Reg × Reg × Reg) : Reg :=
  packus16 (sseProfDot 16 (profBias 16 bias) k (sumPairs c))
    (sseProfDot 16 (profBias 16 bias) k (sumPairs c))

/-- The professional step with AVX2: /repo/src/avx2/rgb_to_yuv_prof.rs:72-172 and the same function of
rgb_to_yuv420_prof.rs, rgb_to_nv_prof.rs, rgb_to_nv420_prof.rs. -/
def avx2Prof (ch : Channels) (rg : ChromaRange) (t : FwdCoef) : Part (Reg × Reg × Reg) where
  n := 32
  load := avx2Load ch
  luma := profBytes avx2ProfDot rg.biasY (kLuma t)
  cb := profBytes avx2ProfDot rg.biasUv (kCb t)
  cr := profBytes avx2ProfDot rg.biasUv (kCr t)
  avg := avgRows
  cbPairs := avx2ProfPairs rg.biasUv (kCb t)
  crPairs := avx2ProfPairs rg.biasUv (kCr t)
  inter := avx2Interleave2
  uvBuf := 64

/-- The professional step with SSE4.1: /repo/src/sse/rgb_to_yuv_prof.rs:66-152 and the same function of
rgb_to_yuv420_prof.rs, rgb_to_nv_prof.rs, rgb_to_nv420_prof.rs. -/
def sseProf (ch : Channels) (rg : ChromaRange) (t : FwdCoef) : Part (Reg × Reg × Reg) where
  n := 16
  load := sseLoad ch
  luma := profBytes sseProfDot rg.biasY (kLuma t)
  cb := profBytes sseProfDot rg.biasUv (kCb t)
  cr := profBytes sseProfDot rg.biasUv (kCr t)
  avg := avgRows
  cbPairs := sseProfPairs rg.biasUv (kCb t)
  crPairs := sseProfPairs rg.biasUv (kCr t)
  inter := sseInterleave2
  uvBuf := 32

/-- `rgbx_to_yuv8`, /repo/src/rgba_to_yuv.rs:1030-1090, in the professional mode, with the row encoders
`RgbEncoderProfessional::default` (:276-312) and `RgbEncoder420Professional::default` (:532-569) choose on
a processor of class `cpu`. -/
def rgbxToYuvProfOn (cpu : Cpu) (ch : Channels) (s : Sampling) (i : Planar) (rgba : Buf) (stride : Nat)
    (rg : YuvRange) (m : Matrix) : Outcome Planar :=
  let c := getYuvRange 8 rg
  let t := searchForward 15 8 rg m
  match cpu with
  | .avx2 => (avx2Prof ch c t).toYuv .professional ch s i rgba stride rg m
  | .sse41 => (sseProf ch c t).toYuv .professional ch s i rgba stride rg m
  | .plain => rgbxToYuv x64 .professional ch s noEnc noEnc420 i rgba stride rg m

/-- `rgbx_to_nv`, /repo/src/rgba_to_nv.rs:920-984, in the professional mode, with the row encoders
`SemiPlanarEncoderProfessional::default` (:502-543) and `SemiPlanar420EncoderProfessional::default`
(:245-310) choose on a processor of class `cpu`. -/
def rgbxToNvProfOn (cpu : Cpu) (od : NVOrder) (ch : Channels) (s : Sampling) (i : BiPlanar) (rgba : Buf)
    (stride : Nat) (rg : YuvRange) (m : Matrix) : Outcome BiPlanar :=
  let c := getYuvRange 8 rg
  let t := searchForward 15 8 rg m
  match cpu with
  | .avx2 => (avx2Prof ch c t).toNv .professional od ch s i rgba stride rg m
  | .sse41 => (sseProf ch c t).toNv .professional od ch s i rgba stride rg m
  | .plain => rgbxToNv x64 .professional od ch s noEncNV noEncNV420 i rgba stride rg m

end Verif.X86
