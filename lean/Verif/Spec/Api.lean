import Verif.Model.ApiCall
import Verif.Spec.Names

/-! The image layouts a call of a worker reads and writes, in the vocabulary of
Spec/Names.lean. -/

namespace Verif.Spec

/-- What a worker, called with these constants, converts.  `none`: the constants
contradict each other (a word type too narrow for the depth, or two different
depths). -/
def callMeaning : Call → Option Meaning
  | .nvP10ToRgb ch o s e bp => some ⟨.biplanar s o 10 e bp, .rgb ch (some 8), false⟩
  | .nvP16ToRgb16 ch o s e bp d => some ⟨.biplanar s o d e bp, .rgb ch (some d), false⟩
  | .nvToRgb o ch s => some ⟨.biplanar s o 8 .little .lsb, .rgb ch (some 8), false⟩
  | .rgbToNv ch o s => some ⟨.rgb ch (some 8), .biplanar s o 8 .little .lsb, false⟩
  | .yuvToRgb ch s => some ⟨.planar .yuv s (some 8) .little .lsb false, .rgb ch (some 8), false⟩
  | .rgbToYuv ch s => some ⟨.rgb ch (some 8), .planar .yuv s (some 8) .little .lsb false, false⟩
  | .rgb16ToYuv16 ch s e bp d _ =>
    some ⟨.rgb ch (some d), .planar .yuv s (some d) e bp false, false⟩
  | .yuvAlphaToRgb ch s =>
    some ⟨.planar .yuv s (some 8) .little .lsb true, .rgb ch (some 8), false⟩
  | .rgbToY ch => some ⟨.rgb ch (some 8), .gray 8 .little false, false⟩
  | .yToRgb ch => some ⟨.gray 8 .little false, .rgb ch (some 8), false⟩
  | .yuv16ToRgb ch s e bp d =>
    some ⟨.planar .yuv s (some d) e bp false, .rgb ch (some 8), false⟩
  | .rgbToYcgco ch s =>
    some ⟨.rgb ch (some 8), .planar .ycgco s (some 8) .little .lsb false, false⟩
  | .ycgcoToRgb w ch s d =>
    if w = (if d = 8 then .u8 else .u16) then
      some ⟨.planar .ycgco s (some d) .little .lsb false, .rgb ch (some d), false⟩
    else none
  | .ycgcoAlphaToRgb w ch s d =>
    if w = (if d = 8 then .u8 else .u16) then
      some ⟨.planar .ycgco s (some d) .little .lsb true, .rgb ch (some d), false⟩
    else none
  | .yuvToYuy2 w s o =>
    let d := if w = .u8 then some 8 else none
    some ⟨.planar .yuv s d .little .lsb false, .packed422 o d, false⟩
  | .yuy2ToYuv s o =>
    some ⟨.packed422 o (some 8), .planar .yuv s (some 8) .little .lsb false, false⟩
  | .yuy2ToYuv16 s o => some ⟨.packed422 o none, .planar .yuv s none .little .lsb false, false⟩
  | .rgbToGbr w ch d =>
    if w = (if d = 8 then .u8 else .u16) then some ⟨.rgb ch (some d), .gbr d false, false⟩
    else none
  | .gbrToRgb w ch d =>
    if w = (if d = 8 then .u8 else .u16) then some ⟨.gbr d false, .rgb ch (some d), false⟩
    else none
  | .gbrToHalf w ch d =>
    if w = (if d = 8 then .u8 else .u16) then some ⟨.gbr d false, .rgbHalf ch, false⟩ else none
  | .gbrAlphaToHalf w ch d =>
    if w = (if d = 8 then .u8 else .u16) then some ⟨.gbr d true, .rgbHalf ch, false⟩ else none
  | .gbrAlphaToRgb w ch d =>
    if w = (if d = 8 then .u8 else .u16) then some ⟨.gbr d true, .rgb ch (some d), false⟩
    else none
  | .rgb16ToNv16 ch o s e bp d => some ⟨.rgb ch (some d), .biplanar s o d e bp, false⟩
  | .yuy2ToRgb ch o => some ⟨.packed422 o (some 8), .rgb ch (some 8), false⟩
  | .yuy2ToRgb16 ch o => some ⟨.packed422 o none, .rgb ch none, false⟩
  | .rgbToSharp ch s => some ⟨.rgb ch (some 8), .planar .yuv s (some 8) .little .lsb false, true⟩
  | .y16ToRgb16 ch e bp d dArg =>
    if bp = .lsb ∧ d = dArg then some ⟨.gray d e false, .rgb ch (some d), false⟩ else none
  | .y16AlphaToRgb16 ch e bp d =>
    if bp = .lsb then some ⟨.gray d e true, .rgb ch (some d), false⟩ else none
  | .yAlphaToRgb w ch d =>
    if w = (if d = 8 then .u8 else .u16) then
      some ⟨.gray d .little true, .rgb ch (some d), false⟩
    else none
  | .yuv16AlphaToRgb ch s e bp d =>
    some ⟨.planar .yuv s (some d) e bp true, .rgb ch (some 8), false⟩
  | .yuv16AlphaToRgb16 ch s e bp d =>
    some ⟨.planar .yuv s (some d) e bp true, .rgb ch (some d), false⟩
  | .yuv16ToRgb16 ch s e bp d =>
    some ⟨.planar .yuv s (some d) e bp false, .rgb ch (some d), false⟩
  | .yuv16ToHalf ch s e bp d => some ⟨.planar .yuv s (some d) e bp false, .rgbHalf ch, false⟩
  | .yuv16AlphaToHalf ch s e bp d => some ⟨.planar .yuv s (some d) e bp true, .rgbHalf ch, false⟩
  | .ar30ToRgb f _ ch => some ⟨.rgb30 f, .rgb ch (some 8), false⟩
  | .toHalf w cn => some ⟨.words cn (w = .u16), .halves cn, false⟩
  | .fromHalf w cn => some ⟨.halves cn, .words cn (w = .u16), false⟩
  | .rgbToAr30 w f _ ch d =>
    if w = (if d = 8 then .u8 else .u16) then some ⟨.rgb ch (some d), .rgb30 f, false⟩ else none
  | .shuffle w src dst d =>
    if w = (if d = 8 then .u8 else .u16) then some ⟨.rgb src (some d), .rgb dst (some d), false⟩
    else none
  | .nv16ToAr30 f o s e bp d _ => some ⟨.biplanar s o d e bp, .rgb30 f, false⟩
  | .yuv16ToAr30 f _ s e bp d => some ⟨.planar .yuv s (some d) e bp false, .rgb30 f, false⟩
  | .rgbToRdp ch => some ⟨.rdpRgb ch, .planar .rdp .yuv444 (some 16) .little .lsb false, false⟩
  | .rdpToRgb ch => some ⟨.planar .rdp .yuv444 (some 16) .little .lsb false, .rdpRgb ch, false⟩
  | .packed444ToRgb ch f => some ⟨.packed444 f, .rgb ch (some 8), false⟩

/-- The 30-bit byte order a call is fixed to, if any. -/
def callOrder : Call → Option ByteOrder30
  | .ar30ToRgb _ bo _ => some bo
  | .rgbToAr30 _ _ bo _ _ => some bo
  | .yuv16ToAr30 _ bo _ _ _ _ => some bo
  | _ => none

/-- What a public function converts: for a `match byte_order`, each arm must use
the byte order it is selected by and both arms must convert the same layouts. -/
def bodyMeaning : ApiBody → Option Meaning
  | .call c => if callOrder c = none then callMeaning c else none
  | .byteOrder h n =>
    if callOrder h = some .host ∧ callOrder n = some .network ∧ callMeaning h = callMeaning n
    then callMeaning h else none

end Verif.Spec
