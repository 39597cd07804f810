import Verif.Model.Gray
import Verif.Model.YuvToRgba
/-!
# Packed 4:4:4 with alpha and the RemoteFX transform

/repo/src/ayuv_to_rgb.rs and /repo/src/rdp.rs.
-/
namespace Verif

/-- `a as u16 * b as u16`: panics on overflow in a debug build. -/
def mul16 (a b : Nat) : Outcome Nat := if a * b < 65536 then .ok (a * b) else .panic

/-- `div_by_255(c as u16 * a as u16)` when premultiplying, the component itself otherwise. -/
def premulVal (pm : Bool) (c : Int) (a : Nat) : Outcome Int :=
  if pm then do
    let x ← mul16 (asU16 c) a
    let q ← divBy255 x
    return (q : Int)
  else .ok c

/-- One pixel with alpha: kernel, premultiplication and store.  /repo/src/yuv_to_rgba_alpha.rs:225-247
(repeated in 249-269, 273-296) and /repo/src/ayuv_to_rgb.rs:49-74 and 81-102, where the
subtractions are done in `i16`, which makes no difference on bytes. -/
def putAlpha (pm : Bool) (p : Nat) (t : InvCoef) (c : ChromaRange) (ch : Channels) (y u v a : Nat)
    (px : Buf) : Outcome Buf := do
  let (r, g, b) ← decodeRow (qrshr p 8) t c.biasY c.biasUv y u v
  let r ← premulVal pm r a
  let g ← premulVal pm g a
  let b ← premulVal pm b a
  storePix ch px (asU8 r) (asU8 g) (asU8 b) a

/-- Models `CbCrInverseTransform::cast::<i16>`, /repo/src/yuv_support.rs:81-92. -/
def InvCoef.castI16 (t : InvCoef) : InvCoef :=
  { y := asI16 t.y, cr := asI16 t.cr, cb := asI16 t.cb, g1 := asI16 t.g1, g2 := asI16 t.g2 }

/-- Inner loop of `cnv_exec!`, /repo/src/ayuv_to_rgb.rs:41-107. -/
def ayuvBody (pm : Bool) (f : Packed444) (t : InvCoef) (c : ChromaRange) (ch : Channels)
    (px : List Buf) (dst : Buf) : Outcome Buf := do
  let s := px.getD 0 []
  let y ← idx s f.yPos
  let u ← idx s f.uPos
  let v ← idx s f.vPos
  let a ← idx s f.aPos
  putAlpha pm 13 t c ch y u v a dst

/-- Models `ayuv_to_rgb_launch`, /repo/src/ayuv_to_rgb.rs:222-286, which the functions of that file
call.  `hd` stands for the vector executors, which replace the scalar one for the whole row. -/
def ayuvToRgbx (tg : Target) (f : Packed444) (ch : Channels) (hd : MapHandler) (i : Packed) (dst : Buf)
    (stride : Nat) (rg : YuvRange) (m : Matrix) (pm : Bool) : Outcome Buf := do
  checkRgba tg i.yuy.length i.yuyStride i.width i.height 4
  checkRgba tg dst.length stride i.width i.height ch.count
  mapFrame true i.width ch.count hd
    (ayuvBody pm f (searchInverse 13 8 rg m).castI16 (getYuvRange 8 rg) ch)
    [⟨i.yuy, i.yuyStride, 4, true⟩] dst stride

/-! ## RemoteFX -/

/-- Models `RdpChannels`, /repo/src/rdp.rs:39-46. -/
inductive RdpChannels
  | rgb | rgba | bgra | bgr | abgr | argb
deriving DecidableEq, Repr

/-- Models `get_channels_count`, /repo/src/rdp.rs:80-85. -/
def RdpChannels.count : RdpChannels → Nat
  | .rgb => 3 | .bgr => 3 | _ => 4
/-- Models `has_alpha`, /repo/src/rdp.rs:88-93. -/
def RdpChannels.hasAlpha : RdpChannels → Bool
  | .rgb => false | .bgr => false | _ => true
/-- Models `get_r_channel_offset`, /repo/src/rdp.rs:98-107. -/
def RdpChannels.rOff : RdpChannels → Nat
  | .rgb => 0 | .rgba => 0 | .bgra => 2 | .bgr => 2 | .abgr => 3 | .argb => 1
/-- Models `get_g_channel_offset`, /repo/src/rdp.rs:110-116. -/
def RdpChannels.gOff : RdpChannels → Nat
  | .rgb => 1 | .bgr => 1 | .rgba => 1 | .bgra => 1 | .abgr => 2 | .argb => 2
/-- Models `get_b_channel_offset`, /repo/src/rdp.rs:119-128. -/
def RdpChannels.bOff : RdpChannels → Nat
  | .rgb => 2 | .rgba => 2 | .bgra => 0 | .bgr => 0 | .abgr => 1 | .argb => 3
/-- Models `get_a_channel_offset`, /repo/src/rdp.rs:130-136. -/
def RdpChannels.aOff : RdpChannels → Nat
  | .rgb => 0 | .bgr => 0 | .rgba => 3 | .bgra => 3 | .abgr => 0 | .argb => 0

/-- `f32 as i32` within range: truncation towards zero. -/
def truncF (q : Rat) : Int := if q < 0 then -((-q).floor) else q.floor

/-- The encoder's coefficients, /repo/src/rdp.rs:228-250. -/
def rdpFwd : FwdCoef :=
  let k := fun q : Rat => truncF (fmul (rn32 q) 32768)
  let n := fun q : Rat => truncF (-(fmul (rn32 q) 32768))
  { yr := k (299 / 1000), yg := k (587 / 1000), yb := k (114 / 1000)
    cbR := n (168935 / 1000000), cbG := n (331665 / 1000000), cbB := k (50059 / 100000)
    crR := k (499813 / 1000000), crG := n (418531 / 1000000), crB := n (81282 / 1000000) }

/-- The decoder's coefficients, /repo/src/rdp.rs:350-363.  `g1` multiplies u, `g2` multiplies v. -/
def rdpInv : InvCoef :=
  let k := fun q : Rat => truncF (fmul (rn32 q) 65536)
  { y := 65536, cr := k (1402525 / 1000000), cb := k (1769905 / 1000000)
    g1 := k (343730 / 1000000), g2 := k (714401 / 1000000) }

/-- One encoded sample, /repo/src/rdp.rs:291-295: the weighted sum, shifted right by 10, minus `off`,
`as i16`; stored here as the 16-bit pattern. -/
def rdpVal (kr kg kb off : Int) (r g b : Nat) : Outcome Nat := do
  let x ← mul32 r kr
  let y ← mul32 g kg
  let s ← add32 x y
  let z ← mul32 b kb
  let s ← add32 s z
  let s ← sub32 (sar s 10) off
  return asU16 s

/-- Inner loop of the encoder for one plane, /repo/src/rdp.rs:277-298. -/
def toRdpBody (ch : RdpChannels) (kr kg kb off : Int) (px : List Buf) (c : Buf) : Outcome Buf := do
  let s := px.getD 0 []
  let r ← idx s ch.rOff
  let g ← idx s ch.gOff
  let b ← idx s ch.bOff
  let x ← rdpVal kr kg kb off r g b
  setIdx c 0 x

/-- Models `to_rdp_yuv`, /repo/src/rdp.rs:208-302, which the `rdp_*_to_yuv444` functions call.  The
planes hold `i16` values, here as 16-bit patterns.  The code walks the three planes and the pixels in
one zipped loop limited by `.take(width)`; as the planes do not influence each other each plane has
its own loop here, in which the other planes take part as unread sources.  `.take(width)` is
rendered by slicing the rows to the width, which cannot fail after the size checks.  `hy`, `hu`,
`hv` stand for what the vector code does to each plane. -/
def rgbxToRdp (tg : Target) (ch : RdpChannels) (hy hu hv : MapHandler) (i : Planar) (rgba : Buf)
    (stride : Nat) : Outcome Planar := do
  i.check tg .yuv444
  checkRgba tg rgba.length stride i.width i.height ch.count
  let px : Src := ⟨rgba, stride, ch.count, false⟩
  let ys : Src := ⟨i.y, i.yStride, 1, true⟩
  let us : Src := ⟨i.u, i.uStride, 1, true⟩
  let vs : Src := ⟨i.v, i.vStride, 1, true⟩
  let y ← mapFrame true i.width 1 hy (toRdpBody ch rdpFwd.yr rdpFwd.yg rdpFwd.yb 4096) [px, us, vs]
    i.y i.yStride
  let u ← mapFrame true i.width 1 hu (toRdpBody ch rdpFwd.cbR rdpFwd.cbG rdpFwd.cbB 0) [px, ys, vs]
    i.u i.uStride
  let v ← mapFrame true i.width 1 hv (toRdpBody ch rdpFwd.crR rdpFwd.crG rdpFwd.crB 0) [px, ys, us]
    i.v i.vStride
  return { i with y := y, u := u, v := v }

/-- Models the local `qrshr_n`, /repo/src/rdp.rs:325-328, with precision 21 and depth 8. -/
def rdpShift (x : Int) : Int := max (min (sar x 21) 255) 0

/-- One pixel of the decoder, /repo/src/rdp.rs:386-392: `y + 4096` is an `i16` addition. -/
def rdpDecode (y u v : Int) : Outcome (Int × Int × Int) := do
  let y1 ← chk16 (y + 4096)
  let yy ← mul32 y1 rdpInv.y
  let rm ← mul32 rdpInv.cr v
  let rs ← add32 yy rm
  let gm ← mul32 rdpInv.g2 v
  let gs ← sub32 yy gm
  let gn ← mul32 rdpInv.g1 u
  let gs ← sub32 gs gn
  let bm ← mul32 rdpInv.cb u
  let bs ← add32 yy bm
  return (rdpShift rs, rdpShift gs, rdpShift bs)

/-- The store, /repo/src/rdp.rs:394-399. -/
def storeRdp (ch : RdpChannels) (c : Buf) (r g b a : Nat) : Outcome Buf := do
  let c ← setIdx c ch.rOff r
  let c ← setIdx c ch.gOff g
  let c ← setIdx c ch.bOff b
  if ch.hasAlpha then setIdx c ch.aOff a else return c

/-- Inner loop of the decoder, /repo/src/rdp.rs:378-400. -/
def fromRdpBody (ch : RdpChannels) (px : List Buf) (c : Buf) : Outcome Buf := do
  let y ← idx (px.getD 0 []) 0
  let u ← idx (px.getD 1 []) 0
  let v ← idx (px.getD 2 []) 0
  let (r, g, b) ← rdpDecode (asI16 y) (asI16 u) (asI16 v)
  storeRdp ch c (asU8 r) (asU8 g) (asU8 b) 255

/-- Models `rdp_yuv_to_rgb`, /repo/src/rdp.rs:330-403, which the `rdp_yuv444_to_*` functions call;
`.take(width)` as in `rgbxToRdp`. -/
def rdpToRgbx (tg : Target) (ch : RdpChannels) (i : Planar) (rgba : Buf) (stride : Nat) :
    Outcome Buf := do
  i.check tg .yuv444
  checkRgba tg rgba.length stride i.width i.height ch.count
  mapFrame false i.width ch.count noMap (fromRdpBody ch)
    [⟨i.y, i.yStride, 1, true⟩, ⟨i.u, i.uStride, 1, false⟩, ⟨i.v, i.vStride, 1, false⟩] rgba stride

end Verif
