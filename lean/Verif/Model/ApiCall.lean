import Verif.Model.Support
import Verif.Model.Shuffle
import Verif.Model.Packed444

/-! What a public function does before the worker starts: it picks the worker
and fixes its compile-time constants.  `Call` has one constructor per worker;
its arguments are the const generics in the order of the source.  The workers
themselves are modelled in the files named in the comments. -/

namespace Verif

/-- A name as a list of characters. -/
abbrev Name := List Char

/-- `w!"ab"` is the name `['a', 'b']`. -/
macro:max "w!" s:str : term => do
  let cs := s.getString.toList.toArray.map fun c => Lean.Syntax.mkCharLit c
  `([$cs,*])

/-- The integer type a worker is instantiated with. -/
inductive Word
  | u8 | u16
deriving DecidableEq, Repr

/-- A call of a worker.  The generic `i16`/`i32` of the intermediate arithmetic
is not recorded: it is fixed by the bit depth in the workers' models. -/
inductive Call
  /-- `yuv_nv_p10_to_image_impl`, /repo/src/yuv_nv_p10_to_rgb.rs:487-577 (10-bit samples, 8-bit RGB). -/
  | nvP10ToRgb (ch : Channels) (o : NVOrder) (s : Sampling) (e : Endianness) (bp : BytesPacking)
  /-- `yuv_nv_p16_to_image_impl`, /repo/src/yuv_nv_p16_to_rgb16.rs:41-407. -/
  | nvP16ToRgb16 (ch : Channels) (o : NVOrder) (s : Sampling) (e : Endianness) (bp : BytesPacking)
      (d : Nat)
  /-- `yuv_nv12_to_rgbx`, /repo/src/yuv_nv_to_rgba.rs:1126-1183 (Model/NvToRgba.lean). -/
  | nvToRgb (o : NVOrder) (ch : Channels) (s : Sampling)
  /-- `rgbx_to_nv`, /repo/src/rgba_to_nv.rs:920-984 (Model/RgbaToYuv.lean). -/
  | rgbToNv (ch : Channels) (o : NVOrder) (s : Sampling)
  /-- `yuv_to_rgbx`, /repo/src/yuv_to_rgba.rs:765-781 (Model/YuvToRgba.lean). -/
  | yuvToRgb (ch : Channels) (s : Sampling)
  /-- `rgbx_to_yuv8`, /repo/src/rgba_to_yuv.rs:1030-1090 (Model/RgbaToYuv.lean). -/
  | rgbToYuv (ch : Channels) (s : Sampling)
  /-- `rgbx_to_yuv_ant`, /repo/src/rgb16_to_yuv_p16.rs:483-833 (Model/DeepFromRgba.lean); `p` is the
  fixed-point precision. -/
  | rgb16ToYuv16 (ch : Channels) (s : Sampling) (e : Endianness) (bp : BytesPacking) (d p : Nat)
  /-- `yuv_with_alpha_to_rgbx`, /repo/src/yuv_to_rgba_alpha.rs:163-469 (Model/AlphaToRgba.lean). -/
  | yuvAlphaToRgb (ch : Channels) (s : Sampling)
  /-- `rgbx_to_y`, /repo/src/rgb_to_y.rs:46-203 (Model/Gray.lean). -/
  | rgbToY (ch : Channels)
  /-- `y_to_rgbx`, /repo/src/y_to_rgb.rs:211-276 (Model/Gray.lean). -/
  | yToRgb (ch : Channels)
  /-- `yuv_p16_to_image_ant`, /repo/src/yuv_p10_rgba.rs:51-469 (Model/DeepToRgba.lean). -/
  | yuv16ToRgb (ch : Channels) (s : Sampling) (e : Endianness) (bp : BytesPacking) (d : Nat)
  /-- `rgbx_to_ycgco`, /repo/src/rgb_to_ycgco.rs:39-379 (Model/Ycgco.lean). -/
  | rgbToYcgco (ch : Channels) (s : Sampling)
  /-- `ycgco_ro_rgbx`, /repo/src/ycgco_to_rgb.rs:279-667 (Model/Ycgco.lean). -/
  | ycgcoToRgb (w : Word) (ch : Channels) (s : Sampling) (d : Nat)
  /-- `ycgco_ro_rgbx_alpha`, /repo/src/ycgco_to_rgb_alpha.rs:41-415 (Model/Ycgco.lean). -/
  | ycgcoAlphaToRgb (w : Word) (ch : Channels) (s : Sampling) (d : Nat)
  /-- `yuv_to_yuy2_impl`, /repo/src/yuv_to_yuy2.rs:156-507 (Model/Yuy2.lean). -/
  | yuvToYuy2 (w : Word) (s : Sampling) (o : Yuy2)
  /-- `yuy2_to_yuv_impl`, /repo/src/yuy2_to_yuv.rs:41-322 (Model/Yuy2.lean). -/
  | yuy2ToYuv (s : Sampling) (o : Yuy2)
  /-- `yuy2_to_yuv_impl`, /repo/src/yuy2_to_yuv_p16.rs:36-257 (Model/Yuy2.lean). -/
  | yuy2ToYuv16 (s : Sampling) (o : Yuy2)
  /-- `rgbx_to_gbr_impl`, /repo/src/to_identity.rs:268-354 (Model/Identity.lean). -/
  | rgbToGbr (w : Word) (ch : Channels) (d : Nat)
  /-- `gbr_to_rgbx_impl`, /repo/src/from_identity.rs:280-419 (Model/Identity.lean). -/
  | gbrToRgb (w : Word) (ch : Channels) (d : Nat)
  /-- `gbr_to_rgbx_f16_impl`, /repo/src/from_identity_f16.rs:307-456 (Model/F16.lean). -/
  | gbrToHalf (w : Word) (ch : Channels) (d : Nat)
  /-- `gbr_to_rgbx_alpha_f16_impl`, /repo/src/from_identity_alpha_f16.rs:341-491 (Model/F16.lean). -/
  | gbrAlphaToHalf (w : Word) (ch : Channels) (d : Nat)
  /-- `gbr_to_rgbx_alpha_impl`, /repo/src/from_identity_alpha.rs:44-166 (Model/Identity.lean). -/
  | gbrAlphaToRgb (w : Word) (ch : Channels) (d : Nat)
  /-- `rgbx_to_yuv_bi_planar_10_impl`, /repo/src/rgb_to_nv_p16.rs:61-441 (Model/DeepFromRgba.lean). -/
  | rgb16ToNv16 (ch : Channels) (o : NVOrder) (s : Sampling) (e : Endianness) (bp : BytesPacking)
      (d : Nat)
  /-- `yuy2_to_rgb_impl`, /repo/src/yuy2_to_rgb.rs:44-234 (Model/Yuy2.lean). -/
  | yuy2ToRgb (ch : Channels) (o : Yuy2)
  /-- `yuy2_to_rgb_impl_p16`, /repo/src/yuy2_to_rgb_p16.rs:40-175 (Model/Yuy2.lean); the bit depth is an
  argument of the public function. -/
  | yuy2ToRgb16 (ch : Channels) (o : Yuy2)
  /-- `rgbx_to_sharp_yuv`, /repo/src/sharpyuv/sharp_rgba_to_yuv.rs:314-582 (Model/Sharp.lean). -/
  | rgbToSharp (ch : Channels) (s : Sampling)
  /-- `yuv400_p16_to_rgbx_impl`, /repo/src/y_p16_to_rgb16.rs:121-227 (Model/Gray.lean): the const generic
  depth and the depth passed as an argument. -/
  | y16ToRgb16 (ch : Channels) (e : Endianness) (bp : BytesPacking) (d dArg : Nat)
  /-- `yuv400_p16_with_alpha_to_rgbx`, /repo/src/y_p16_with_alpha_to_rgb16.rs:39-141 (Model/Gray.lean). -/
  | y16AlphaToRgb16 (ch : Channels) (e : Endianness) (bp : BytesPacking) (dArg : Nat)
  /-- `y_with_alpha_to_rgbx`, /repo/src/y_with_alpha_to_rgb.rs:149-260 (Model/Gray.lean). -/
  | yAlphaToRgb (w : Word) (ch : Channels) (d : Nat)
  /-- `yuv_p16_to_image_alpha_ant`, /repo/src/yuv_p16_rgba_alpha.rs:45-420 (Model/AlphaToRgba.lean). -/
  | yuv16AlphaToRgb (ch : Channels) (s : Sampling) (e : Endianness) (bp : BytesPacking) (d : Nat)
  /-- `yuv_p16_to_image_alpha_ant`, /repo/src/yuv_p16_rgba16_alpha.rs:45-448 (Model/AlphaToRgba.lean). -/
  | yuv16AlphaToRgb16 (ch : Channels) (s : Sampling) (e : Endianness) (bp : BytesPacking) (d : Nat)
  /-- `yuv_p16_to_image_p16_ant`, /repo/src/yuv_p16_rgba_p16.rs:261-563 (Model/DeepToRgba.lean). -/
  | yuv16ToRgb16 (ch : Channels) (s : Sampling) (e : Endianness) (bp : BytesPacking) (d : Nat)
  /-- `yuv_p16_to_image_p16_ant`, /repo/src/yuv_p16_rgba_f16.rs:188-506 (Model/F16.lean). -/
  | yuv16ToHalf (ch : Channels) (s : Sampling) (e : Endianness) (bp : BytesPacking) (d : Nat)
  /-- `yuv_p16_to_image_p16_ant`, /repo/src/yuva_p16_rgba_f16.rs:186-524 (Model/F16.lean). -/
  | yuv16AlphaToHalf (ch : Channels) (s : Sampling) (e : Endianness) (bp : BytesPacking) (d : Nat)
  /-- `ar30_to_rgb8_impl`, /repo/src/ar30_rgb.rs:34-83 (Model/Shuffle.lean). -/
  | ar30ToRgb (f : Rgb30) (bo : ByteOrder30) (ch : Channels)
  /-- `convert_surface_to_f16`, /repo/src/f16_converter.rs:211-235 (Model/F16.lean): the sample type and
  the number of channels. -/
  | toHalf (w : Word) (cn : Nat)
  /-- `convert_f16_surface_to_unsigned`, /repo/src/f16_converter.rs:237-261 (Model/F16.lean). -/
  | fromHalf (w : Word) (cn : Nat)
  /-- `rgb_to_ar30_impl`, /repo/src/rgb_ar30.rs:296-333 (Model/Shuffle.lean). -/
  | rgbToAr30 (w : Word) (f : Rgb30) (bo : ByteOrder30) (ch : Channels) (d : Nat)
  /-- `shuffle_impl`, /repo/src/shuffle.rs:125-167 (Model/Shuffle.lean). -/
  | shuffle (w : Word) (src dst : Channels) (d : Nat)
  /-- `yuv_nv_p10_to_image_impl`, /repo/src/yuv_nv_p10_to_ar30.rs:435-507 (Model/Ar30.lean); `p` is the
  fixed-point precision; the byte order is an argument. -/
  | nv16ToAr30 (f : Rgb30) (o : NVOrder) (s : Sampling) (e : Endianness) (bp : BytesPacking)
      (d p : Nat)
  /-- `yuv_p16_to_image_ar30`, /repo/src/yuv_p16_ar30.rs:41-287 (Model/Ar30.lean). -/
  | yuv16ToAr30 (f : Rgb30) (bo : ByteOrder30) (s : Sampling) (e : Endianness) (bp : BytesPacking)
      (d : Nat)
  /-- `to_rdp_yuv`, /repo/src/rdp.rs:208-302 (Model/Packed444.lean). -/
  | rgbToRdp (ch : RdpChannels)
  /-- `rdp_yuv_to_rgb`, /repo/src/rdp.rs:330-403 (Model/Packed444.lean). -/
  | rdpToRgb (ch : RdpChannels)
  /-- `ayuv_to_rgb_launch`, /repo/src/ayuv_to_rgb.rs:222-286 (Model/Packed444.lean). -/
  | packed444ToRgb (ch : Channels) (f : Packed444)
deriving DecidableEq, Repr

/-- The body of a public function: one call, or a `match byte_order` with one
call for `Rgb30ByteOrder::Host` and one for `Rgb30ByteOrder::Network`
(e.g. /repo/src/yuv_p16_ar30.rs:319-336). -/
inductive ApiBody
  | call (c : Call)
  | byteOrder (host network : Call)
deriving DecidableEq, Repr

/-- A public function: its name and its body. -/
structure ApiRow where
  name : Name
  body : ApiBody
deriving DecidableEq, Repr

end Verif
