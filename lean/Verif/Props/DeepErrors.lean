import Verif.Props.Errors
import Verif.Props.Alpha
import Verif.Model.DeepFromRgba
import Verif.Model.Ar30
/-!
# C05: what the high-bit-depth converters reject
-/
namespace Verif
open Spec

theorem NoErr.store4 {e : HostOrder} {v : Nat} {px : Buf} : NoErr (Verif.store4 e v px) := by
  unfold Verif.store4; no_err

theorem NoErr.putAr30 {k d : Nat} {ne : Nat → Nat} {t : InvCoef} {c : ChromaRange} {h : HostOrder}
    {o : ByteOrder30} {l : Rgb30} {y u v : Nat} {px : Buf} :
    NoErr (Verif.putAr30 (Verif.qrshr k d) ne t c h o l y u v px) := by
  have hq : ∀ v, NoErr (Verif.qrshr k d v) := fun _ => .qrshr
  unfold Verif.putAr30; no_err [NoErr.decodeRow hq, NoErr.store4]

section
variable {guard : Bool} {cn stride : Nat} {s : Sampling} {rgba : Buf}
  {put put1 : Nat → Nat → Nat → Buf → Outcome Buf} (hput : ∀ y u v c, NoErr (put y u v c))
include hput

theorem NoErr.deepFrame {i : Planar} {hd : RowHandler} (hh : ∀ y u v r, NoErr (hd y u v r)) :
    NoErr (Verif.deepFrame guard cn put hd s i rgba stride) := by
  cases s
  · show NoErr (decode420Halved ..)
    unfold decode420Halved; no_err [NoErr.halvedSlice hput hh]
  · exact .decode422 hput hh
  · exact .decode444 hput hh

theorem NoErr.nvDeepFrame {i : BiPlanar} {o : NVOrder} {hd : RowHandlerNV}
    (hh : ∀ y u r, NoErr (hd y u r)) :
    NoErr (Verif.nvDeepFrame guard cn o put hd s i rgba stride) := by
  cases s
  · show NoErr (nvDecode420Halved ..)
    unfold nvDecode420Halved; no_err [NoErr.nvHalvedSlice hput hh]
  · exact .nvDecode422 hput hh
  · exact .nvDecode444 hput hh

theorem NoErr.ar30HalvedSlice {w : Nat} {y u v row : Buf} (h1 : ∀ y u v c, NoErr (put1 y u v c)) :
    NoErr (Verif.ar30HalvedSlice w put put1 y u v row) := by
  unfold Verif.ar30HalvedSlice ar30HalvedRow; no_err [hput, h1]
end

section
variable {s : Sampling} {stride : Nat} {rg : YuvRange} {m : Matrix} {ch : Channels} {d : Nat}
  {e : Endianness} {bp : BytesPacking}

theorem planar_rejects {α : Type} {run : Outcome α} {i : Planar} {rgba : Buf} {cn : Nat}
    (hr : NoErr run) (hcn : 0 < cn ∧ cn ≤ 4) (hi : i.U32s) (hs : U32 stride) :
    (∃ e, (do i.check x64 s; checkRgba x64 rgba.length stride i.width i.height cn; run) = .err e) ↔
      ¬ (PlanarFits i s ∧ RgbFits rgba.length stride i.width i.height cn) := by
  obtain ⟨h1, h2, h3, h4, h5⟩ := id hi
  exact rejects_iff hr (c01_planar_check_no_panic i s hi) (checkRgba_no_panic hs h4 h5 hcn.1 hcn.2)
    (c01_planar_check_iff i s hi) (c02_rgba_check_iff _ _ _ _ _ hs h4 h5 hcn.1 hcn.2)

theorem biplanar_rejects {α : Type} {run : Outcome α} {i : BiPlanar} {rgba : Buf} {cn : Nat}
    (hr : NoErr run) (hcn : 0 < cn ∧ cn ≤ 4)
    (hi : U32 i.yStride ∧ U32 i.uvStride ∧ U32 i.width ∧ U32 i.height)
    (hw : U32 (s.chromaWidth i.width * 2)) (hs : U32 stride) :
    (∃ e, (do i.check x64 s; checkRgba x64 rgba.length stride i.width i.height cn; run) = .err e) ↔
      ¬ (BiPlanarFits i s ∧ RgbFits rgba.length stride i.width i.height cn) := by
  obtain ⟨h1, h2, h4, h5⟩ := id hi
  exact rejects_iff hr (biplanar_check_no_panic i s hi hw) (checkRgba_no_panic hs h4 h5 hcn.1 hcn.2)
    (c03_biplanar_check_iff i s hi hw) (c02_rgba_check_iff _ _ _ _ _ hs h4 h5 hcn.1 hcn.2)

theorem count_ok (ch : Channels) : 0 < ch.count ∧ ch.count ≤ 4 := by cases ch <;> decide

/-- C05, 10- to 16-bit planar decode to the same depth: an error is returned exactly when the image
or the destination does not fit. -/
theorem c05_p16_decode_rejects (hd : RowHandler) (hh : ∀ y u v r, NoErr (hd y u v r)) (i : Planar)
    (rgba : Buf) (hi : i.U32s) (hs : U32 stride) :
    (∃ x, p16ToRgb16 x64 e bp d ch s hd i rgba stride rg m = .err x) ↔
      ¬ (PlanarFits i s ∧ RgbFits rgba.length stride i.width i.height ch.count) :=
  planar_rejects (.deepFrame (fun _ _ _ _ => .putDeep fun _ => .qrshr) hh) (count_ok ch) hi hs

/-- C05, 10- and 12-bit planar decode to 8 bits. -/
theorem c05_p10_decode_rejects (hd : RowHandler) (hh : ∀ y u v r, NoErr (hd y u v r)) (i : Planar)
    (rgba : Buf) (hi : i.U32s) (hs : U32 stride) :
    (∃ x, p16ToRgb8 x64 e bp d ch s hd i rgba stride rg m = .err x) ↔
      ¬ (PlanarFits i s ∧ RgbFits rgba.length stride i.width i.height ch.count) :=
  planar_rejects (.deepFrame (fun _ _ _ _ => .putDeep fun _ => by unfold p10Qrshr; no_err) hh)
    (count_ok ch) hi hs

/-- C05, 10- to 14-bit planar decode to 30-bit RGB. -/
theorem c05_ar30_decode_rejects (h : HostOrder) (o : ByteOrder30) (l : Rgb30) (i : Planar)
    (rgba : Buf) (hi : i.U32s) (hs : U32 stride) :
    (∃ x, p16ToAr30 x64 h o l e bp d s i rgba stride rg m = .err x) ↔
      ¬ (PlanarFits i s ∧ RgbFits rgba.length stride i.width i.height 4) := by
  refine planar_rejects ?_ ⟨by decide, by decide⟩ hi hs
  have hp : ∀ b y u v c, NoErr (putAr30 (qrshr 14 b) (fun v => toNe e bp v (16 - d))
    (searchInverse 14 d rg m) (getYuvRange d rg) h o l y u v c) := fun _ _ _ _ _ => .putAr30
  cases s
  · show NoErr (ar30Decode420 ..)
    unfold ar30Decode420; no_err [NoErr.ar30HalvedSlice (hp 10) (hp d)]
  · show NoErr (ar30Decode422 ..)
    unfold ar30Decode422; no_err [NoErr.ar30HalvedSlice (hp 10) (hp d)]
  · show NoErr (ar30Decode444 ..)
    unfold ar30Decode444; no_err [hp d]

/-- C05, bi-planar decode of 10 to 16 bits to the same depth. -/
theorem c05_nv_p16_decode_rejects (o : NVOrder) (hd : RowHandlerNV) (hh : ∀ y u r, NoErr (hd y u r))
    (i : BiPlanar) (rgba : Buf)
    (hi : U32 i.yStride ∧ U32 i.uvStride ∧ U32 i.width ∧ U32 i.height)
    (hw : U32 (s.chromaWidth i.width * 2)) (hs : U32 stride) :
    (∃ x, nvP16ToRgb16 x64 o e bp d ch s hd i rgba stride rg m = .err x) ↔
      ¬ (BiPlanarFits i s ∧ RgbFits rgba.length stride i.width i.height ch.count) :=
  biplanar_rejects (.nvDeepFrame (fun _ _ _ _ => .putDeep fun _ => .qrshrN) hh) (count_ok ch) hi hw hs

/-- C05, bi-planar decode of 10 bits to 8 bits. -/
theorem c05_nv_p10_decode_rejects (md : Mode) (o : NVOrder) (hd : RowHandlerNV)
    (hh : ∀ y u r, NoErr (hd y u r)) (i : BiPlanar) (rgba : Buf)
    (hi : U32 i.yStride ∧ U32 i.uvStride ∧ U32 i.width ∧ U32 i.height)
    (hw : U32 (s.chromaWidth i.width * 2)) (hs : U32 stride) :
    (∃ x, nvP10ToRgb8 x64 md o e bp ch s hd i rgba stride rg m = .err x) ↔
      ¬ (BiPlanarFits i s ∧ RgbFits rgba.length stride i.width i.height ch.count) :=
  biplanar_rejects (.nvDeepFrame (fun _ _ _ _ => .putDeep fun _ => .qrshr) hh) (count_ok ch) hi hw hs

/-- C05, bi-planar decode of 10 and 12 bits to 30-bit RGB. -/
theorem c05_nv_ar30_decode_rejects (h : HostOrder) (ob : ByteOrder30) (l : Rgb30) (o : NVOrder)
    (k : Nat) (hd : RowHandlerNV) (hh : ∀ y u r, NoErr (hd y u r)) (i : BiPlanar) (rgba : Buf)
    (hi : U32 i.yStride ∧ U32 i.uvStride ∧ U32 i.width ∧ U32 i.height)
    (hw : U32 (s.chromaWidth i.width * 2)) (hs : U32 stride) :
    (∃ x, nvP16ToAr30 x64 h ob l o e bp d k s hd i rgba stride rg m = .err x) ↔
      ¬ (BiPlanarFits i s ∧ RgbFits rgba.length stride i.width i.height 4) :=
  biplanar_rejects (.nvDeepFrame (fun _ _ _ _ => .putAr30) hh) ⟨by decide, by decide⟩ hi hw hs

/-- C05, planar encode of 10 to 16 bits. -/
theorem c05_p16_encode_rejects (hd : RowEncoder) (hd2 : RowEncoder420)
    (hh : ∀ y u v r, NoErr (hd y u v r)) (hh2 : ∀ y0 y1 u v r0 r1, NoErr (hd2 y0 y1 u v r0 r1))
    (i : Planar) (rgba : Buf) (hi : i.U32s) (hs : U32 stride) :
    (∃ x, rgb16ToP16 x64 e bp d ch s hd hd2 i rgba stride rg m = .err x) ↔
      ¬ (PlanarFits i s ∧ RgbFits rgba.length stride i.width i.height ch.count) := by
  refine planar_rejects ?_ (count_ok ch) hi hs
  cases s
  · exact .bind (.encode420 linBlocks_noErr hh hh2) fun _ => .pure
  · exact .bind (.encode422 linBlocks_noErr hh) fun _ => .pure
  · exact .bind (.encode444 linBlocks_noErr hh) fun _ => .pure

/-- C05, bi-planar encode of 10 to 16 bits. -/
theorem c05_nv_p16_encode_rejects (o : NVOrder) (i : BiPlanar) (rgba : Buf)
    (hi : U32 i.yStride ∧ U32 i.uvStride ∧ U32 i.width ∧ U32 i.height)
    (hw : U32 (s.chromaWidth i.width * 2)) (hs : U32 stride) :
    (∃ x, rgb16ToNvP16 x64 o e bp d ch s i rgba stride rg m = .err x) ↔
      ¬ (BiPlanarFits i s ∧ RgbFits rgba.length stride i.width i.height ch.count) := by
  refine biplanar_rejects ?_ (count_ok ch) hi hw hs
  cases s
  · exact .bind (.nvEncode420 linBlocks_noErr (fun _ _ _ => .ok) fun _ _ _ _ _ => .ok) fun _ => .pure
  · exact .bind (.nvEncode422 linBlocks_noErr fun _ _ _ => .ok) fun _ => .pure
  · exact .bind (.nvEncode444 linBlocks_noErr fun _ _ _ => .ok) fun _ => .pure
end

/-- Refused and accepted cases exist. -/
example : (∃ x, p16ToAr30 x64 .little .host .ar30 .little .lsb 10 .yuv444
    ⟨[512], 1, [512], 1, [512], 1, 1, 1⟩ [0, 0, 0] 4 .full .bt709 = .err x) ∧
    (p16ToAr30 x64 .little .host .ar30 .little .lsb 10 .yuv444
      ⟨[512], 1, [512], 1, [512], 1, 1, 1⟩ [0, 0, 0, 0] 4 .full .bt709 = .ok [0, 2, 8, 224]) :=
  ⟨⟨_, rfl⟩, by decide +kernel⟩

end Verif
