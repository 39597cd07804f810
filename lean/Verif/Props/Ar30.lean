import Verif.Spec.Ar30
import Verif.Model.Ar30
import Verif.Props.DeepDecode
import Verif.Props.Shuffle
import Verif.Props.Errors
import Verif.Lemmas.AlphaDecode
/-!
# C39: decoding to 30-bit RGB
-/
namespace Verif
open Spec

theorem saturate_lt (d : Nat) (n : Int) : saturate d n < 2 ^ d := by
  have := saturate_le d n
  have := Nat.two_pow_pos d
  omega

theorem ar30Comp_lt (d : Nat) (s : Int) : ar30Comp d s < 1024 := saturate_lt 10 _

theorem neBytes_length (e : HostOrder) (v : Nat) : (neBytes e v).length = 4 := by cases e <;> rfl

theorem qr_toNat (p d : Nat) (v : Int) :
    (qr p d v).toNat = saturate d (roundShift (2 ^ (p - 1) - 1) p v) := rfl

/-- What a pixel function with shift `k` and clamp at depth `d` stores. -/
theorem putAr30_ok {k d sh B : Nat} {ne : Nat → Nat} {t : InvCoef} {c : ChromaRange} {my mc : Int}
    (hf : Fits t my mc (2 ^ k))
    (hn : ∀ y u v, y < B → u < B → v < B → Near (ne y) (ne u) (ne v) c.biasY c.biasUv my mc)
    (h : HostOrder) (o : ByteOrder30) (l : Rgb30) (hsh : sh = k) :
    PutOk B 4 (putAr30 (qrshr k d) ne t c h o l) (fun y u v =>
      let q := fun s => saturate d (roundShift (2 ^ (sh - 1) - 1) sh s)
      neBytes h (l.pack h o (q (linR t c.biasY c.biasUv (ne y) (ne v)))
        (q (linG t c.biasY c.biasUv (ne y) (ne u) (ne v)))
        (q (linB t c.biasY c.biasUv (ne y) (ne u))))) := by
  subst hsh
  refine ⟨fun y u v b hy hu hv hb => ?_, fun _ _ _ => neBytes_length ..⟩
  unfold putAr30
  rw [decodeRow_ok (qrshr_QOk _ _) hf (hn y u v hy hu hv)]
  simp only [Outcome.bind_ok, decodePure]
  rw [store4_ok hb]
  rfl

/-- Packing three 10-bit components gives the pixel. -/
theorem pack_pixel (h : HostOrder) (o : ByteOrder30) (l : Rgb30) {r g b : Nat} (hr : r < 1024)
    (hg : g < 1024) (hb : b < 1024) : neBytes h (l.pack h o r g b) = pixel30 h o l r g b 3 := by
  rw [pack_eq]; exact c38_bytes h o l hr hg hb (by decide)

/-! ## Planar images -/

/-- The number of pixels of a row the converter writes: in 4:4:4 as many as fit in the strides of
the destination and of the planes, else the width. -/
def Spec.ar30Width (s : Sampling) (i : Planar) (stride : Nat) : Nat :=
  match s with
  | .yuv444 => min4 (stride / 4) i.yStride i.uStride i.vStride
  | _ => i.width

theorem ar30Row_eq (w : Nat) (put : Nat → Nat → Nat → Buf → Outcome Buf) (y u v row : Buf) :
    ar30HalvedRow w put put y u v row = halvedRow false w 4 put noSimd y u v row := rfl

theorem ar30Slice_eq (w : Nat) (put : Nat → Nat → Nat → Buf → Outcome Buf) (y u v row : Buf) :
    ar30HalvedSlice w put put y u v row = halvedSlice false w 4 put noSimd y u v row := rfl

theorem row_of_lt {l : Buf} {n t k : Nat} (h : t < k) (hk : k ≤ l.length / n) :
    (chunk n l t).length = n := by
  apply chunk_length
  have h1 : (t + 1) * n ≤ l.length := (Nat.mul_le_mul_right n (by omega)).trans (Nat.div_mul_le_self ..)
  rw [Nat.succ_mul] at h1
  exact h1

theorem min4_le (a b c d : Nat) : min4 a b c d ≤ a ∧ min4 a b c d ≤ b ∧ min4 a b c d ≤ c ∧
    min4 a b c d ≤ d := by unfold min4; omega

/-- The unsliced 4:4:4 loop decodes the image whose width is `ar30Width`. -/
theorem ar30_444_eq (put : Nat → Nat → Nat → Buf → Outcome Buf) (i : Planar) (rgba : Buf)
    (stride : Nat) : ar30Decode444 put i rgba stride
      = decode444 false 4 put noSimd { i with width := ar30Width .yuv444 i stride } rgba stride := by
  unfold ar30Decode444 decode444
  obtain ⟨k1, k2, k3, k4⟩ := min4_le (rgba.length / stride) (i.y.length / i.yStride)
    (i.u.length / i.uStride) (i.v.length / i.vStride)
  obtain ⟨w1, w2, w3, w4⟩ := min4_le (stride / 4) i.yStride i.uStride i.vStride
  refine eachChunk_congr ((Nat.mul_le_mul_right _ k1).trans (Nat.div_mul_le_self ..)) ?_
  intro t row ht hrow
  have ly := row_of_lt ht k2
  have lu := row_of_lt ht k3
  have lv := row_of_lt ht k4
  have hW : ar30Width .yuv444 i stride = min4 (stride / 4) i.yStride i.uStride i.vStride := rfl
  simp only [noSimd]
  rw [slice_take (by rw [ly, hW]; exact w2)]
  simp only [Outcome.bind_ok, rowSingles, if_neg (show ¬ (false = true ∧ _) from fun h => nomatch h.1)]
  rw [ly, lu, lv, hrow, List.length_take, ly, hW]
  generalize hw : min4 (stride / 4) i.yStride i.uStride i.vStride = w at *
  have e : min4 (stride / 4) (min w i.yStride) i.uStride i.vStride = w := by unfold min4 at *; omega
  rw [e]
  refine eachChunk_congr (by rw [hrow]; exact (Nat.mul_le_mul_right _ w1).trans (Nat.div_mul_le_self ..)) ?_
  intro j c hj _
  have : idx ((chunk i.yStride i.y t).take w) j = idx (chunk i.yStride i.y t) j := by
    unfold idx
    rw [List.getElem?_take_of_lt hj]
  rw [this]

theorem ar30_frame_eq (s : Sampling) (put : Nat → Nat → Nat → Buf → Outcome Buf) (i : Planar)
    (rgba : Buf) (stride : Nat) :
    (match s with
      | .yuv444 => ar30Decode444 put i rgba stride
      | .yuv422 => ar30Decode422 put put i rgba stride
      | .yuv420 => ar30Decode420 put put i rgba stride)
      = deepFrame false 4 put noSimd s { i with width := ar30Width s i stride } rgba stride := by
  cases s with
  | yuv444 => exact ar30_444_eq ..
  | yuv422 => rfl
  | yuv420 => rfl

theorem ar30Width_ge {i : Planar} {s : Sampling} {B stride : Nat} (hi : GoodPlanar i s B)
    (h : i.width * 4 ≤ stride) : i.width ≤ ar30Width s i stride ∧ ar30Width s i stride * 4 ≤ stride := by
  cases s with
  | yuv444 =>
      have h1 := hi.y.cols_le
      have h2 := hi.u.cols_le
      have h3 := hi.v.cols_le
      simp only [cover, hdiv] at h2 h3
      simp only [ar30Width, min4]; omega
  | yuv422 => exact ⟨Nat.le_refl _, h⟩
  | yuv420 => exact ⟨Nat.le_refl _, h⟩

/-- The same image with the wider rows is still good. -/
theorem Spec.GoodPlanar.widen {i : Planar} {s : Sampling} {B stride : Nat} (hi : GoodPlanar i s B)
    (h : i.width * 4 ≤ stride) : GoodPlanar { i with width := ar30Width s i stride } s B := by
  have hw := (ar30Width_ge hi h).1
  have hp := hi.wpos
  cases s with
  | yuv444 =>
      have e : ar30Width .yuv444 i stride = min4 (stride / 4) i.yStride i.uStride i.vStride := rfl
      obtain ⟨k1, k2, k3, k4⟩ := min4_le (stride / 4) i.yStride i.uStride i.vStride
      rw [← e] at k2 k3 k4
      have c : cover (ar30Width .yuv444 i stride) (hdiv .yuv444) = ar30Width .yuv444 i stride := by
        simp only [cover, hdiv]; omega
      refine ⟨?_, hi.hpos, ?_, hi.h32, ⟨hi.y.stride32, k2, hi.y.full, hi.y.bound⟩,
        ⟨hi.u.stride32, ?_, hi.u.full, hi.u.bound⟩, ⟨hi.v.stride32, ?_, hi.v.full, hi.v.bound⟩⟩
      · exact Nat.lt_of_lt_of_le hp hw
      · exact Nat.lt_of_le_of_lt k2 hi.y.stride32
      · show cover (ar30Width .yuv444 i stride) (hdiv .yuv444) ≤ _
        rw [c]; exact k3
      · show cover (ar30Width .yuv444 i stride) (hdiv .yuv444) ≤ _
        rw [c]; exact k4
  | yuv422 => exact hi
  | yuv420 => exact hi

theorem ar30_cfg {d : Nat} (hd : d = 10 ∨ d = 12) : DecodeCfg 14 d := by
  rcases hd with rfl | rfl
  · exact Or.inr (Or.inr ⟨rfl, Or.inr (Or.inl rfl), by decide⟩)
  · exact Or.inr (Or.inr ⟨rfl, Or.inr (Or.inr (Or.inl rfl)), by decide⟩)

theorem putAr30_10 (h : HostOrder) (o : ByteOrder30) (l : Rgb30) (rg : YuvRange) (m : Matrix) :
    PutOk (2 ^ 10) 4 (putAr30 (qrshr 14 10) (fun v => toNe .little .lsb v (16 - 10))
        (searchInverse 14 10 rg m) (getYuvRange 10 rg) h o l)
      (fun y u v => ar30Pixel h o l 10 rg m y u v) := by
  have e : ∀ v, toNe .little .lsb v (16 - 10) = v := fun _ => rfl
  have := putAr30_ok (k := 14) (d := 10) (ne := fun v => toNe .little .lsb v (16 - 10)) (B := 2 ^ 10)
    (c := getYuvRange 10 rg) (fits_search (ar30_cfg (Or.inl rfl)) rg m)
    (fun y u v hy hu hv => near_of_lt (by decide) rg hy hu hv) h o l rfl
  simp only [e] at this
  refine ⟨fun y u v c hy hu hv hc => (this.ok y u v c hy hu hv hc).trans ?_,
    fun _ _ _ => pixel30_length ..⟩
  exact congrArg Outcome.ok (pack_pixel h o l (saturate_lt 10 _) (saturate_lt 10 _) (saturate_lt 10 _))

/-- C39 for 10-bit planar images: every sampling, both byte orders and both channel orders.  The
converter succeeds; in 4:2:0 and 4:2:2 exactly the `width × height` pixels are written, in 4:4:4 the
rows are written to the end of the shortest stride (`ar30Width`); each written pixel holds the three
components in their 10-bit fields and opaque alpha. -/
theorem c39_planar_decode (h : HostOrder) (o : ByteOrder30) (l : Rgb30) (s : Sampling) (i : Planar)
    (rgba : Buf) (stride : Nat) (rg : YuvRange) (m : Matrix) (hi : GoodPlanar i s (2 ^ 10))
    (hdst : GoodDst rgba.length stride i.width i.height 4) :
    ∃ out, p16ToAr30 x64 h o l .little .lsb 10 s i rgba stride rg m = .ok out ∧
      FrameSpec out rgba stride (ar30Width s i stride) i.height 4 (fun x y =>
        ar30Pixel h o l 10 rg m (Planar.Y i x y) (Planar.U i s x y) (Planar.V i s x y)) := by
  have hw := hi.widen hdst.cols_le
  have hle := (ar30Width_ge hi hdst.cols_le).2
  unfold p16ToAr30
  rw [hdst.accepted hi.wpos hi.hpos hi.w32 hi.h32 (by decide) (by decide), hi.accepted]
  simp only [Outcome.bind_ok]
  have hst : 0 < stride := by have := hi.wpos; have := hdst.cols_le; omega
  obtain ⟨out, e1, hr⟩ := (deepFrame_rel (guard := false) hw.rows (by decide) (putAr30_10 h o l rg m)
    (noSimd_ok (R := fun _ _ _ _ => False)) hle hdst.full).spec (by decide) hst hle hdst.full.1
  exact ⟨out, (ar30_frame_eq ..).trans e1, frameRel_or_eq hr fun _ _ _ _ _ h => h.resolve_right id⟩

/-- C39 for 10-bit planar 4:2:0 and 4:2:2: exactly the image is written. -/
theorem c39_planar_padding (s : Sampling) (i : Planar) (stride : Nat) (h : s ≠ .yuv444) :
    ar30Width s i stride = i.width := by cases s <;> first | rfl | exact absurd rfl h

/-! ## Bi-planar images -/

/-- No component of a sample triple rounds to more than 1023. -/
def Spec.NoSpill (d : Nat) (rg : YuvRange) (m : Matrix) (y u v : Nat) : Prop :=
  let t := searchInverse 14 d rg m
  let c := getYuvRange d rg
  let q := fun s => saturate d (roundShift (2 ^ (d + 3) - 1) (d + 4) s)
  q (linR t c.biasY c.biasUv y v) ≤ 1023 ∧ q (linG t c.biasY c.biasUv y u v) ≤ 1023 ∧
    q (linB t c.biasY c.biasUv y u) ≤ 1023

instance (d : Nat) (rg : YuvRange) (m : Matrix) (y u v : Nat) : Decidable (NoSpill d rg m y u v) :=
  inferInstanceAs (Decidable (_ ∧ _ ∧ _))

theorem noSpill_10 (rg : YuvRange) (m : Matrix) (y u v : Nat) : NoSpill 10 rg m y u v :=
  ⟨saturate_le .., saturate_le .., saturate_le ..⟩

theorem sat_of_le {d : Nat} (hd : 10 ≤ d) {n : Int} (h : saturate d n ≤ 1023) :
    saturate d n = saturate 10 n := by
  have : (2 : Int) ^ 10 ≤ 2 ^ d := pow_le_pow_right₀ (by decide) hd
  unfold saturate at *
  norm_num at *
  omega

theorem putAr30_nv {d : Nat} (hd : d = 10 ∨ d = 12) (e : Endianness) (h : HostOrder)
    (o : ByteOrder30) (l : Rgb30) (rg : YuvRange) (m : Matrix) :
    ∃ px, PutOk 65536 4 (putAr30 (qrshr (d + 4) d) (fun v => toNe e .msb v (16 - d))
        (searchInverse 14 d rg m) (getYuvRange d rg) h o l) px ∧
      ∀ y u v, NoSpill d rg m (toNe e .msb y (16 - d)) (toNe e .msb u (16 - d))
          (toNe e .msb v (16 - d)) →
        px y u v = ar30Pixel h o l d rg m (toNe e .msb y (16 - d)) (toNe e .msb u (16 - d))
          (toNe e .msb v (16 - d)) := by
  have hf : ∀ d ∈ [10, 12], ∀ m ∈ allMatrix, ∀ rg ∈ allRange,
      Fits (searchInverse 14 d rg m) (2 ^ d) (2 ^ (d - 1)) (2 ^ (d + 4)) := by decide +kernel
  have hf' := forall_mr (hf d (by rcases hd with rfl | rfl <;> decide)) m rg
  have h16 : d ≤ 16 := by omega
  refine ⟨_, putAr30_ok (k := d + 4) (d := d) (ne := fun v => toNe e .msb v (16 - d)) (B := 65536)
    (c := getYuvRange d rg) hf'
    (fun y u v hy hu hv => by
      refine near_of_lt (by omega) rg ?_ ?_ ?_ <;>
        rw [toNe_eq e .msb (by assumption)] <;>
        exact nativeSample_msb_lt e h16 (by assumption)) h o l rfl, ?_⟩
  rintro y u v ⟨h1, h2, h3⟩
  simp only [] at h1 h2 h3
  have h10 : 10 ≤ d := by omega
  have e4 : d + 4 - 1 = d + 3 := by omega
  simp only [e4]
  rw [pack_pixel h o l (by omega) (by omega) (by omega), sat_of_le h10 h1, sat_of_le h10 h2,
    sat_of_le h10 h3]
  rfl

theorem ar30_nv_frame {d : Nat} (hd : d = 10 ∨ d = 12) (h : HostOrder) (ob : ByteOrder30) (l : Rgb30)
    (o : NVOrder) (e : Endianness) (s : Sampling) (hr : RowHandlerNV) (i : BiPlanar) (rgba : Buf)
    (stride : Nat) (rg : YuvRange) (m : Matrix) (hi : GoodBiPlanar i s 65536)
    (hdst : GoodDst rgba.length stride i.width i.height 4) (R : Nat → Nat → Nat → Buf → Prop)
    (hh : hr.Ok 65536 4 i.width (hdiv s) o.uPos o.vPos R) :
    ∃ out, nvP16ToAr30 x64 h ob l o e .msb d (d + 4) s hr i rgba stride rg m = .ok out ∧
      FrameRel out rgba stride i.width i.height 4 (fun x y p =>
        let Y := nativeSample e .msb d (BiPlanar.Y i x y)
        let U := nativeSample e .msb d (BiPlanar.U i s o x y)
        let V := nativeSample e .msb d (BiPlanar.V i s o x y)
        (NoSpill d rg m Y U V → p = ar30Pixel h ob l d rg m Y U V) ∨
        R (BiPlanar.Y i x y) (BiPlanar.U i s o x y) (BiPlanar.V i s o x y) p) := by
  obtain ⟨px, hp, hpx⟩ := putAr30_nv hd e h ob l rg m
  obtain ⟨out, e1, hr⟩ := nvDeep_spec (ch := .rgba) (guard := true) hi hdst hp hh
  refine ⟨out, e1, hr.1, fun x y hx hy => ?_, hr.2.2⟩
  obtain ⟨b1, b2, b3⟩ := bi_sample_lt (by decide) hi o x y
  refine (hr.2.1 x y hx hy).imp (fun hq => ?_) id
  intro hns
  have := hpx (BiPlanar.Y i x y) (BiPlanar.U i s o x y) (BiPlanar.V i s o x y)
  rw [toNe_eq e .msb b1, toNe_eq e .msb b2, toNe_eq e .msb b3] at this
  rw [← this hns]
  exact hq

/-- C39 for P010 and P210 (and 10-bit 4:4:4), either chroma order and byte order, any content and
any vector code: the converter succeeds, writes exactly the `width × height` pixels, each with the
components of its samples in their 10-bit fields, or what the vector code guarantees. -/
theorem c39_nv_decode (h : HostOrder) (ob : ByteOrder30) (l : Rgb30) (o : NVOrder) (e : Endianness)
    (s : Sampling) (hr : RowHandlerNV) (i : BiPlanar) (rgba : Buf) (stride : Nat) (rg : YuvRange)
    (m : Matrix) (hi : GoodBiPlanar i s 65536)
    (hdst : GoodDst rgba.length stride i.width i.height 4) (R : Nat → Nat → Nat → Buf → Prop)
    (hh : hr.Ok 65536 4 i.width (hdiv s) o.uPos o.vPos R) :
    ∃ out, nvP16ToAr30 x64 h ob l o e .msb 10 14 s hr i rgba stride rg m = .ok out ∧
      FrameRel out rgba stride i.width i.height 4 (fun x y p =>
        p = ar30Pixel h ob l 10 rg m (nativeSample e .msb 10 (BiPlanar.Y i x y))
          (nativeSample e .msb 10 (BiPlanar.U i s o x y))
          (nativeSample e .msb 10 (BiPlanar.V i s o x y)) ∨
        R (BiPlanar.Y i x y) (BiPlanar.U i s o x y) (BiPlanar.V i s o x y) p) := by
  obtain ⟨out, e1, hr⟩ := ar30_nv_frame (Or.inl rfl) h ob l o e s hr i rgba stride rg m hi hdst R hh
  exact ⟨out, e1, hr.1, fun x y hx hy => (hr.2.1 x y hx hy).imp (fun hq => hq (noSpill_10 ..)) id,
    hr.2.2⟩

/-- C39 for P010 and P210 without vector code. -/
theorem c39_nv_decode_exact (h : HostOrder) (ob : ByteOrder30) (l : Rgb30) (o : NVOrder)
    (e : Endianness) (s : Sampling) (i : BiPlanar) (rgba : Buf) (stride : Nat) (rg : YuvRange)
    (m : Matrix) (hi : GoodBiPlanar i s 65536)
    (hdst : GoodDst rgba.length stride i.width i.height 4) :
    ∃ out, nvP16ToAr30 x64 h ob l o e .msb 10 14 s noSimdNV i rgba stride rg m = .ok out ∧
      FrameSpec out rgba stride i.width i.height 4 (fun x y =>
        ar30Pixel h ob l 10 rg m (nativeSample e .msb 10 (BiPlanar.Y i x y))
          (nativeSample e .msb 10 (BiPlanar.U i s o x y))
          (nativeSample e .msb 10 (BiPlanar.V i s o x y))) := by
  obtain ⟨out, e1, hr⟩ := c39_nv_decode h ob l o e s noSimdNV i rgba stride rg m hi hdst
    (fun _ _ _ _ => False) noSimdNV_ok
  exact ⟨out, e1, frameRel_or_eq hr fun _ _ _ _ _ h => h.resolve_right id⟩

/-- C39 for P012 and P212, partial: the pixels none of whose components rounds to 1024 or more are
right.  Missing: the others, which spill into the neighbouring fields (`c39_p012_white`). -/
theorem c39_p012_partial (h : HostOrder) (ob : ByteOrder30) (l : Rgb30) (o : NVOrder)
    (e : Endianness) (s : Sampling) (i : BiPlanar) (rgba : Buf) (stride : Nat) (rg : YuvRange)
    (m : Matrix) (hi : GoodBiPlanar i s 65536)
    (hdst : GoodDst rgba.length stride i.width i.height 4) :
    ∃ out, nvP16ToAr30 x64 h ob l o e .msb 12 16 s noSimdNV i rgba stride rg m = .ok out ∧
      FrameRel out rgba stride i.width i.height 4 (fun x y p =>
        let Y := nativeSample e .msb 12 (BiPlanar.Y i x y)
        let U := nativeSample e .msb 12 (BiPlanar.U i s o x y)
        let V := nativeSample e .msb 12 (BiPlanar.V i s o x y)
        NoSpill 12 rg m Y U V → p = ar30Pixel h ob l 12 rg m Y U V) := by
  obtain ⟨out, e1, hr⟩ := ar30_nv_frame (Or.inr rfl) h ob l o e s noSimdNV i rgba stride rg m hi hdst
    (fun _ _ _ _ => False) noSimdNV_ok
  exact ⟨out, e1, hr.1, fun x y hx hy => (hr.2.1 x y hx hy).resolve_right id, hr.2.2⟩

/-! ## Closeness -/

/-- C39: every component is within `1/2 + 1/16` of a 10-bit code value of the exact ITU-R result
(divided by 4 at depth 12), saturated to `[0, 1023]`. -/
theorem c39_close {d : Nat} (hd : d = 10 ∨ d = 12) (rg : YuvRange) (m : Matrix) {y u v : Nat}
    (hy : y < 2 ^ d) (hu : u < 2 ^ d) (hv : v < 2 ^ d) :
    |(ar30R d rg m y v : Rat) - satQ 10 (exactR d rg m y u v / 2 ^ (d - 10))| ≤ 1 / 2 + 1 / 16 ∧
    |(ar30G d rg m y u v : Rat) - satQ 10 (exactG d rg m y u v / 2 ^ (d - 10))| ≤ 1 / 2 + 1 / 16 ∧
    |(ar30B d rg m y u : Rat) - satQ 10 (exactB d rg m y u v / 2 ^ (d - 10))| ≤ 1 / 2 + 1 / 16 := by
  obtain ⟨c1, c2, c3⟩ := sums_close (ar30_cfg hd) (by decide) rg m hy hu hv
  have key : ∀ (s : Int) (E : Rat), |(s : Rat) / 2 ^ 14 - E| ≤ 2 ^ d / 2 ^ 14 →
      |((ar30Comp d s : Nat) : Rat) - satQ 10 (E / 2 ^ (d - 10))| ≤ 1 / 2 + 1 / 16 := by
    intro s E hE
    refine saturate_close (k := d + 4) (by omega) (Or.inl rfl) ?_
    have e1 : (s : Rat) / 2 ^ (d + 4) - E / 2 ^ (d - 10) = ((s : Rat) / 2 ^ 14 - E) / 2 ^ (d - 10) := by
      rcases hd with rfl | rfl <;> norm_num <;> ring
    rw [e1, abs_div, abs_of_pos (show (0 : Rat) < 2 ^ (d - 10) by positivity),
      div_le_iff₀ (show (0 : Rat) < 2 ^ (d - 10) by positivity)]
    refine hE.trans ?_
    rcases hd with rfl | rfl <;> norm_num
  exact ⟨key _ _ c1, key _ _ c2, key _ _ c3⟩

/-! ## Where C39 fails -/

/-- A one-pixel 4:4:4 image in planes with two columns of padding. -/
def demoAr30 : Planar :=
  { y := [512, 940, 300], yStride := 3, u := [512, 512, 700], uStride := 3, v := [512, 512, 400]
    vStride := 3, width := 1, height := 1 }

theorem demoAr30_good : GoodPlanar demoAr30 .yuv444 (2 ^ 10) where
  wpos := by decide
  hpos := by decide
  w32 := by unfold U32; decide
  h32 := by unfold U32; decide
  y := ⟨by unfold U32; decide, by decide, by unfold FullRows; decide, by decide⟩
  u := ⟨by unfold U32; decide, by decide, by unfold FullRows; decide, by decide⟩
  v := ⟨by unfold U32; decide, by decide, by unfold FullRows; decide, by decide⟩

/-- C39 fails in 4:4:4: for a one-pixel image the eight padding bytes of the destination row are
overwritten. -/
theorem c39_444_padding_overwritten :
    p16ToAr30 x64 .little .host .ar30 .little .lsb 10 .yuv444 demoAr30 (List.replicate 12 7) 12
      .limited .bt709 = .ok [11, 46, 184, 224, 255, 255, 255, 255, 74, 156, 36, 234] ∧
    ar30Width .yuv444 demoAr30 12 = 3 := by decide +kernel

/-- Two 4:2:2 pixels with all samples equal to `a`. -/
def flat422 (a : Nat) : Planar :=
  { y := [a, a], yStride := 2, u := [a], uStride := 1, v := [a], vStride := 1, width := 2, height := 1 }

/-- C39: words beyond the 10 bits of the samples overflow the 32-bit arithmetic. -/
theorem c39_out_of_range_overflow :
    p16ToAr30 x64 .little .host .ar30 .little .lsb 10 .yuv422 (flat422 65535) (List.replicate 8 7) 8
      .limited .bt709 = .panic := by decide +kernel

/-- C39 fails at 12 bits planar: two equal mid-gray pixels come out different (the first white, the
second black with a wrong alpha), and neither is gray. -/
theorem c39_planar_12bit_wrong :
    p16ToAr30 x64 .little .host .ar30 .little .lsb 12 .yuv422 (flat422 2048) (List.replicate 8 7) 8
      .full .bt709 = .ok [255, 255, 255, 255, 0, 8, 32, 192] ∧
    ar30Pixel .little .host .ar30 12 .full .bt709 2048 2048 2048 = [0, 2, 8, 224] := by
  decide +kernel

/-- One 4:2:2 pixel with full-range 12-bit luma `a` (in the high bits) and neutral chroma. -/
def flatP212 (a : Nat) : BiPlanar :=
  { y := [a], yStride := 1, uv := [32768, 32768], uvStride := 2, width := 1, height := 1 }

theorem flatP212_good : GoodBiPlanar (flatP212 65520) .yuv422 65536 where
  wpos := by decide
  hpos := by decide
  w32 := by unfold U32; decide
  h32 := by unfold U32; decide
  y := ⟨by unfold U32; decide, by decide, ⟨Nat.le_refl _, by decide⟩, by decide⟩
  uvStride32 := by unfold U32; decide
  uvStride := by decide
  uvLen := by decide
  uvBound := by decide

/-- C39 fails for P212: full-range white rounds to 1024, whose bit falls into the neighbouring
field; the pixel is nearly black. -/
theorem c39_p012_white :
    nvP16ToAr30 x64 .little .host .ar30 .uv .little .msb 12 16 .yuv422 noSimdNV (flatP212 65520)
      (List.replicate 4 7) 4 .full .bt709 = .ok [0, 4, 16, 192] ∧
    ar30Pixel .little .host .ar30 12 .full .bt709 4095 2048 2048 = [255, 255, 255, 255] ∧
    ¬ NoSpill 12 .full .bt709 4095 2048 2048 := by decide +kernel

/-- The premises of the theorems are met: a P212 pixel that does not spill, and P010 white. -/
example : NoSpill 12 .full .bt709 4093 2048 2048 ∧ NoSpill 12 .limited .bt601 1500 900 3000 := by
  decide +kernel

example : nvP16ToAr30 x64 .little .host .ar30 .uv .little .msb 10 14 .yuv422 noSimdNV
    (flatP212 65472) (List.replicate 4 7) 4 .full .bt709 = .ok [255, 255, 255, 255] := by
  decide +kernel

end Verif
