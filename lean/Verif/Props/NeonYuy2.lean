import Verif.Lemmas.NeonYuy2
import Verif.Props.X86Yuy2Unpack
/-!
# C120, C121, C122: packed 4:2:2 on 64-bit ARM

`yuvToYuy2Neon` and `yuy2ToYuvNeon` are the packers and the unpackers with the NEON kernels;
`yuvToYuy2On` and `yuy2ToYuvOn` those of the x86 builds, `.plain` being the portable code.
-/
namespace Verif
open Spec X86 Neon

variable {B B' : Nat}

/-! ## C120: packing from 4:2:2 and 4:2:0 -/

/-- C120: packing a planar 4:2:2 frame with NEON writes, for every pair, its two luma samples and its
chroma, and nothing else. -/
theorem c120_pack422 (t : Yuy2) (i : Planar) (d : Packed) (hi : GoodPlanar i .yuv422 B)
    (hd' : GoodPacked d B') (hw : i.width = d.width) (hh : i.height = d.height) :
    ∃ out, yuvToYuy2Neon .yuv422 t i d = .ok out ∧
      FrameSpec out d.yuy d.yuyStride (cover d.width 2) d.height 4 (planarQuad t i .yuv422) := by
  have e : cover i.width 2 = ceil2 i.width := by have := hi.wpos; unfold cover ceil2; omega
  exact c35_pack422 t i d hi hd' hw hh _ (by rw [e]; exact Neon.packer_ok422 (by simp) t _)

/-- C120 for planar 4:2:0. -/
theorem c120_pack420 (t : Yuy2) (i : Planar) (d : Packed) (hi : GoodPlanar i .yuv420 B)
    (hd' : GoodPacked d B') (hw : i.width = d.width) (hh : i.height = d.height) :
    ∃ out, yuvToYuy2Neon .yuv420 t i d = .ok out ∧
      FrameSpec out d.yuy d.yuyStride (cover d.width 2) d.height 4 (planarQuad t i .yuv420) := by
  have e : cover i.width 2 = ceil2 i.width := by have := hi.wpos; unfold cover ceil2; omega
  exact c35_pack420 t i d hi hd' hw hh _ (by rw [e]; exact Neon.packer_ok422 (by simp) t _)

/-- C120: the NEON build and every x86 build, portable code included, pack to the same bytes. -/
theorem c120_agree (cpu : Cpu) (s : Sampling) (hs : s = .yuv422 ∨ s = .yuv420) (t : Yuy2)
    (i : Planar) (d : Packed) (hi : GoodPlanar i s B) (hd' : GoodPacked d B')
    (hw : i.width = d.width) (hh : i.height = d.height) :
    yuvToYuy2Neon s t i d = yuvToYuy2On cpu s t i d := by
  rcases hs with rfl | rfl
  · obtain ⟨o, e, f⟩ := c120_pack422 t i d hi hd' hw hh
    obtain ⟨o', e', f'⟩ := c76_pack422 cpu t i d hi hd' hw hh
    rw [e, e', frameSpec_unique f f']
  · obtain ⟨o, e, f⟩ := c120_pack420 t i d hi hd' hw hh
    obtain ⟨o', e', f'⟩ := c76_pack420 cpu t i d hi hd' hw hh
    rw [e, e', frameSpec_unique f f']

/-! ## C121: packing from 4:4:4 -/

/-- What packing a planar 4:4:4 frame with NEON does, exactly. -/
theorem c121_pack444_exact (t : Yuy2) (i : Planar) (d : Packed)
    (hi : GoodPlanar i .yuv444 B) (hd' : GoodPacked d B') (hw : i.width = d.width)
    (hh : i.height = d.height) :
    ∃ out, yuvToYuy2Neon .yuv444 t i d = .ok out ∧
      FrameSpec out d.yuy d.yuyStride (cover d.width 2) d.height 4 (fun j y =>
        neonQuad444 t i (pixelAt d.yuy d.yuyStride 4 j y) j y) := by
  have e : cover d.width 2 = ceil2 d.width := by have := hd'.wpos; unfold cover ceil2; omega
  rw [e]
  refine pack_spec hd' ?_
  unfold yuvToYuy2Neon
  rw [yuvToYuy2_run hi.accepted hd'.accepted hw hh, ← hw, ← hh]
  exact neonPackRows444_rel hi.rows hd' hw hh

theorem neonPacked_pixel {t : Yuy2} {i : Planar} {d : Packed} {out : Buf}
    (hd' : GoodPacked d B') (hh : i.height = d.height)
    (f : FrameSpec out d.yuy d.yuyStride (cover d.width 2) d.height 4 (fun j y =>
        neonQuad444 t i (pixelAt d.yuy d.yuyStride 4 j y) j y)) {j y : Nat}
    (hj : j < cover d.width 2) (hy : y < i.height) :
    pixelAt out d.yuyStride 4 j y = neonQuad444 t i (pixelAt d.yuy d.yuyStride 4 j y) j y := by
  rw [hh] at hy
  refine frameSpec_pixel (f := fun j y => neonQuad444 t i (pixelAt d.yuy d.yuyStride 4 j y) j y) f hj
    hy ?_
  have h1 := fullRows_row hd'.full (r := y) (by omega)
  have h2 := hd'.stride
  have h3 : (pixelAt d.yuy d.yuyStride 4 j y).length = 4 := by
    simp only [pixelAt, List.length_take, List.length_drop]; omega
  unfold neonQuad444
  split
  · exact quad_length ..
  split
  · exact quad_length ..
  · exact h3

/-- C121: in frames of at most 16 columns every pair gets its two luma samples and the means of its
chroma samples.  Partial: wider frames, see below. -/
theorem c121_pack444_partial (t : Yuy2) (i : Planar) (d : Packed)
    (hi : GoodPlanar i .yuv444 B) (hd' : GoodPacked d B') (hw : i.width = d.width)
    (hh : i.height = d.height) (hsmall : i.width ≤ 16) :
    ∃ out, yuvToYuy2Neon .yuv444 t i d = .ok out ∧
      FrameSpec out d.yuy d.yuyStride (cover d.width 2) d.height 4 (planarQuad444 t i) := by
  obtain ⟨out, e, f⟩ := c121_pack444_exact t i d hi hd' hw hh
  refine ⟨out, e, frameSpec_congr f fun j y hj _ => ?_⟩
  unfold neonQuad444
  rw [if_neg (by omega), if_pos (.inl hsmall)]

/-- C121: in wide frames, too, the luma of every pair the vector code takes care of is right, and its
chroma is if the chroma of its block of columns is constant.  Partial: see below. -/
theorem c121_flat_chroma_partial (t : Yuy2) (i : Planar) (d : Packed)
    (hi : GoodPlanar i .yuv444 B) (hd' : GoodPacked d B') (hw : i.width = d.width)
    (hh : i.height = d.height) {r cb cr : Nat} (hr : r < i.height)
    (hu : ∀ x, x < i.width → Planar.U i .yuv444 x r = cb)
    (hv : ∀ x, x < i.width → Planar.V i .yuv444 x r = cr) :
    ∃ out, yuvToYuy2Neon .yuv444 t i d = .ok out ∧
      ∀ j, 2 * j < (i.width - 1) / 16 * 16 →
        pixelAt out d.yuyStride 4 j r = planarQuad444 t i j r := by
  obtain ⟨out, e, f⟩ := c121_pack444_exact t i d hi hd' hw hh
  refine ⟨out, e, fun j hj => ?_⟩
  rw [neonPacked_pixel hd' hh f (by unfold cover; omega) hr]
  have key : ∀ (c : Nat → Nat) (k : Nat), (∀ x, x < i.width → c x = k) → neonChroma444 i.width c j = k := by
    intro c k hc
    unfold neonChroma444 mean2
    split
    · rw [hc _ (by omega), hc _ (by omega)]; omega
    · rw [hc _ (by omega), hc _ (by omega)]; omega
  unfold neonQuad444 planarQuad444
  rw [if_pos hj, key _ _ hu, key _ _ hv, if_pos (by omega), if_pos (by omega), if_pos (by omega),
    hu _ (by omega), hu _ (by omega), hv _ (by omega), hv _ (by omega)]
  congr 1 <;> omega

/-- C121 fails in every frame of more than 16 columns: the chroma of pair `j` is not the mean of its own two
samples (columns `2 * j` and `2 * j + 1`) but of two that lie 16 columns apart (8 in the last block). -/
theorem c121_wrong_columns (t : Yuy2) (i : Planar) (d : Packed)
    (hi : GoodPlanar i .yuv444 B) (hd' : GoodPacked d B') (hw : i.width = d.width)
    (hh : i.height = d.height) :
    ∃ out, yuvToYuy2Neon .yuv444 t i d = .ok out ∧
      ∀ b k y, k < 16 → 32 * b + 32 < i.width → y < i.height →
        pixelAt out d.yuyStride 4 (16 * b + k) y
          = quad t (Planar.Y i (32 * b + 2 * k) y) (Planar.Y i (32 * b + 2 * k + 1) y)
              (mean2 (Planar.U i .yuv444 (32 * b + k) y) (Planar.U i .yuv444 (32 * b + k + 16) y))
              (mean2 (Planar.V i .yuv444 (32 * b + k) y) (Planar.V i .yuv444 (32 * b + k + 16) y)) := by
  obtain ⟨out, e, f⟩ := c121_pack444_exact t i d hi hd' hw hh
  refine ⟨out, e, fun b k y hk hb hy => ?_⟩
  rw [neonPacked_pixel hd' hh f (by unfold cover; omega) hy]
  unfold neonQuad444 neonChroma444
  rw [if_pos (by omega), if_pos (by omega), if_pos (by omega),
    show (16 * b + k) / 16 * 32 + (16 * b + k) % 16 = 32 * b + k by omega,
    show 2 * (16 * b + k) = 32 * b + 2 * k by omega]

/-- C121 fails in every frame of more than 16 columns whose width is not one more than a multiple of 16: the
pairs after the vector code keep whatever the destination held (the half pair at the end of an odd row
excepted). -/
theorem c121_unwritten (t : Yuy2) (i : Planar) (d : Packed)
    (hi : GoodPlanar i .yuv444 B) (hd' : GoodPacked d B') (hw : i.width = d.width)
    (hh : i.height = d.height) (h16 : 16 < i.width) :
    ∃ out, yuvToYuy2Neon .yuv444 t i d = .ok out ∧
      ∀ j y, (i.width - 1) / 16 * 16 ≤ 2 * j → 2 * j + 1 < i.width → y < i.height →
        pixelAt out d.yuyStride 4 j y = pixelAt d.yuy d.yuyStride 4 j y := by
  obtain ⟨out, e, f⟩ := c121_pack444_exact t i d hi hd' hw hh
  refine ⟨out, e, fun j y hj hj' hy => ?_⟩
  rw [neonPacked_pixel hd' hh f (by unfold cover; omega) hy]
  unfold neonQuad444
  rw [if_neg (by omega), if_neg (by omega)]

/-! ## C122: unpacking -/

/-- C122: for every input, also a bad one, the NEON unpackers do what the SSE4.1 ones do. -/
theorem c122_sse41 (s : Sampling) (t : Yuy2) (i : Planar) (d : Packed) :
    yuy2ToYuvNeon s t i d = yuy2ToYuvOn .sse41 s t i d := by
  unfold yuy2ToYuvNeon yuy2ToYuvOn
  rw [unpacker_eq]

/-- C122, partial: the 4:2:2 unpacker writes exactly the image, for widths up to 16 and for those that are
one more than a multiple of 16. -/
theorem c122_unpack422_partial (t : Yuy2) (i : Planar) (d : Packed)
    (hi : GoodPlanar i .yuv422 B) (hd' : GoodPacked d B') (hw : i.width = d.width)
    (hh : i.height = d.height) (hv : i.width % 2 = 1 → i.vStride = cover i.width 2)
    (hok : i.width ≤ 16 ∨ i.width % 16 = 1) :
    ∃ y u v, yuy2ToYuvNeon .yuv422 t i d = .ok (y, u, v) ∧
      FrameSpec y i.y i.yStride i.width i.height 1 (fun x r => [Packed.Y t d x r]) ∧
      FrameSpec u i.u i.uStride (cover i.width 2) i.height 1 (fun c r => [Packed.U t d (c * 2) r]) ∧
      FrameSpec v i.v i.vStride (cover i.width 2) i.height 1 (fun c r => [Packed.V t d (c * 2) r]) := by
  rw [c122_sse41]
  exact c78_unpack422_partial .sse41 t i d hi hd' hw hh hv (.inr hok)

/-- C122, partial: the same for planar 4:4:4. -/
theorem c122_unpack444_partial (t : Yuy2) (i : Planar) (d : Packed)
    (hi : GoodPlanar i .yuv444 B) (hd' : GoodPacked d B') (hw : i.width = d.width)
    (hh : i.height = d.height) (hv : i.width % 2 = 1 → i.vStride = i.width)
    (hok : i.width ≤ 16 ∨ i.width % 16 = 1) :
    ∃ y u v, yuy2ToYuvNeon .yuv444 t i d = .ok (y, u, v) ∧
      FrameSpec y i.y i.yStride i.width i.height 1 (fun x r => [Packed.Y t d x r]) ∧
      FrameSpec u i.u i.uStride i.width i.height 1 (fun x r => [Packed.U t d x r]) ∧
      FrameSpec v i.v i.vStride i.width i.height 1 (fun x r => [Packed.V t d x r]) := by
  rw [c122_sse41]
  exact c78_unpack444_partial .sse41 t i d hi hd' hw hh hv (.inr hok)

/-- C122: the columns of a row from the last multiple of 16 on are never written, when the width is even and
greater than 16. -/
theorem c122_unwritten (t : Yuy2) (s : Sampling) (i : Planar) (d : Packed)
    (hi : GoodPlanar i s B) (hd' : GoodPacked d B') (hw : i.width = d.width)
    (hh : i.height = d.height) (h16 : 16 < i.width) (hev : i.width % 2 = 0) :
    ∃ y u v, yuy2ToYuvNeon s t i d = .ok (y, u, v) ∧
      ∀ x r, (i.width - 1) / 16 * 16 ≤ x → x < i.width → r < i.height →
        at' y i.yStride x r = at' i.y i.yStride x r ∧
        (s ≠ .yuv420 → at' u i.uStride (x / hdiv s) r = at' i.u i.uStride (x / hdiv s) r ∧
          at' v i.vStride (x / hdiv s) r = at' i.v i.vStride (x / hdiv s) r) := by
  rw [c122_sse41]
  exact c78_unwritten .sse41 (by simp) t s i d hi hd' hw hh h16 hev

/-- C122: the chroma of a 4:2:0 image is that of the odd rows, where the portable code takes that of the
even ones. -/
theorem c122_420_chroma_row (t : Yuy2) (i : Planar) (d : Packed)
    (hi : GoodPlanar i .yuv420 B) (hd' : GoodPacked d B') (hw : i.width = d.width)
    (hh : i.height = d.height) (hev : i.width % 2 = 0) :
    ∃ y u v, yuy2ToYuvNeon .yuv420 t i d = .ok (y, u, v) ∧
      ∀ c r, 2 * c < (i.width - 1) / 16 * 16 → r < i.height / 2 →
        at' u i.uStride c r = Packed.U t d (2 * c) (2 * r + 1) ∧
        at' v i.vStride c r = Packed.V t d (2 * c) (2 * r + 1) := by
  rw [c122_sse41]
  obtain ⟨y, u, v, e, h⟩ := c78_420_chroma_row .sse41 t i d hi hd' hw hh hev
  exact ⟨y, u, v, e, fun c r h1 h2 => (h c r (by omega) h2).1 (by simp) h1⟩

/-! ## The hypotheses are met -/

example : yuvToYuy2Neon .yuv422 .vyuy wide422 wideYuy = yuvToYuy2On .plain .yuv422 .vyuy wide422 wideYuy ∧
    yuvToYuy2Neon .yuv420 .yuyv wide420 wideYuy2 = yuvToYuy2On .avx2 .yuv420 .yuyv wide420 wideYuy2 :=
  ⟨c120_agree .plain _ (.inl rfl) _ _ _ wide422_good wideYuy_good rfl rfl,
   c120_agree .avx2 _ (.inr rfl) _ _ _ wide420_good wideYuy2_good rfl rfl⟩

/-- A 66×1 4:4:4 frame whose left half has Cb 0 and whose right half has Cb 240, in every 32 columns. -/
def stripes444 : Planar :=
  { y := List.replicate 66 100, yStride := 66
    u := (List.range 66).map (fun x => if x % 32 < 16 then 0 else 240), uStride := 66
    v := List.replicate 66 128, vStride := 66, width := 66, height := 1 }

set_option maxRecDepth 4000 in
theorem stripes444_good : GoodPlanar stripes444 .yuv444 256 := by
  refine ⟨by decide, by decide, by unfold U32; decide, by unfold U32; decide, ?_, ?_, ?_⟩ <;>
  exact ⟨by unfold U32; decide, by decide, by unfold FullRows; decide, by decide⟩

/-- In that frame pair 0 should have Cb 0 and pair 8 Cb 240; both get the mean of the two, and pair 32 is
never written. -/
theorem c121_witness :
    planarQuad444 .yuyv stripes444 0 0 = [100, 0, 100, 128] ∧
    planarQuad444 .yuyv stripes444 8 0 = [100, 240, 100, 128] ∧
    ∃ out, yuvToYuy2Neon .yuv444 .yuyv stripes444 wideYuy = .ok out ∧
      pixelAt out 132 4 0 0 = [100, 120, 100, 128] ∧ pixelAt out 132 4 8 0 = [100, 120, 100, 128] ∧
      pixelAt out 132 4 32 0 = [0, 0, 0, 0] := by
  refine ⟨by decide +kernel, by decide +kernel, ?_⟩
  obtain ⟨out, e, h⟩ := c121_wrong_columns .yuyv stripes444 wideYuy stripes444_good wideYuy_good rfl rfl
  obtain ⟨out', e', h'⟩ := c121_unwritten .yuyv stripes444 wideYuy stripes444_good wideYuy_good rfl rfl
    (by decide)
  rw [e] at e'
  cases e'
  refine ⟨out, e, ?_, ?_, ?_⟩
  · have := h 0 0 0 (by decide) (by decide) (by decide)
    rw [show wideYuy.yuyStride = 132 from rfl] at this
    rw [this]; decide +kernel
  · have := h 0 8 0 (by decide) (by decide) (by decide)
    rw [show wideYuy.yuyStride = 132 from rfl] at this
    rw [this]; decide +kernel
  · have := h' 32 0 (by decide) (by decide) (by decide)
    rw [show wideYuy.yuyStride = 132 from rfl] at this
    rw [this]; decide +kernel

/-- The white frame of C77 comes out right where the vector code runs. -/
example : ∃ out, yuvToYuy2Neon .yuv444 .yuyv wide444 wideYuy = .ok out ∧
    pixelAt out 132 4 1 0 = [235, 128, 235, 128] := by
  have hc : ∀ x, x < 66 → (List.replicate 66 128).getD x 0 = 128 := by decide
  obtain ⟨out, e, h⟩ := c121_flat_chroma_partial .yuyv wide444 wideYuy wide444_good wideYuy_good rfl rfl
    (r := 0) (cb := 128) (cr := 128) (by decide)
    (fun x hx => by
      have h := hc x hx
      simp only [Planar.U, at', hdiv, vdiv, Nat.div_one, Nat.zero_mul, Nat.zero_add]; exact h)
    (fun x hx => by
      have h := hc x hx
      simp only [Planar.V, at', hdiv, vdiv, Nat.div_one, Nat.zero_mul, Nat.zero_add]; exact h)
  exact ⟨out, e, (h 1 (by decide)).trans (by decide +kernel)⟩

/-- A 17 columns wide frame is unpacked completely. -/
example : ∃ y u v, yuy2ToYuvNeon .yuv422 .vyuy blank422 deepYuy17 = .ok (y, u, v) ∧
    at' y 17 16 1 = Packed.Y .vyuy deepYuy17 16 1 := by
  obtain ⟨y, u, v, e, s1, _, _⟩ := c122_unpack422_partial .vyuy blank422 deepYuy17 blank422_good
    deepYuy17_good rfl rfl (fun _ => rfl) (.inr rfl)
  exact ⟨y, u, v, e, frameSpec_at1 s1 (by decide) (by decide)⟩

/-- The last two columns of an 18 columns wide frame are not written, and chroma is taken from the second
row. -/
theorem c122_witness :
    (∃ y u v, yuy2ToYuvNeon .yuv420 .yuyv blank420 deepYuy = .ok (y, u, v) ∧
      at' y 18 17 0 = 0 ∧ at' u 9 0 0 = 77) ∧
    Packed.Y .yuyv deepYuy 17 0 = 74 ∧ Packed.U .yuyv deepYuy 0 0 = 41 := by
  rw [c122_sse41]
  exact ⟨c78_witness.1, c78_witness.2.2, by decide⟩

end Verif
