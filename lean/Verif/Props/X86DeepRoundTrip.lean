import Verif.Props.X86DeepEncode
import Verif.Props.X86Deep
/-!
# C95: 4:4:4 round trip of 10- to 16-bit images across x86 processors
-/
namespace Verif
open Spec X86

/-- The 4:4:4 encoding of an RGB(A) image on any processor: every sample is that of its pixel, in the
arithmetic of the scalar code. -/
theorem deep444_encoded (cpu : Cpu) (e : Endianness) (bp : BytesPacking) (d : Nat) (hd : Deep d)
    (ch : Channels) (i : Planar) (rgba : Buf) (stride : Nat) (rg : YuvRange) (m : Matrix)
    (ho : ¬ Overflows d rg m) (hi : GoodPlanar i .yuv444 65536)
    (hsrc : GoodDst rgba.length stride i.width i.height ch.count) (hb : Samples d rgba) :
    ∃ yuv, rgb16ToP16On cpu e bp d ch .yuv444 i rgba stride rg m = .ok yuv ∧
      (yuv.width = i.width ∧ yuv.height = i.height) ∧ GoodPlanar yuv .yuv444 65536 ∧
      ∀ x y, x < i.width → y < i.height →
        let px := pixelAt rgba stride ch.count x y
        nativeSample e bp d (Planar.Y yuv x y) = deepLuma d ch rg m px ∧
        nativeSample e bp d (Planar.U yuv .yuv444 x y) = deepCb d ch rg m [px] ∧
        nativeSample e bp d (Planar.V yuv .yuv444 x y) = deepCr d ch rg m [px] := by
  obtain ⟨yuv, e1, ⟨g1, g2, g3, g4, g5⟩, fy, fu, fv⟩ : ∃ yuv,
      rgb16ToP16On cpu e bp d ch .yuv444 i rgba stride rg m = .ok yuv ∧
      (yuv.width = i.width ∧ yuv.height = i.height ∧ yuv.yStride = i.yStride ∧
        yuv.uStride = i.uStride ∧ yuv.vStride = i.vStride) ∧
      FrameSpec yuv.y i.y i.yStride i.width i.height 1 (fun x y =>
        [wordOf e bp d (deepLuma d ch rg m (pixelAt rgba stride ch.count x y))]) ∧
      FrameSpec yuv.u i.u i.uStride (cover i.width (hdiv .yuv444)) (cover i.height (vdiv .yuv444)) 1
        (fun cx cy => [wordOf e bp d (deepCb d ch rg m
          (block rgba stride ch.count i.width i.height (hdiv .yuv444) (vdiv .yuv444) cx cy))]) ∧
      FrameSpec yuv.v i.v i.vStride (cover i.width (hdiv .yuv444)) (cover i.height (vdiv .yuv444)) 1
        (fun cx cy => [wordOf e bp d (deepCr d ch rg m
          (block rgba stride ch.count i.width i.height (hdiv .yuv444) (vdiv .yuv444) cx cy))]) := by
    by_cases hk : HasDeepKernel cpu d
    · obtain ⟨yuv, e1, h⟩ := c94_x86_deep_values_partial cpu e bp d hd hk ch .yuv444 (fun _ => by decide)
        i rgba stride rg m ho 65536 hi hsrc hb
      refine ⟨yuv, e1, h.geometry, h.y, frameRel_eq ⟨h.u.1, fun x y hx hy => ?_, h.u.2.2⟩,
        frameRel_eq ⟨h.v.1, fun x y hx hy => ?_, h.v.2.2⟩⟩
      · obtain ⟨c, e2, -, -, e3⟩ := h.u.2.1 x y hx hy
        rw [e2, e3 (by decide)]
      · obtain ⟨c, e2, -, -, e3⟩ := h.v.2.1 x y hx hy
        rw [e2, e3 (by decide)]
    · rw [c93_scalar cpu e bp d hd hk]
      obtain ⟨yuv, e1, hE⟩ := c30_encode_444 e bp d hd ch i rgba stride rg m ho 65536 hi hsrc hb noRel
        noEnc noEnc420 (noEnc_ok (s := .yuv444)) noEnc420_ok
      obtain ⟨fy, fu, fv⟩ := hE.exact
      exact ⟨yuv, e1, hE.geometry, fy, fu, fv⟩
  have c1 : ∀ n : Nat, 0 < n → cover n (hdiv .yuv444) = n := by
    intro n hn; simp only [cover, hdiv, Nat.div_one]; omega
  have c2 : ∀ n : Nat, 0 < n → cover n (vdiv .yuv444) = n := by
    intro n hn; simp only [cover, vdiv, Nat.div_one]; omega
  have hblk : ∀ x y, x < i.width → y < i.height →
      block rgba stride ch.count i.width i.height (hdiv .yuv444) (vdiv .yuv444) x y
        = [pixelAt rgba stride ch.count x y] := by
    intro x y hx hy
    simp only [hdiv, vdiv, block, blockCols_one hx, blockCols_one hy]
    rfl
  have hlt : ∀ x y, _ := fun x y => deepBlk_lt hd ch rg m ho hb stride x y
  rw [c1 _ hi.wpos, c2 _ hi.hpos] at fu fv
  have fu' : FrameSpec yuv.u i.u i.uStride i.width i.height 1 (fun cx cy =>
      [wordOf e bp d (deepCb d ch rg m [pixelAt rgba stride ch.count cx cy])]) :=
    ⟨fu.1, fun x y c hx hy hc => by
      rw [fu.2.1 x y c hx hy hc]; simp only [hblk x y hx hy], fu.2.2⟩
  have fv' : FrameSpec yuv.v i.v i.vStride i.width i.height 1 (fun cx cy =>
      [wordOf e bp d (deepCr d ch rg m [pixelAt rgba stride ch.count cx cy])]) :=
    ⟨fv.1, fun x y c hx hy hc => by
      rw [fv.2.1 x y c hx hy hc]; simp only [hblk x y hx hy], fv.2.2⟩
  refine ⟨yuv, e1, ⟨g1, g2⟩, ?_, fun x y hx hy => ?_⟩
  · constructor
    · rw [g1]; exact hi.wpos
    · rw [g2]; exact hi.hpos
    · rw [g1]; exact hi.w32
    · rw [g2]; exact hi.h32
    · rw [g1, g2, g3]
      exact ⟨hi.y.stride32, hi.y.cols_le, by rw [fy.1]; exact hi.y.full,
        frameSpec_bound fy hi.y.bound fun x y => wordOf_lt e bp hd (hlt x y).1⟩
    · rw [g1, g2, g4]
      exact ⟨hi.u.stride32, hi.u.cols_le, by rw [fu'.1]; exact hi.u.full,
        frameSpec_bound fu' hi.u.bound fun x y => wordOf_lt e bp hd (hlt x y).2.1⟩
    · rw [g1, g2, g5]
      exact ⟨hi.v.stride32, hi.v.cols_le, by rw [fv'.1]; exact hi.v.full,
        frameSpec_bound fv' hi.v.bound fun x y => wordOf_lt e bp hd (hlt x y).2.2⟩
  · obtain ⟨l1, l2, l3⟩ := hlt x y
    refine ⟨?_, ?_, ?_⟩
    · unfold Planar.Y
      rw [g3, frameSpec_at fy hx hy, native_wordOf e bp hd l1]
    · unfold Planar.U
      rw [g4]
      simp only [hdiv, vdiv, Nat.div_one]
      rw [frameSpec_at fu' hx hy, native_wordOf e bp hd l2]
    · unfold Planar.V
      rw [g5]
      simp only [hdiv, vdiv, Nat.div_one]
      rw [frameSpec_at fv' hx hy, native_wordOf e bp hd l3]

/-- Encoded luma is not below black. -/
theorem deepLuma_black {d : Nat} (hd : Deep d) (ch : Channels) (rg : YuvRange) (m : Matrix) (px : Buf) :
    (getYuvRange d rg).biasY ≤ deepLuma d ch rg m px := by
  have hw : ∀ d ∈ [10, 12, 14, 16], ∀ m ∈ allMatrix, ∀ rg ∈ allRange,
      0 ≤ (computedForward 15 d rg m).yr ∧ 0 ≤ (computedForward 15 d rg m).yg ∧
      0 ≤ (computedForward 15 d rg m).yb := by decide +kernel
  obtain ⟨h1, h2, h3⟩ := hw d (by rcases hd with rfl | rfl | rfl | rfl <;> simp) m (mem_allMatrix m) rg
    (mem_allRange rg)
  have es := c06_searchForward 15 d (by unfold Prec; omega) hd.depth rg m
  unfold deepLuma lumaVal encVal
  rw [es]
  generalize (red ch px) = r
  generalize (green ch px) = g
  generalize (blue ch px) = b
  have a1 := Int.mul_nonneg (Int.natCast_nonneg r) h1
  have a2 := Int.mul_nonneg (Int.natCast_nonneg g) h2
  have a3 := Int.mul_nonneg (Int.natCast_nonneg b) h3
  norm_num only
  omega

/-- What the vector decoders add to the tolerance: two code values where AVX2 or SSE4.1 use 16-bit
products, nothing elsewhere. -/
def vecSlack (cpu : Cpu) (d : Nat) : Nat :=
  if (cpu = .avx2 ∧ d = 10) ∨ (cpu = .sse41 ∧ d ≤ 12) then 2 else 0

theorem deepCpu_near (cpu : Cpu) {d : Nat} (hD : Deep d) (ch : Channels) (rg : YuvRange) (m : Matrix)
    {y u v : Nat} (h : LegalSamples d rg y u v) :
    DeepClose d (vecSlack cpu d) ch (deepCpu cpu d ch rg m y u v)
      (deepPixel (2 ^ 12 - 1) 13 13 d d ch rg m y u v) := by
  cases cpu with
  | plain => exact DeepClose.same ..
  | avx2 =>
    simp only [deepCpu, deepVec]
    by_cases h10 : d = 10
    · rw [if_pos h10, show vecSlack .avx2 d = 2 from if_pos (.inl ⟨rfl, h10⟩)]
      exact deepVec_close (.inl h10) rg m h ch
    · rw [if_neg h10, deepWide_eq hD rg m h ch]
      exact DeepClose.same ..
  | sse41 =>
    simp only [deepCpu, deepVec]
    by_cases h12 : d ≤ 12
    · rw [if_pos h12, show vecSlack .sse41 d = 2 from if_pos (.inr ⟨rfl, h12⟩)]
      exact deepVec_close (by rcases hD with h | h | h | h <;> omega) rg m h ch
    · rw [if_neg h12]
      exact DeepClose.same ..

/-- C95: an RGB(A) image of 10 to 16 bits encoded to 4:4:4 on any x86 processor and decoded on any
other, in whatever byte order, packing, channel orders and strides, comes back with red and blue
within `tolRB` (2, 3, 6, 20) and green within `tolG` (1, 2, 5, 16) of the original, two code values
more if the decoding processor uses the 16-bit kernels (`vecSlack`: AVX2 at 10 bits, SSE4.1 at 10 and
12). -/
theorem c95_round_trip (enc dec : Cpu) (e : Endianness) (bp : BytesPacking) (d : Nat) (hd : Deep d)
    (ch ch' : Channels) (i : Planar) (rgba dst : Buf) (stride stride' : Nat) (rg : YuvRange)
    (m : Matrix) (ho : ¬ Overflows d rg m) (hi : GoodPlanar i .yuv444 65536)
    (hsrc : GoodDst rgba.length stride i.width i.height ch.count)
    (hb : Samples d rgba) (hdst : GoodDst dst.length stride' i.width i.height ch'.count) :
    ∃ yuv out, rgb16ToP16On enc e bp d ch .yuv444 i rgba stride rg m = .ok yuv ∧
      p16ToRgb16On dec e bp d ch' .yuv444 yuv dst stride' rg m = .ok out ∧
      ∀ x y, x < i.width → y < i.height →
        let px := pixelAt rgba stride ch.count x y
        let tRB := tolRB d + vecSlack dec d
        let tG := tolG d + vecSlack dec d
        ∃ r g b : Nat, pixelAt out stride' ch'.count x y = layout ch' r g b (2 ^ d - 1) ∧
          (r ≤ red ch px + tRB ∧ red ch px ≤ r + tRB) ∧
          (g ≤ green ch px + tG ∧ green ch px ≤ g + tG) ∧
          (b ≤ blue ch px + tRB ∧ blue ch px ≤ b + tRB) := by
  obtain ⟨yuv, e1, ⟨g1, g2⟩, hgood, hs⟩ := deep444_encoded enc e bp d hd ch i rgba stride rg m ho hi hsrc hb
  rw [← g1, ← g2] at hdst
  obtain ⟨out, e2, hr⟩ := c83_deep_decode dec e bp d hd ch' .yuv444 yuv dst stride' rg m hgood hdst
  refine ⟨yuv, out, e1, e2, fun x y hx hy => ?_⟩
  intro px tRB tG
  obtain ⟨hY, hU, hV⟩ := hs x y hx hy
  have len : ∀ c y u v, (deepCpu c d ch' rg m y u v).length = ch'.count := by
    intro c y u v; unfold deepCpu; split <;> exact layout_length' ..
  obtain ⟨r1, gr1, b1⟩ : red ch px < 2 ^ d ∧ green ch px < 2 ^ d ∧ blue ch px < 2 ^ d :=
    comps_lt (Nat.two_pow_pos d) ch (mem_pixelAt hb)
  obtain ⟨l1, l2, l3⟩ := deepBlk_lt hd ch rg m ho hb stride x y
  obtain ⟨r, g, b, r', g', b', q1, q2, n1, n2, n3⟩ := deepCpu_near dec hd ch' rg m
    (y := deepLuma d ch rg m px) (u := deepCb d ch rg m [px]) (v := deepCr d ch rg m [px])
    ⟨deepLuma_black hd ch rg m px, l1, l2, l3⟩
  obtain ⟨r2, g2', b2, q3, m1, m2, m3⟩ := c48_round_trip (2 ^ 12 - 1) (.inl rfl) d hd ch' rg m ho _ _ _
    r1 gr1 b1
  have q4 : layout ch' r' g' b' (2 ^ d - 1) = layout ch' r2 g2' b2 (2 ^ d - 1) := by
    rw [← q2, ← q3]
    unfold deepLuma deepCb deepCr
    simp only [List.map_cons, List.map_nil, avgUp_one]
  have inj : r' = r2 ∧ g' = g2' ∧ b' = b2 := by
    cases ch' <;> simp_all [layout]
  obtain ⟨rfl, rfl, rfl⟩ := inj
  refine ⟨r, g, b, ?_, by omega, by omega, by omega⟩
  rw [frameSpec_pixel hr (x := x) (y := y) (g1 ▸ hx) (g2 ▸ hy) (len ..)]
  unfold deepCpuPixel
  rw [hY, hU, hV]
  exact q1

/-- A 2×1 12-bit case meeting the hypotheses. -/
example : ∃ i : Planar, i.width = 2 ∧ GoodPlanar i .yuv444 65536 ∧
    Samples 12 [4095, 0, 0, 1, 2, 3] ∧ GoodDst 6 6 2 1 3 ∧ ¬ Overflows 12 .full .bt601 :=
  ⟨⟨[0, 0, 5], 3, [0, 0], 2, [0, 0], 2, 2, 1⟩, rfl,
   { wpos := by decide, hpos := by decide, w32 := by unfold U32; decide, h32 := by unfold U32; decide
     y := ⟨by unfold U32; decide, by decide, by unfold FullRows; decide, by decide⟩
     u := ⟨by unfold U32; decide, by decide, by unfold FullRows; decide, by decide⟩
     v := ⟨by unfold U32; decide, by decide, by unfold FullRows; decide, by decide⟩ },
   by unfold Samples; decide, ⟨by unfold U32; decide, by decide, by unfold FullRows; decide, by decide⟩,
   by decide⟩

end Verif
