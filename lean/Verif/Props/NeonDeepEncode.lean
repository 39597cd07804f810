import Verif.Lemmas.NeonDeepEncode
import Verif.Props.X86DeepEncode
/-!
# C138, C139: RGB of 10 to 16 bits to planar YCbCr on 64-bit ARM processors
-/
namespace Verif
open Spec X86 Neon

/-! ## C138 -/

/-- The 16-bit arithmetic is used: the processor has rounding multiply-accumulate and the depth is 10. -/
abbrev usesRdm (rdm : Bool) (d : Nat) : Bool := rdm && decide (d = 10)

/-- The planes written: every sample is determined and nothing else changes. -/
structure NeonDeepEncoded (rdm : Bool) (e : Endianness) (bp : BytesPacking) (d : Nat) (ch : Channels)
    (s : Sampling) (rg : YuvRange) (m : Matrix) (rgba : Buf) (stride : Nat) (i out : Planar) : Prop where
  geometry : out.width = i.width ∧ out.height = i.height ∧ out.yStride = i.yStride ∧
    out.uStride = i.uStride ∧ out.vStride = i.vStride
  y : FrameSpec out.y i.y i.yStride i.width i.height 1 fun x y =>
    [wordOf e bp d (
      if Redone s i.width i.height x (y / 2) then deepLuma d ch rg m (pixelAt rgba stride ch.count x y)
      else neonDeepLuma (usesRdm rdm d) d ch rg m (pixelAt rgba stride ch.count x y))]
  u : FrameSpec out.u i.u i.uStride (cover i.width (hdiv s)) (cover i.height (vdiv s)) 1 fun cx cy =>
    let blk := block rgba stride ch.count i.width i.height (hdiv s) (vdiv s) cx cy
    [wordOf e bp d (
      if Redone s i.width i.height (2 * cx) cy then deepCb d ch rg m blk
      else neonDeepCb (usesRdm rdm d) d ch rg m blk)]
  v : FrameSpec out.v i.v i.vStride (cover i.width (hdiv s)) (cover i.height (vdiv s)) 1 fun cx cy =>
    let blk := block rgba stride ch.count i.width i.height (hdiv s) (vdiv s) cx cy
    [wordOf e bp d (
      if Redone s i.width i.height (2 * cx) cy then deepCr d ch rg m blk
      else neonDeepCr (usesRdm rdm d) d ch rg m blk)]

/-- C138: on 64-bit ARM processors, with or without rounding multiply-accumulate, encoding a good RGB(A)
buffer of 10 to 16 bits into a good planar image succeeds — no load or store of the vector code leaves its
slice or its scratch buffers, no loop diverges — and writes exactly the luma samples of the image and the
chroma samples covering it, whatever the width, the strides and the padding.  A luma sample is determined by
its pixel, a chroma sample by the pixels it covers.  In 4:2:0 images of odd width the portable code recomputes
the last column of every pair of rows, and must not overflow. -/
theorem c138_neon_deep_encode (rdm : Bool) (e : Endianness) (bp : BytesPacking) (d : Nat) (hd : Deep d)
    (ch : Channels) (s : Sampling) (i : Planar) (rgba : Buf) (stride : Nat)
    (rg : YuvRange) (m : Matrix) (ho : s = .yuv420 → i.width % 2 = 1 → ¬ Overflows d rg m) (D : Nat)
    (hi : GoodPlanar i s D) (hsrc : GoodDst rgba.length stride i.width i.height ch.count)
    (hb : Samples d rgba) :
    ∃ out, Neon.rgb16ToP16 rdm e bp d ch s i rgba stride rg m = .ok out ∧
      NeonDeepEncoded rdm e bp d ch s rg m rgba stride i out := by
  have hcn := X86.count_pos ch
  have hst : 0 < stride := Nat.lt_of_lt_of_le (Nat.mul_pos hi.wpos hcn) hsrc.cols_le
  obtain ⟨C, hK⟩ := encKernel_ok rdm e bp hd ch rg m
  have h1 := encDeepRow_vals hK s hi.wpos
  have h2 := encDeepRow420_vals hK hi.wpos
  have es := c06_searchForward 15 d (by unfold Prec; omega) hd.depth rg m
  have fin : ∀ o : Outcome (Buf × Buf × Buf),
      ExactPlanes s i
        (valsL (armL (usesRdm rdm d) (deepConf e bp d ch rg m))
          (fun px => wordOf e bp d (deepLuma d ch rg m px)) s ch.count i.width i.height rgba stride)
        (valsC (armBlk (usesRdm rdm d) (deepConf e bp d ch rg m) (kCb (computedForward 15 d rg m)))
          (fun l => wordOf e bp d (deepCb d ch rg m l)) s ch.count i.width i.height rgba stride)
        (valsC (armBlk (usesRdm rdm d) (deepConf e bp d ch rg m) (kCr (computedForward 15 d rg m)))
          (fun l => wordOf e bp d (deepCr d ch rg m l)) s ch.count i.width i.height rgba stride) o →
      ∃ out, (o >>= fun x => pure { i with y := x.1, u := x.2.1, v := x.2.2 }) = Outcome.ok out ∧
      NeonDeepEncoded rdm e bp d ch s rg m rgba stride i out := by
    intro o ⟨y, u, v, eo, ly, lu, lv⟩
    refine ⟨{ i with y, u, v }, by rw [eo]; rfl, ⟨rfl, rfl, rfl, rfl, rfl⟩, ?_, ?_, ?_⟩
    · refine frameRel_eq ⟨ly.1, fun x y hx hy => (ly.2.1 x y hx hy).trans ?_, ly.2.2⟩
      refine congrArg (fun a => [a]) ?_
      rw [valsL, apply_ite (wordOf e bp d), neonDeepLuma, es]
      rfl
    · rw [cover_hdiv hi.wpos, cover_vdiv hi.hpos]
      refine frameRel_eq ⟨lu.1, fun x y hx hy => (lu.2.1 x y hx hy).trans ?_, lu.2.2⟩
      refine congrArg (fun a => [a]) ?_
      rw [valsC, apply_ite (wordOf e bp d), neonDeepCb, es]
      rfl
    · rw [cover_hdiv hi.wpos, cover_vdiv hi.hpos]
      refine frameRel_eq ⟨lv.1, fun x y hx hy => (lv.2.1 x y hx hy).trans ?_, lv.2.2⟩
      refine congrArg (fun a => [a]) ?_
      rw [valsC, apply_ite (wordOf e bp d), neonDeepCr, es]
      rfl
  unfold Neon.rgb16ToP16 Verif.rgb16ToP16
  rw [hsrc.accepted hi.wpos hi.hpos hi.w32 hi.h32 hcn (X86.count_le ch), hi.accepted]
  simp only [Outcome.bind_ok]
  cases s with
  | yuv444 => exact fin _ (vals444 h1 hst hi.rows hsrc.full hsrc.cols_le hb)
  | yuv422 => exact fin _ (vals422 h1 hst hi.rows hsrc.full hsrc.cols_le hb)
  | yuv420 =>
    exact fin _ (vals420 hcn h1 h2 (fun h => tailVals e bp hd ch rg m (ho rfl h)) hi.rows hsrc.full
      hsrc.cols_le hb)

example : GoodPlanar (demoDst16 7) .yuv420 65536 ∧ GoodDst demoRgb10.length 11 3 2 3 ∧
    Samples 10 demoRgb10 ∧ Deep 10 ∧ ((demoDst16 7).width % 2 = 1 → ¬ Overflows 10 .limited .bt601) :=
  ⟨demoDst16_good, ⟨by unfold U32; decide, by decide, by unfold FullRows; decide, by decide⟩, by
    unfold Samples; decide, .inl rfl, fun _ => by decide⟩

/-! ## C139: the values -/

/-- Configurations where the limits the vector code puts on chroma cut values the matrix produces. -/
def CutsChroma (d : Nat) (rg : YuvRange) (m : Matrix) : Prop :=
  d = 16 ∧ rg = .limited ∧ (m = .bt709 ∨ m = .bt2020)
instance (d : Nat) (rg : YuvRange) (m : Matrix) : Decidable (CutsChroma d rg m) := by
  unfold CutsChroma; infer_instance

/-- C139, luma: without the 16-bit arithmetic luma is that of the portable code. -/
theorem c139_luma (d : Nat) (hd : Deep d) (ch : Channels) (rg : YuvRange) (m : Matrix)
    (ho : ¬ Overflows d rg m) (px : Buf) (hb : Samples d px) :
    neonDeepLuma false d ch rg m px = deepLuma d ch rg m px := by
  obtain ⟨h1, -, -⟩ := deepRows hd rg m ho
  have es := c06_searchForward 15 d (by unfold Prec; omega) hd.depth rg m
  have p2 : 0 < 2 ^ d := by positivity
  have e := sumWord_enc hd.le16 h1 (red_lt' p2 ch hb) (green_lt' p2 ch hb) (blue_lt' p2 ch hb)
  have lt := sumWord_lt (getYuvRange d rg).biasY ((computedForward 15 d rg m).yr,
    (computedForward 15 d rg m).yg, (computedForward 15 d rg m).yb) (red ch px) (green ch px) (blue ch px)
  unfold neonDeepLuma deepLuma lumaVal neonLumaOf
  rw [es]
  simp only [Bool.false_eq_true, if_false, neonComp]
  rw [← e, Int.toNat_natCast, Nat.mod_eq_of_lt lt]

/-- The values of chroma stay within its limits. -/
theorem chroma_limits {d : Nat} (hd : Deep d) (rg : YuvRange) (m : Matrix) (ho : ¬ Overflows d rg m)
    (hc : ¬ CutsChroma d rg m) :
    let t := computedForward 15 d rg m
    let c := getYuvRange d rg
    let b := (c.biasUv : Int) * 32768 + 16383
    ((c.biasY : Int) ≤ ((2 ^ d - 1) * (t.cbG + t.cbR) + b) / 32768 ∧
      ((2 ^ d - 1) * t.cbB + b) / 32768 ≤ c.biasY + c.rangeUv) ∧
    ((c.biasY : Int) ≤ ((2 ^ d - 1) * (t.crG + t.crB) + b) / 32768 ∧
      ((2 ^ d - 1) * t.crR + b) / 32768 ≤ c.biasY + c.rangeUv) := by
  have h : ∀ d ∈ [10, 12, 14, 16], ∀ m ∈ allMatrix, ∀ rg ∈ allRange, ¬ Overflows d rg m →
      ¬ CutsChroma d rg m →
      let t := computedForward 15 d rg m
      let c := getYuvRange d rg
      let b := (c.biasUv : Int) * 32768 + 16383
      ((c.biasY : Int) ≤ ((2 ^ d - 1) * (t.cbG + t.cbR) + b) / 32768 ∧
        ((2 ^ d - 1) * t.cbB + b) / 32768 ≤ c.biasY + c.rangeUv) ∧
      ((c.biasY : Int) ≤ ((2 ^ d - 1) * (t.crG + t.crB) + b) / 32768 ∧
        ((2 ^ d - 1) * t.crR + b) / 32768 ≤ c.biasY + c.rangeUv) := by decide +kernel
  exact h d (by rcases hd with rfl | rfl | rfl | rfl <;> simp) m (mem_allMatrix m) rg (mem_allRange rg) ho hc

/-- Within the limits they have no effect. -/
theorem limits_idle {d : Nat} {bias lo hi x y z : Nat} {kx ky kz : Int} (hx : 0 ≤ kx) (hy : ky ≤ 0)
    (hz : kz ≤ 0) (h1 : (lo : Int) ≤ ((2 ^ d - 1) * (ky + kz) + ((bias : Int) * 32768 + 16383)) / 32768)
    (h2 : ((2 ^ d - 1) * kx + ((bias : Int) * 32768 + 16383)) / 32768 ≤ hi)
    (bx : x < 2 ^ d) (by_ : y < 2 ^ d) (bz : z < 2 ^ d) {n : Nat}
    (hn : (n : Int) = (x * kx + y * ky + z * kz + ((bias : Int) * 32768 + 16383)) / 32768) :
    min (max n lo) hi = n := by
  have cast : ∀ x : Nat, x < 2 ^ d → (x : Int) ≤ 2 ^ d - 1 := by
    intro x hx; have : (x : Int) < 2 ^ d := by exact_mod_cast hx
    omega
  have m1 := Int.mul_le_mul_of_nonneg_right (cast x bx) hx
  have m2 := Int.mul_le_mul_of_nonpos_right (cast y by_) hy
  have m3 := Int.mul_le_mul_of_nonpos_right (cast z bz) hz
  have n1 : 0 ≤ (x : Int) * kx := Int.mul_nonneg (by omega) hx
  have n2 : (y : Int) * ky ≤ 0 := Int.mul_nonpos_of_nonneg_of_nonpos (by omega) hy
  have n3 : (z : Int) * kz ≤ 0 := Int.mul_nonpos_of_nonneg_of_nonpos (by omega) hz
  rw [Int.mul_add] at h1
  generalize (x : Int) * kx = p1 at *
  generalize (y : Int) * ky = p2 at *
  generalize (z : Int) * kz = p3 at *
  generalize ((2 : Int) ^ d - 1) * kx = q1 at *
  generalize ((2 : Int) ^ d - 1) * ky = q2 at *
  generalize ((2 : Int) ^ d - 1) * kz = q3 at *
  omega

/-- C139, chroma: without the 16-bit arithmetic chroma is that of the x86 kernels (C94). -/
theorem c139_chroma (d : Nat) (hd : Deep d) (ch : Channels) (rg : YuvRange) (m : Matrix)
    (ho : ¬ Overflows d rg m) (hc : ¬ CutsChroma d rg m) (blk : List Buf) (hb : ∀ px ∈ blk, Samples d px) :
    neonDeepCb false d ch rg m blk = vecDeepCb d ch rg m blk ∧
    neonDeepCr false d ch rg m blk = vecDeepCr d ch rg m blk := by
  obtain ⟨-, h2, h3⟩ := deepRows hd rg m ho
  obtain ⟨⟨l1, l2⟩, l3, l4⟩ := chroma_limits hd rg m ho hc
  obtain ⟨-, ⟨⟨u1, -⟩, ⟨u2, -⟩, ⟨u3, -⟩, -⟩, ⟨⟨v1, -⟩, ⟨v2, -⟩, ⟨v3, -⟩, -⟩, -, -⟩ := fwdOk hd rg m
  have es := c06_searchForward 15 d (by unfold Prec; omega) hd.depth rg m
  have p2 : 0 < 2 ^ d := by positivity
  have bnd : ∀ f : Buf → Nat, (∀ px, Samples d px → f px < 2 ^ d) → vecMean (blk.map f) < 2 ^ d := by
    intro f hf
    refine vecMean_lt p2 fun a ha => ?_
    obtain ⟨px, hp, rfl⟩ := List.mem_map.1 ha
    exact hf px (hb px hp)
  have br := bnd (red ch) fun px hp => red_lt' p2 ch hp
  have bg := bnd (green ch) fun px hp => green_lt' p2 ch hp
  have bb := bnd (blue ch) fun px hp => blue_lt' p2 ch hp
  have e2 := sumWord_enc hd.le16 h2 br bg bb
  have e3 := sumWord_enc hd.le16 h3 br bg bb
  have id' : ∀ f : Buf → Nat, (blk.map fun px => neonComp false (f px)) = blk.map f := fun f => rfl
  unfold neonDeepCb neonDeepCr neonDeepChroma vecDeepCb vecDeepCr neonChromaOf
  rw [es]
  simp only [Bool.false_eq_true, if_false, id']
  rw [← e2, ← e3, Int.toNat_natCast, Int.toNat_natCast]
  refine ⟨limits_idle (d := d) u1 u2 u3 l1 l2 bb bg br ?_,
    limits_idle (d := d) v1 v2 v3 l3 l4 br bg bb ?_⟩
  · rw [e2]; unfold encVal; norm_num only
    congr 2; ring
  · rw [e3]; unfold encVal; norm_num only

/-- C139 as far as it holds: on 64-bit ARM processors without rounding multiply-accumulate, and on all of
them at 12 to 16 bits, the encoded image is correct: every luma sample is that of its own pixel — also where
the portable code takes the row above (C30) — every chroma sample that of the average colour, exactly in 4:4:4
and 4:2:2 and up to one code value in 4:2:0, and the padding is untouched — also in 4:2:2, where the portable
code overwrites it (C30).  Missing: the 16-bit arithmetic at 10 bits, 16-bit full-range BT.601, and 16-bit
limited-range BT.709 and BT.2020, where chroma is cut; counterexamples follow. -/
theorem c139_neon_deep_values_partial (rdm : Bool) (e : Endianness) (bp : BytesPacking) (d : Nat)
    (hd : Deep d) (hk : rdm = false ∨ d ≠ 10) (ch : Channels) (s : Sampling) (i : Planar) (rgba : Buf)
    (stride : Nat) (rg : YuvRange) (m : Matrix) (ho : ¬ Overflows d rg m) (hc : ¬ CutsChroma d rg m) (D : Nat)
    (hi : GoodPlanar i s D) (hsrc : GoodDst rgba.length stride i.width i.height ch.count)
    (hb : Samples d rgba) :
    ∃ out, Neon.rgb16ToP16 rdm e bp d ch s i rgba stride rg m = .ok out ∧
      DeepCorrect e bp d ch s rg m rgba stride i out := by
  obtain ⟨out, eo, h⟩ := c138_neon_deep_encode rdm e bp d hd ch s i rgba stride rg m (fun _ _ => ho) D
    hi hsrc hb
  have hr : usesRdm rdm d = false := by
    rcases hk with rfl | h
    · rfl
    · simp [usesRdm, h]
  have px : ∀ x y, Samples d (pixelAt rgba stride ch.count x y) := by
    intro x y a ha
    exact hb a (List.mem_of_mem_drop (List.mem_of_mem_take ha))
  have pb : ∀ cx cy, ∀ p ∈ block rgba stride ch.count i.width i.height (hdiv s) (vdiv s) cx cy,
      Samples d p := by
    intro cx cy p hp
    unfold block at hp
    obtain ⟨y, -, hp⟩ := List.mem_flatMap.1 hp
    obtain ⟨x, -, rfl⟩ := List.mem_map.1 hp
    exact px x y
  refine ⟨out, eo, h.geometry, ?_, ?_, ?_⟩
  · refine frameRel_eq ⟨h.y.1, fun x y hx hy => (frameSpec_pixel h.y hx hy rfl).trans ?_, h.y.2.2⟩
    rw [hr, c139_luma d hd ch rg m ho _ (px x y), ite_self]
  · refine ⟨h.u.1, fun cx cy hx hy => ?_, h.u.2.2⟩
    obtain ⟨l1, l2⟩ := block_len rgba stride ch.count i.width i.height s hx hy hi.wpos hi.hpos
    obtain ⟨a, ⟨b1, b2⟩, -⟩ := c94_chroma d hd ch rg m ho _ l1 (pb cx cy)
    refine ⟨_, frameSpec_pixel h.u hx hy rfl, ?_⟩
    rw [hr, (c139_chroma d hd ch rg m ho hc _ (pb cx cy)).1]
    by_cases hR : Redone s i.width i.height (2 * cx) cy
    · rw [if_pos hR]; exact ⟨by omega, by omega, fun _ => rfl⟩
    · rw [if_neg hR]; exact ⟨b1, b2, fun h4 => (a (l2 h4)).1⟩
  · refine ⟨h.v.1, fun cx cy hx hy => ?_, h.v.2.2⟩
    obtain ⟨l1, l2⟩ := block_len rgba stride ch.count i.width i.height s hx hy hi.wpos hi.hpos
    obtain ⟨a, -, b1, b2⟩ := c94_chroma d hd ch rg m ho _ l1 (pb cx cy)
    refine ⟨_, frameSpec_pixel h.v hx hy rfl, ?_⟩
    rw [hr, (c139_chroma d hd ch rg m ho hc _ (pb cx cy)).2]
    by_cases hR : Redone s i.width i.height (2 * cx) cy
    · rw [if_pos hR]; exact ⟨by omega, by omega, fun _ => rfl⟩
    · rw [if_neg hR]; exact ⟨b1, b2, fun h4 => (a (l2 h4)).2⟩

example : GoodPlanar (demoDst16 7) .yuv420 65536 ∧ GoodDst demoRgb10.length 11 3 2 3 ∧
    Samples 12 demoRgb10 ∧ ¬ Overflows 12 .full .bt601 ∧ ¬ CutsChroma 12 .limited .bt709 ∧
    ¬ CutsChroma 16 .limited .bt601 :=
  ⟨demoDst16_good, ⟨by unfold U32; decide, by decide, by unfold FullRows; decide, by decide⟩, by
    unfold Samples; decide, by decide, by decide, by decide⟩

/-! ### The 16-bit arithmetic at 10 bits -/

/-- Lengthening and rounding every product on its own moves a sum by at most one. -/
theorem rdmSum_near {bias : Nat} {k : Int × Int × Int} (hp : max k.1 0 + max k.2.1 0 + max k.2.2 0 ≤ 32769)
    (hn : -16384 ≤ min k.1 0 + min k.2.1 0 + min k.2.2 0) {r g b : Nat} (hr : r < 1024) (hg : g < 1024)
    (hb : b < 1024) :
    neonRdmSum bias k (longWord r) (longWord g) (longWord b)
      ≤ encVal 15 k.1 k.2.1 k.2.2 bias r g b + 1 ∧
    encVal 15 k.1 k.2.1 k.2.2 bias r g b
      ≤ neonRdmSum bias k (longWord r) (longWord g) (longWord b) + 1 := by
  have pr : ∀ {x : Nat} {c : Int}, x < 1024 → ∃ f : Int, mulRound (longWord x) c = (4 * (x * c) + f + 16384) / 32768
      ∧ 3 * min c 0 ≤ f ∧ f ≤ 3 * max c 0 := by
    intro x c hx
    refine ⟨((x / 256 : Nat) : Int) * c, ?_, ?_⟩
    · unfold mulRound longWord
      push_cast
      congr 1; ring
    · have h3 : x / 256 ≤ 3 := by omega
      generalize x / 256 = y at *
      have : y = 0 ∨ y = 1 ∨ y = 2 ∨ y = 3 := by omega
      rcases this with rfl | rfl | rfl | rfl <;> push_cast <;> omega
  obtain ⟨f1, e1, a1, b1⟩ := pr (c := k.1) hr
  obtain ⟨f2, e2, a2, b2⟩ := pr (c := k.2.1) hg
  obtain ⟨f3, e3, a3, b3⟩ := pr (c := k.2.2) hb
  unfold neonRdmSum encVal
  rw [e1, e2, e3]
  generalize (r : Int) * k.1 = p1 at *
  generalize (g : Int) * k.2.1 = p2 at *
  generalize (b : Int) * k.2.2 = p3 at *
  norm_num only
  omega

/-- The weights at 10 bits. -/
theorem weights10 (rg : YuvRange) (m : Matrix) :
    let t := computedForward 15 10 rg m
    let c := getYuvRange 10 rg
    (t.yr + t.yg + t.yb ≤ 32769 ∧
      (1023 * (t.yr + t.yg + t.yb) + ((c.biasY : Int) * 32768 + 16383)) / 32768 ≤ c.biasY + c.rangeY) ∧
    (t.cbB ≤ 32769 ∧ -16384 ≤ t.cbR + t.cbG) ∧ (t.crR ≤ 32769 ∧ -16384 ≤ t.crG + t.crB) := by
  have h : ∀ m ∈ allMatrix, ∀ rg ∈ allRange,
      let t := computedForward 15 10 rg m
      let c := getYuvRange 10 rg
      (t.yr + t.yg + t.yb ≤ 32769 ∧
        (1023 * (t.yr + t.yg + t.yb) + ((c.biasY : Int) * 32768 + 16383)) / 32768 ≤ c.biasY + c.rangeY) ∧
      (t.cbB ≤ 32769 ∧ -16384 ≤ t.cbR + t.cbG) ∧ (t.crR ≤ 32769 ∧ -16384 ≤ t.crG + t.crB) := by decide +kernel
  exact h m (mem_allMatrix m) rg (mem_allRange rg)

/-- C139, luma with the 16-bit arithmetic: within one code value of the portable code. -/
theorem c139_rdm_luma_near (ch : Channels) (rg : YuvRange) (m : Matrix) (px : Buf) (hb : Samples 10 px) :
    neonDeepLuma true 10 ch rg m px ≤ deepLuma 10 ch rg m px + 1 ∧
    deepLuma 10 ch rg m px ≤ neonDeepLuma true 10 ch rg m px + 1 := by
  have hd : Deep 10 := .inl rfl
  obtain ⟨⟨⟨y1, -⟩, ⟨y2, -⟩, ⟨y3, -⟩, -⟩, -⟩ := fwdOk hd rg m
  obtain ⟨⟨ys, yc⟩, -, -⟩ := weights10 rg m
  have es := c06_searchForward 15 10 (by unfold Prec; omega) hd.depth rg m
  have hr := red_lt' (by decide) ch hb
  have hg := green_lt' (by decide) ch hb
  have hbl := blue_lt' (by decide) ch hb
  obtain ⟨n1, n2⟩ := rdmSum_near (bias := (getYuvRange 10 rg).biasY) (k := ((computedForward 15 10 rg m).yr,
    (computedForward 15 10 rg m).yg, (computedForward 15 10 rg m).yb)) (by dsimp only at *; omega)
    (by dsimp only; omega) hr hg hbl
  have m1 := Int.mul_le_mul_of_nonneg_right (show ((red ch px : Nat) : Int) ≤ 1023 by omega) y1
  have m2 := Int.mul_le_mul_of_nonneg_right (show ((green ch px : Nat) : Int) ≤ 1023 by omega) y2
  have m3 := Int.mul_le_mul_of_nonneg_right (show ((blue ch px : Nat) : Int) ≤ 1023 by omega) y3
  unfold neonDeepLuma deepLuma lumaVal neonLumaOf
  rw [es]
  simp only [if_true, neonComp]
  have up : encVal 15 (computedForward 15 10 rg m).yr (computedForward 15 10 rg m).yg
      (computedForward 15 10 rg m).yb (getYuvRange 10 rg).biasY (red ch px) (green ch px) (blue ch px)
      ≤ (getYuvRange 10 rg).biasY + (getYuvRange 10 rg).rangeY := by
    unfold encVal
    norm_num only
    rw [Int.mul_add, Int.mul_add] at yc
    generalize ((red ch px : Nat) : Int) * (computedForward 15 10 rg m).yr = p1 at *
    generalize ((green ch px : Nat) : Int) * (computedForward 15 10 rg m).yg = p2 at *
    generalize ((blue ch px : Nat) : Int) * (computedForward 15 10 rg m).yb = p3 at *
    omega
  dsimp only at n1 n2
  generalize encVal 15 _ _ _ _ _ _ _ = v at *
  generalize neonRdmSum _ _ _ _ _ = w at *
  omega

/-- C139, chroma of single pixels (4:4:4) with the 16-bit arithmetic: within one code value of that of the
portable code, or of the lower limit if this is greater. -/
theorem c139_rdm_chroma_near (ch : Channels) (rg : YuvRange) (m : Matrix) (px : Buf) (hb : Samples 10 px) :
    let lo := 4 * (getYuvRange 10 rg).biasY + 1
    (neonDeepCb true 10 ch rg m [px] ≤ max (deepCb 10 ch rg m [px]) lo + 1 ∧
      max (deepCb 10 ch rg m [px]) lo ≤ neonDeepCb true 10 ch rg m [px] + 1) ∧
    (neonDeepCr true 10 ch rg m [px] ≤ max (deepCr 10 ch rg m [px]) lo + 1 ∧
      max (deepCr 10 ch rg m [px]) lo ≤ neonDeepCr true 10 ch rg m [px] + 1) := by
  have hd : Deep 10 := .inl rfl
  have ho : ¬ Overflows 10 rg m := notOver (by decide) rg m
  have hc : ¬ CutsChroma 10 rg m := fun h => absurd h.1 (by decide)
  obtain ⟨-, ⟨⟨u1, -⟩, ⟨u2, -⟩, ⟨u3, -⟩, -⟩, ⟨⟨v1, -⟩, ⟨v2, -⟩, ⟨v3, -⟩, -⟩, -, -⟩ := fwdOk hd rg m
  obtain ⟨-, ⟨w1, w2⟩, w3, w4⟩ := weights10 rg m
  have es := c06_searchForward 15 10 (by unfold Prec; omega) hd.depth rg m
  have hr := red_lt' (by decide) ch hb
  have hg := green_lt' (by decide) ch hb
  have hbl := blue_lt' (by decide) ch hb
  obtain ⟨n1, n2⟩ := rdmSum_near (bias := (getYuvRange 10 rg).biasUv) (k := ((computedForward 15 10 rg m).cbR,
    (computedForward 15 10 rg m).cbG, (computedForward 15 10 rg m).cbB)) (by dsimp only at *; omega)
    (by dsimp only at *; omega) hr hg hbl
  obtain ⟨n3, n4⟩ := rdmSum_near (bias := (getYuvRange 10 rg).biasUv) (k := ((computedForward 15 10 rg m).crR,
    (computedForward 15 10 rg m).crG, (computedForward 15 10 rg m).crB)) (by dsimp only at *; omega)
    (by dsimp only at *; omega) hr hg hbl
  have hcap : 4 * (getYuvRange 10 rg).biasY + 1 ≤ (getYuvRange 10 rg).biasY + (getYuvRange 10 rg).rangeUv := by
    cases rg <;> decide
  have one : ∀ a : Nat, vecMean [a] = a := fun _ => rfl
  have oneU : ∀ a : Nat, avgUp [a] = a := fun a => by simp [avgUp]
  have c1 := c139_chroma 10 hd ch rg m ho hc [px] (by simpa using hb)
  have c2 := (c94_chroma 10 hd ch rg m ho [px] (.inl rfl) (by simpa using hb)).1 (by simp)
  have cap1 : deepCb 10 ch rg m [px] ≤ (getYuvRange 10 rg).biasY + (getYuvRange 10 rg).rangeUv := by
    rw [← c2.1, ← c1.1]; unfold neonDeepCb neonDeepChroma neonChromaOf; exact Nat.min_le_right _ _
  have cap2 : deepCr 10 ch rg m [px] ≤ (getYuvRange 10 rg).biasY + (getYuvRange 10 rg).rangeUv := by
    rw [← c2.2, ← c1.2]; unfold neonDeepCr neonDeepChroma neonChromaOf; exact Nat.min_le_right _ _
  unfold deepCb cbVal at cap1
  unfold deepCr crVal at cap2
  unfold neonDeepCb neonDeepCr neonDeepChroma deepCb deepCr cbVal crVal neonChromaOf
  rw [es] at cap1 cap2 ⊢
  simp only [if_true, neonComp, List.map_cons, List.map_nil, one, oneU] at cap1 cap2 ⊢
  dsimp only at n1 n2 n3 n4
  generalize encVal 15 (computedForward 15 10 rg m).cbR _ _ _ _ _ _ = v at *
  generalize encVal 15 (computedForward 15 10 rg m).crR _ _ _ _ _ _ = v' at *
  generalize neonRdmSum _ ((computedForward 15 10 rg m).cbR, _) _ _ _ = w at *
  generalize neonRdmSum _ ((computedForward 15 10 rg m).crR, _) _ _ _ = w' at *
  generalize (getYuvRange 10 rg).biasY = y at *
  generalize (getYuvRange 10 rg).rangeUv = z at *
  omega

example : Samples 10 [1023, 5, 0] ∧ red .rgb [1023, 5, 0] = 1023 := ⟨by unfold Samples; decide, rfl⟩

/-- C139 fails with the 16-bit arithmetic at 10 bits and limited range: no chroma sample is below 257, four
times the offset of luma plus one; the range of chroma starts at 64. -/
theorem c139_rdm_chroma_floor (ch : Channels) (m : Matrix) (blk : List Buf) :
    257 ≤ neonDeepCb true 10 ch .limited m blk ∧ 257 ≤ neonDeepCr true 10 ch .limited m blk := by
  have h : ∀ k r g b, 257 ≤ neonChromaOf true (getYuvRange 10 .limited) k r g b := by
    intro k r g b
    unfold neonChromaOf
    rw [if_pos rfl, show (getYuvRange 10 .limited).biasY = 64 from rfl,
      show (getYuvRange 10 .limited).rangeUv = 896 from rfl]
    omega
  exact ⟨h _ _ _ _, h _ _ _ _⟩

/-- C139 fails on processors with rounding multiply-accumulate: of a yellow and a cyan pixel of 10 bits, Cb
and Cr should be 64, and are 64 on processors without it; they become 257. -/
theorem c139_rdm_yellow_cyan :
    Neon.rgb16ToP16 true .little .lsb 10 .rgb .yuv444 ⟨[7, 7], 2, [7, 7], 2, [7, 7], 2, 2, 1⟩
      [1023, 1023, 0, 0, 1023, 1023] 6 .limited .bt601
      = .ok ⟨[840, 678], 2, [257, 663], 2, [585, 257], 2, 2, 1⟩ ∧
    Neon.rgb16ToP16 false .little .lsb 10 .rgb .yuv444 ⟨[7, 7], 2, [7, 7], 2, [7, 7], 2, 2, 1⟩
      [1023, 1023, 0, 0, 1023, 1023] 6 .limited .bt601
      = .ok ⟨[840, 678], 2, [64, 663], 2, [585, 64], 2, 2, 1⟩ ∧
    deepCb 10 .rgb .limited .bt601 [[1023, 1023, 0]] = 64 ∧
    deepCr 10 .rgb .limited .bt601 [[0, 1023, 1023]] = 64 := by decide +kernel

/-! ### 16 bits -/

/-- C139 fails at 16 bits, full range, BT.601: the luma of white is one step beyond the depth, only its low
16 bits are stored, and white becomes as dark as black. -/
theorem c139_16bit_white_is_black (rdm : Bool) :
    ∃ out, Neon.rgb16ToP16 rdm .little .lsb 16 .rgb .yuv444 demoDst11 [65535, 65535, 65535] 3 .full .bt601
      = .ok out ∧ pixelAt out.y 1 1 0 0 = [1] ∧ lumaVal 15 16 .full .bt601 65535 65535 65535 = 65537 := by
  obtain ⟨out, e, h⟩ := c138_neon_deep_encode rdm .little .lsb 16 (.inr (.inr (.inr rfl)))
    .rgb .yuv444 demoDst11 [65535, 65535, 65535] 3 .full .bt601 (fun h => by cases h) 65536 demoDst11_good
    ⟨by unfold U32; decide, by decide, by unfold FullRows; decide, by decide⟩ (by unfold Samples; decide)
  refine ⟨out, e, (frameSpec_pixel h.y (x := 0) (y := 0) (by decide) (by decide) rfl).trans ?_, ?_⟩
  · rw [show usesRdm rdm 16 = false by cases rdm <;> rfl]
    decide +kernel
  · decide +kernel

/-- At 16 bits, limited range, BT.2020 Cb of saturated yellow is 4094 before the limits and 4096 after. -/
theorem c139_16bit_chroma_cut :
    neonDeepCb false 16 .rgb .limited .bt2020 [[65535, 65535, 0]] = 4096 ∧
    deepCb 16 .rgb .limited .bt2020 [[65535, 65535, 0]] = 4094 := by decide +kernel

end Verif
