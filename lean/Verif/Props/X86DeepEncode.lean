import Verif.Lemmas.X86DeepEncFrames
import Verif.Props.X86Encode
import Verif.Props.DeepEncode
import Verif.Props.Identity
/-!
# C93, C94: RGB of 10 to 16 bits to planar YCbCr on x86 processors
-/
namespace Verif
open Spec X86

/-! ## C93 -/

/-- A processor runs vector code for this depth: AVX2 for all, SSE4.1 up to 14 bits. -/
def HasDeepKernel (cpu : Cpu) (d : Nat) : Prop := cpu = .avx2 ∨ (cpu = .sse41 ∧ d ≠ 16)

/-- The luma sample at `(x, y)`.  It should be that of its pixel.  In the second row of every pair of
rows of a 4:2:0 image the SSE4.1 code takes the green of the pixel above; the last column of an odd
width is stored again by scalar code. -/
def deepLumaOn (cpu : Cpu) (d : Nat) (ch : Channels) (s : Sampling) (rg : YuvRange) (m : Matrix)
    (rgba : Buf) (stride w x y : Nat) : Nat :=
  if cpu = .sse41 ∧ s = .yuv420 ∧ y % 2 = 1 ∧ ¬ (x + 1 = w ∧ w % 2 = 1) then
    mixedDeepLuma d ch rg m (pixelAt rgba stride ch.count x (y - 1)) (pixelAt rgba stride ch.count x y)
  else vecDeepLuma d ch rg m (pixelAt rgba stride ch.count x y)

/-- The planes written: every sample is determined and nothing else changes. -/
structure DeepEncodedOn (cpu : Cpu) (e : Endianness) (bp : BytesPacking) (d : Nat) (ch : Channels)
    (s : Sampling) (rg : YuvRange) (m : Matrix) (rgba : Buf) (stride : Nat) (i out : Planar) : Prop where
  geometry : out.width = i.width ∧ out.height = i.height ∧ out.yStride = i.yStride ∧
    out.uStride = i.uStride ∧ out.vStride = i.vStride
  y : FrameSpec out.y i.y i.yStride i.width i.height 1 fun x y =>
    [wordOf e bp d (deepLumaOn cpu d ch s rg m rgba stride i.width x y)]
  u : FrameSpec out.u i.u i.uStride (cover i.width (hdiv s)) (cover i.height (vdiv s)) 1 fun cx cy =>
    [wordOf e bp d (vecDeepCb d ch rg m
      (block rgba stride ch.count i.width i.height (hdiv s) (vdiv s) cx cy))]
  v : FrameSpec out.v i.v i.vStride (cover i.width (hdiv s)) (cover i.height (vdiv s)) 1 fun cx cy =>
    [wordOf e bp d (vecDeepCr d ch rg m
      (block rgba stride ch.count i.width i.height (hdiv s) (vdiv s) cx cy))]

theorem vecDeepLuma_conf (e : Endianness) (bp : BytesPacking) {d : Nat} (hd : Deep d) (ch : Channels)
    (rg : YuvRange) (m : Matrix) (px : Buf) :
    deepL (deepConf e bp d ch rg m) px = wordOf e bp d (vecDeepLuma d ch rg m px) := by
  unfold vecDeepLuma vecLumaOf
  rw [c06_searchForward 15 d (by unfold Prec; omega) hd.depth rg m]
  rfl

theorem mixedDeepLuma_conf (e : Endianness) (bp : BytesPacking) {d : Nat} (hd : Deep d) (ch : Channels)
    (rg : YuvRange) (m : Matrix) (mix : Bool) (a px : Buf) :
    deepL1 mix (deepConf e bp d ch rg m) a px
      = wordOf e bp d (if mix then mixedDeepLuma d ch rg m a px else vecDeepLuma d ch rg m px) := by
  unfold vecDeepLuma mixedDeepLuma vecLumaOf
  rw [c06_searchForward 15 d (by unfold Prec; omega) hd.depth rg m]
  cases mix <;> rfl

theorem vecDeepCb_conf (e : Endianness) (bp : BytesPacking) {d : Nat} (hd : Deep d) (ch : Channels)
    (rg : YuvRange) (m : Matrix) (l : List Buf) :
    deepBlk (deepConf e bp d ch rg m) (kCb (computedForward 15 d rg m)) l
      = wordOf e bp d (vecDeepCb d ch rg m l) := by
  unfold vecDeepCb
  rw [c06_searchForward 15 d (by unfold Prec; omega) hd.depth rg m]
  rfl

theorem vecDeepCr_conf (e : Endianness) (bp : BytesPacking) {d : Nat} (hd : Deep d) (ch : Channels)
    (rg : YuvRange) (m : Matrix) (l : List Buf) :
    deepBlk (deepConf e bp d ch rg m) (kCr (computedForward 15 d rg m)) l
      = wordOf e bp d (vecDeepCr d ch rg m l) := by
  unfold vecDeepCr
  rw [c06_searchForward 15 d (by unfold Prec; omega) hd.depth rg m]
  rfl

/-- The row encoders of the two processor classes. -/
theorem deepRows_is {cpu : Cpu} {d : Nat} (hd : Deep d) (hk : HasDeepKernel cpu d) (e : Endianness)
    (bp : BytesPacking) (ch : Channels) (s : Sampling) (rg : YuvRange) (m : Matrix) {w : Nat}
    (hw : 0 < w) :
    RowIs (deepRowEncoder cpu s (deepConf e bp d ch rg m) w) s (deepConf e bp d ch rg m) (2 ^ d) w ∧
    Row2Is (deepRowEncoder420 cpu (deepConf e bp d ch rg m) w) (decide (cpu = .sse41))
      (deepConf e bp d ch rg m) (2 ^ d) w := by
  by_cases h16 : d = 16
  · subst h16
    rcases hk with rfl | ⟨-, h⟩
    · exact ⟨deepRow_is avx2Deep16_ok (confOk16 e bp ch rg m) s hw,
        deepRow420_is avx2Deep16_ok (confOk16 e bp ch rg m) (fun _ _ => rfl) hw⟩
    · exact absurd rfl h
  · have hd' : d = 10 ∨ d = 12 ∨ d = 14 := by unfold Deep at hd; omega
    have hq := confOk e bp hd' ch rg m
    have h15 : d ≤ 15 := by omega
    have hB : 2 ^ d ≤ 32768 := Nat.pow_le_pow_right (n := 2) (j := 15) (by decide) h15
    rcases hk with rfl | ⟨rfl, -⟩
    · have e1 : deepRowEncoder .avx2 s (deepConf e bp d ch rg m) w
          = deepRow avx2Deep s (deepConf e bp d ch rg m) w := by
        unfold deepRowEncoder; exact if_pos h15
      have e2 : deepRowEncoder420 .avx2 (deepConf e bp d ch rg m) w
          = deepRow420 avx2Deep (deepConf e bp d ch rg m) w := by
        unfold deepRowEncoder420; exact if_pos h15
      rw [e1, e2]
      exact ⟨deepRow_is (avx2Deep_ok hB) hq s hw,
        deepRow420_is (avx2Deep_ok hB) hq (fun _ _ => rfl) hw⟩
    · have e1 : deepRowEncoder .sse41 s (deepConf e bp d ch rg m) w
          = deepRow sseDeep s (deepConf e bp d ch rg m) w := by
        unfold deepRowEncoder; exact if_pos h15
      have e2 : deepRowEncoder420 .sse41 (deepConf e bp d ch rg m) w
          = deepRow420 sseDeep420 (deepConf e bp d ch rg m) w := by
        unfold deepRowEncoder420; exact if_pos h15
      rw [e1, e2]
      exact ⟨deepRow_is (sseDeep_ok hB) hq s hw,
        deepRow420_is (sseDeep420_ok hB) hq (fun _ _ => rfl) hw⟩

/-- C93, dispatch: a processor without vector extensions, and an SSE4.1 processor at 16 bits, runs the
scalar code (C30). -/
theorem c93_scalar (cpu : Cpu) (e : Endianness) (bp : BytesPacking) (d : Nat) (hd : Deep d)
    (hk : ¬ HasDeepKernel cpu d) (ch : Channels) (s : Sampling) (i : Planar) (rgba : Buf)
    (stride : Nat) (rg : YuvRange) (m : Matrix) :
    rgb16ToP16On cpu e bp d ch s i rgba stride rg m
      = rgb16ToP16 x64 e bp d ch s noEnc noEnc420 i rgba stride rg m := by
  cases cpu with
  | avx2 => exact absurd (.inl rfl) hk
  | plain => rfl
  | sse41 =>
    have : d = 16 := by
      by_contra h
      exact hk (.inr ⟨rfl, h⟩)
    subst this
    rfl

/-- C93: on AVX2 processors at 10 to 16 bits and on SSE4.1 processors at 10 to 14 bits, encoding a good
RGB(A) buffer into a good planar image succeeds — no load or store of the vector code leaves its slice
or its scratch buffers, no loop diverges — and writes exactly the luma samples of the image and the
chroma samples covering it, whatever the width, the strides and the padding.  Every sample is
determined: a chroma sample by the pixels it covers, a luma sample by its pixel (and in one case the
pixel above).  In 4:2:0 images of odd width the scalar code recomputes the last column, and must not
overflow. -/
theorem c93_x86_deep_encode (cpu : Cpu) (e : Endianness) (bp : BytesPacking) (d : Nat) (hd : Deep d)
    (hk : HasDeepKernel cpu d) (ch : Channels) (s : Sampling) (i : Planar) (rgba : Buf) (stride : Nat)
    (rg : YuvRange) (m : Matrix) (ho : s = .yuv420 → i.width % 2 = 1 → ¬ Overflows d rg m) (D : Nat)
    (hi : GoodPlanar i s D) (hsrc : GoodDst rgba.length stride i.width i.height ch.count)
    (hb : Samples d rgba) :
    ∃ out, rgb16ToP16On cpu e bp d ch s i rgba stride rg m = .ok out ∧
      DeepEncodedOn cpu e bp d ch s rg m rgba stride i out := by
  have hcn := count_pos ch
  have hst : 0 < stride := Nat.lt_of_lt_of_le (Nat.mul_pos hi.wpos hcn) hsrc.cols_le
  obtain ⟨h1, h2⟩ := deepRows_is hd hk e bp ch s rg m hi.wpos
  have fin : ∀ o : Outcome (Buf × Buf × Buf),
      ExactPlanes s i (imgL (decide (cpu = .sse41)) s (deepConf e bp d ch rg m) i.width rgba stride)
        (imgC s (deepConf e bp d ch rg m) (kCb (computedForward 15 d rg m)) i.width i.height rgba stride)
        (imgC s (deepConf e bp d ch rg m) (kCr (computedForward 15 d rg m)) i.width i.height rgba stride) o →
      ∃ out, (o >>= fun x => pure { i with y := x.1, u := x.2.1, v := x.2.2 }) = Outcome.ok out ∧
      DeepEncodedOn cpu e bp d ch s rg m rgba stride i out := by
    intro o ⟨y, u, v, eo, ly, lu, lv⟩
    refine ⟨{ i with y, u, v }, by rw [eo]; rfl, ⟨rfl, rfl, rfl, rfl, rfl⟩, ?_, ?_, ?_⟩
    · refine frameRel_eq ⟨ly.1, fun x y hx hy => (ly.2.1 x y hx hy).trans ?_, ly.2.2⟩
      refine congrArg (fun a => [a]) ?_
      simp only [imgL, deepLumaOn, vecDeepLuma_conf e bp hd, mixedDeepLuma_conf e bp hd,
        decide_eq_true_eq]
      rw [← apply_ite (wordOf e bp d)]
      refine congrArg (wordOf e bp d) ?_
      cases s
      · by_cases hc : cpu = .sse41 <;> simp [hc, vdiv]
      · simp [vdiv]
      · simp [vdiv]
    · rw [cover_hdiv hi.wpos, cover_vdiv hi.hpos]
      refine frameRel_eq ⟨lu.1, fun x y hx hy => (lu.2.1 x y hx hy).trans ?_, lu.2.2⟩
      exact congrArg (fun a => [a]) (vecDeepCb_conf e bp hd ch rg m _)
    · rw [cover_hdiv hi.wpos, cover_vdiv hi.hpos]
      refine frameRel_eq ⟨lv.1, fun x y hx hy => (lv.2.1 x y hx hy).trans ?_, lv.2.2⟩
      exact congrArg (fun a => [a]) (vecDeepCr_conf e bp hd ch rg m _)
  unfold rgb16ToP16On rgb16ToP16
  rw [hsrc.accepted hi.wpos hi.hpos hi.w32 hi.h32 hcn (count_le ch), hi.accepted]
  simp only [Outcome.bind_ok]
  cases s with
  | yuv444 => exact fin _ (deep444_exact h1 hst hi.rows hsrc.full hsrc.cols_le hb)
  | yuv422 => exact fin _ (deep422_exact h1 hst hi.rows hsrc.full hsrc.cols_le hb)
  | yuv420 =>
    exact fin _ (deep420_exact h1 h2 (fun h => tailIs e bp hd ch rg m (ho rfl h)) hi.rows hsrc.full
      hsrc.cols_le hb)

example : GoodPlanar (demoDst16 7) .yuv420 65536 ∧ GoodDst demoRgb10.length 11 3 2 3 ∧
    Samples 10 demoRgb10 ∧ Deep 10 ∧ HasDeepKernel .sse41 10 ∧ HasDeepKernel .avx2 16 ∧
    ((demoDst16 7).width % 2 = 1 → ¬ Overflows 10 .limited .bt601) :=
  ⟨demoDst16_good, ⟨by unfold U32; decide, by decide, by unfold FullRows; decide, by decide⟩, by
    unfold Samples; decide, .inl rfl, .inr ⟨rfl, by decide⟩, .inl rfl, fun _ => by decide⟩

/-! ## C94: the values -/

/-- C94, luma: wherever the scalar arithmetic does not overflow, the luma of the vector code is the
luma of the scalar code, within the bounds of `c30_close` of the exact value. -/
theorem c94_luma (d : Nat) (hd : Deep d) (ch : Channels) (rg : YuvRange) (m : Matrix)
    (ho : ¬ Overflows d rg m) (px : Buf) (hb : Samples d px) :
    vecDeepLuma d ch rg m px = deepLuma d ch rg m px := by
  obtain ⟨h1, -, -⟩ := deepRows hd rg m ho
  have es := c06_searchForward 15 d (by unfold Prec; omega) hd.depth rg m
  have p2 : 0 < 2 ^ d := by positivity
  have := sumWord_enc hd.le16 h1 (red_lt' p2 ch hb) (green_lt' p2 ch hb) (blue_lt' p2 ch hb)
  unfold vecDeepLuma vecLumaOf deepLuma lumaVal
  rw [es]
  dsimp only
  rw [← this, Int.toNat_natCast]

theorem vecMean_cases {l : List Nat} : (l.length = 1 ∨ l.length = 2 → vecMean l = avgUp l) ∧
    (l.length = 4 → vecMean l = avgUp l ∨ vecMean l = avgUp l + 1) := by
  constructor
  · rintro (h | h)
    · obtain ⟨a, rfl⟩ := List.length_eq_one_iff.1 h
      simp [vecMean, avgUp]
    · obtain ⟨a, b, rfl⟩ := List.length_eq_two.1 h
      simp [vecMean, avgUp]
  · intro h
    match l, h with
    | [a, b, c, d], _ =>
      simp only [vecMean, avgUp, List.sum_cons, List.sum_nil, List.length_cons, List.length_nil]
      omega

theorem vecMean_lt {B : Nat} (hB : 0 < B) {l : List Nat} (h : ∀ a ∈ l, a < B) : vecMean l < B := by
  unfold vecMean
  split
  · exact h _ (by simp)
  · have h1 := h _ (List.mem_cons_self ..)
    rename_i a b
    have h2 := h b (by simp)
    omega
  · rename_i a b c d
    have h1 := h a (by simp); have h2 := h b (by simp); have h3 := h c (by simp)
    have h4 := h d (by simp)
    omega
  · exact hB

/-- The positive and the negative chroma weights add up to less than one each. -/
theorem chroma_weights {d : Nat} (hd : Deep d) (rg : YuvRange) (m : Matrix) :
    let t := computedForward 15 d rg m
    (max t.cbR 0 + max t.cbG 0 + max t.cbB 0 ≤ 32768 ∧ -32768 ≤ min t.cbR 0 + min t.cbG 0 + min t.cbB 0) ∧
    (max t.crR 0 + max t.crG 0 + max t.crB 0 ≤ 32768 ∧ -32768 ≤ min t.crR 0 + min t.crG 0 + min t.crB 0) := by
  have h : ∀ d ∈ [10, 12, 14, 16], ∀ m ∈ allMatrix, ∀ rg ∈ allRange,
      let t := computedForward 15 d rg m
      (max t.cbR 0 + max t.cbG 0 + max t.cbB 0 ≤ 32768 ∧ -32768 ≤ min t.cbR 0 + min t.cbG 0 + min t.cbB 0) ∧
      (max t.crR 0 + max t.crG 0 + max t.crB 0 ≤ 32768 ∧ -32768 ≤ min t.crR 0 + min t.crG 0 + min t.crB 0) := by
    decide +kernel
  exact h d (by rcases hd with rfl | rfl | rfl | rfl <;> simp) m (mem_allMatrix m) rg (mem_allRange rg)

/-- Raising components by at most one moves the result by at most one. -/
theorem encVal_step {k1 k2 k3 : Int} {bias r g b r' g' b' : Nat}
    (h1 : max k1 0 + max k2 0 + max k3 0 ≤ 32768) (h2 : -32768 ≤ min k1 0 + min k2 0 + min k3 0)
    (hr : r' = r ∨ r' = r + 1) (hg : g' = g ∨ g' = g + 1) (hb : b' = b ∨ b' = b + 1) :
    encVal 15 k1 k2 k3 bias r' g' b' ≤ encVal 15 k1 k2 k3 bias r g b + 1 ∧
    encVal 15 k1 k2 k3 bias r g b ≤ encVal 15 k1 k2 k3 bias r' g' b' + 1 := by
  have st : ∀ {x x' : Nat} (k : Int), x' = x ∨ x' = x + 1 →
      (x : Int) * k + min k 0 ≤ x' * k ∧ (x' : Int) * k ≤ x * k + max k 0 := by
    rintro x x' k (rfl | rfl)
    · omega
    · push_cast
      rw [Int.add_mul, Int.one_mul]
      omega
  obtain ⟨a1, a2⟩ := st k1 hr
  obtain ⟨a3, a4⟩ := st k2 hg
  obtain ⟨a5, a6⟩ := st k3 hb
  unfold encVal
  norm_num only
  omega

theorem chroma_near {d : Nat} (hd : d ≤ 16) {k1 k2 k3 : Int} {bias : Nat}
    (h : DeepRow 15 d k1 k2 k3 (encodeBias 15 bias))
    (h1 : max k1 0 + max k2 0 + max k3 0 ≤ 32768) (h2 : -32768 ≤ min k1 0 + min k2 0 + min k3 0)
    (ch : Channels) {blk : List Buf} (hl : blk.length = 1 ∨ blk.length = 2 ∨ blk.length = 4)
    (hb : ∀ px ∈ blk, Samples d px) :
    let x := sumWord bias (k1, k2, k3) (vecMean (blk.map (red ch))) (vecMean (blk.map (green ch)))
      (vecMean (blk.map (blue ch)))
    let y := (encVal 15 k1 k2 k3 bias (avgUp (blk.map (red ch))) (avgUp (blk.map (green ch)))
      (avgUp (blk.map (blue ch)))).toNat
    (blk.length ≠ 4 → x = y) ∧ x ≤ y + 1 ∧ y ≤ x + 1 := by
  have p2 : 0 < 2 ^ d := by positivity
  have bnd : ∀ f : Buf → Nat, (∀ px, Samples d px → f px < 2 ^ d) → ∀ a ∈ blk.map f, a < 2 ^ d := by
    intro f hf a ha
    obtain ⟨px, hp, rfl⟩ := List.mem_map.1 ha
    exact hf px (hb px hp)
  have br := bnd (red ch) fun px hp => red_lt' p2 ch hp
  have bg := bnd (green ch) fun px hp => green_lt' p2 ch hp
  have bb := bnd (blue ch) fun px hp => blue_lt' p2 ch hp
  have l4 : ∀ f : Buf → Nat, (blk.map f).length = 1 ∨ (blk.map f).length = 2 ∨ (blk.map f).length = 4 := by
    intro f; rw [List.length_map]; exact hl
  have ne : ∀ f : Buf → Nat, blk.map f ≠ [] := by
    intro f hf; have := l4 f; rw [hf] at this; simp at this
  have e1 := sumWord_enc hd h (vecMean_lt p2 br) (vecMean_lt p2 bg) (vecMean_lt p2 bb)
  obtain ⟨-, e2, -⟩ := deepRow_ok h (avgUp_lt (ne _) br) (avgUp_lt (ne _) bg) (avgUp_lt (ne _) bb)
  have e3 : encPure 15 k1 k2 k3 (encodeBias 15 bias) (avgUp (blk.map (red ch)))
      (avgUp (blk.map (green ch))) (avgUp (blk.map (blue ch)))
      = encVal 15 k1 k2 k3 bias (avgUp (blk.map (red ch)))
      (avgUp (blk.map (green ch))) (avgUp (blk.map (blue ch))) := rfl
  rw [e3] at e2
  have any : ∀ f : Buf → Nat, vecMean (blk.map f) = avgUp (blk.map f) ∨
      vecMean (blk.map f) = avgUp (blk.map f) + 1 := by
    intro f
    rcases l4 f with h | h | h
    · exact .inl (vecMean_cases.1 (.inl h))
    · exact .inl (vecMean_cases.1 (.inr h))
    · exact vecMean_cases.2 h
  obtain ⟨n1, n2⟩ := encVal_step (bias := bias) h1 h2 (any (red ch)) (any (green ch)) (any (blue ch))
  dsimp only
  refine ⟨fun hne => ?_, by omega, by omega⟩
  have eq : ∀ f : Buf → Nat, vecMean (blk.map f) = avgUp (blk.map f) := by
    intro f
    refine vecMean_cases.1 ?_
    rw [List.length_map]
    omega
  rw [eq, eq, eq] at e1 ⊢
  omega

/-- C94, chroma: wherever the scalar arithmetic does not overflow, the chroma of one or two pixels (4:4:4,
4:2:2, and the odd edges of 4:2:0) is that of their average, exactly as in the scalar code; that of
four pixels differs by at most one code value from that of their average. -/
theorem c94_chroma (d : Nat) (hd : Deep d) (ch : Channels) (rg : YuvRange) (m : Matrix)
    (ho : ¬ Overflows d rg m) (blk : List Buf) (hl : blk.length = 1 ∨ blk.length = 2 ∨ blk.length = 4)
    (hb : ∀ px ∈ blk, Samples d px) :
    (blk.length ≠ 4 → vecDeepCb d ch rg m blk = deepCb d ch rg m blk ∧
      vecDeepCr d ch rg m blk = deepCr d ch rg m blk) ∧
    (vecDeepCb d ch rg m blk ≤ deepCb d ch rg m blk + 1 ∧
      deepCb d ch rg m blk ≤ vecDeepCb d ch rg m blk + 1) ∧
    (vecDeepCr d ch rg m blk ≤ deepCr d ch rg m blk + 1 ∧
      deepCr d ch rg m blk ≤ vecDeepCr d ch rg m blk + 1) := by
  obtain ⟨-, h2, h3⟩ := deepRows hd rg m ho
  obtain ⟨⟨w1, w2⟩, ⟨w3, w4⟩⟩ := chroma_weights hd rg m
  have es := c06_searchForward 15 d (by unfold Prec; omega) hd.depth rg m
  obtain ⟨a1, a2⟩ := chroma_near hd.le16 h2 w1 w2 ch hl hb
  obtain ⟨b1, b2⟩ := chroma_near hd.le16 h3 w3 w4 ch hl hb
  unfold vecDeepCb vecDeepCr deepCb deepCr cbVal crVal
  rw [es]
  exact ⟨fun h => ⟨a1 h, b1 h⟩, a2, b2⟩

/-- The pixels covered along one axis. -/
theorem blockCols_len {n d c : Nat} (hd : d = 1 ∨ d = 2) (h : c < cover n d) (hn : 0 < n) :
    (blockCols n d c).length = 1 ∨ ((blockCols n d c).length = 2 ∧ d = 2) := by
  unfold cover at h
  rcases hd with rfl | rfl
  · rw [blockCols_one (by omega)]; exact .inl rfl
  · by_cases hc : 2 * c + 1 < n
    · rw [blockCols_two hc]; exact .inr ⟨rfl, rfl⟩
    · rw [blockCols_two_last (by omega)]; exact .inl rfl

/-- The blocks of an image have one or two pixels, in 4:2:0 also four. -/
theorem block_len (rgba : Buf) (stride cn w h : Nat) (s : Sampling) {cx cy : Nat}
    (hx : cx < cover w (hdiv s)) (hy : cy < cover h (vdiv s)) (hw : 0 < w) (hh : 0 < h) :
    let l := (block rgba stride cn w h (hdiv s) (vdiv s) cx cy).length
    (l = 1 ∨ l = 2 ∨ l = 4) ∧ (s ≠ .yuv420 → l ≠ 4) := by
  have e : (block rgba stride cn w h (hdiv s) (vdiv s) cx cy).length
      = (blockCols h (vdiv s) cy).length * (blockCols w (hdiv s) cx).length := by
    unfold block
    rw [List.length_flatMap]
    simp
  have h1 := blockCols_len (by cases s <;> simp [hdiv]) hx hw
  have h2 := blockCols_len (by cases s <;> simp [vdiv]) hy hh
  dsimp only
  rw [e]
  rcases h1 with h1 | ⟨h1, d1⟩ <;> rcases h2 with h2 | ⟨h2, d2⟩ <;> rw [h1, h2]
  · simp
  · simp
  · simp
  · refine ⟨by simp, fun hs => ?_⟩
    cases s
    · exact absurd rfl hs
    · exact absurd d2 (by decide)
    · exact absurd d2 (by decide)

/-- The image is the encoding of the source: luma is that of its pixel; chroma that of the average of
the pixels it covers, in 4:2:0 up to one code value; nothing else is written. -/
structure DeepCorrect (e : Endianness) (bp : BytesPacking) (d : Nat) (ch : Channels) (s : Sampling)
    (rg : YuvRange) (m : Matrix) (rgba : Buf) (stride : Nat) (i out : Planar) : Prop where
  geometry : out.width = i.width ∧ out.height = i.height ∧ out.yStride = i.yStride ∧
    out.uStride = i.uStride ∧ out.vStride = i.vStride
  y : FrameSpec out.y i.y i.yStride i.width i.height 1 fun x y =>
    [wordOf e bp d (deepLuma d ch rg m (pixelAt rgba stride ch.count x y))]
  u : FrameRel out.u i.u i.uStride (cover i.width (hdiv s)) (cover i.height (vdiv s)) 1 fun cx cy p =>
    let c := deepCb d ch rg m (block rgba stride ch.count i.width i.height (hdiv s) (vdiv s) cx cy)
    ∃ c', p = [wordOf e bp d c'] ∧ c' ≤ c + 1 ∧ c ≤ c' + 1 ∧ (s ≠ .yuv420 → c' = c)
  v : FrameRel out.v i.v i.vStride (cover i.width (hdiv s)) (cover i.height (vdiv s)) 1 fun cx cy p =>
    let c := deepCr d ch rg m (block rgba stride ch.count i.width i.height (hdiv s) (vdiv s) cx cy)
    ∃ c', p = [wordOf e bp d c'] ∧ c' ≤ c + 1 ∧ c ≤ c' + 1 ∧ (s ≠ .yuv420 → c' = c)

/-- C94 as far as it holds: on AVX2 processors, and on SSE4.1 processors up to 14 bits except in 4:2:0,
the encoded image is correct: every luma sample is that of its own pixel — also where the scalar code
takes the row above (C30) — every chroma sample that of the average colour, exactly in 4:4:4 and 4:2:2
and up to one code value in 4:2:0, and the padding is untouched — also in 4:2:2, where the scalar code
overwrites it (C30).  Missing: 4:2:0 on SSE4.1 and 16-bit full-range BT.601; counterexamples follow. -/
theorem c94_x86_deep_values_partial (cpu : Cpu) (e : Endianness) (bp : BytesPacking) (d : Nat)
    (hd : Deep d) (hk : HasDeepKernel cpu d) (ch : Channels) (s : Sampling)
    (hs : cpu = .sse41 → s ≠ .yuv420) (i : Planar) (rgba : Buf) (stride : Nat)
    (rg : YuvRange) (m : Matrix) (ho : ¬ Overflows d rg m) (D : Nat)
    (hi : GoodPlanar i s D) (hsrc : GoodDst rgba.length stride i.width i.height ch.count)
    (hb : Samples d rgba) :
    ∃ out, rgb16ToP16On cpu e bp d ch s i rgba stride rg m = .ok out ∧
      DeepCorrect e bp d ch s rg m rgba stride i out := by
  obtain ⟨out, eo, h⟩ := c93_x86_deep_encode cpu e bp d hd hk ch s i rgba stride rg m (fun _ _ => ho) D
    hi hsrc hb
  have px : ∀ x y, Samples d (pixelAt rgba stride ch.count x y) := by
    intro x y a ha
    exact hb a (List.mem_of_mem_drop (List.mem_of_mem_take ha))
  have pb : ∀ cx cy, ∀ p ∈ block rgba stride ch.count i.width i.height (hdiv s) (vdiv s) cx cy,
      Samples d p := by
    intro cx cy p hp
    unfold block at hp
    obtain ⟨y, -, hp⟩ := List.mem_flatMap.1 hp
    obtain ⟨x, -, rfl⟩ := List.mem_map.1 hp
    exact px x y
  refine ⟨out, eo, h.geometry, ?_, ?_, ?_⟩
  · refine frameRel_eq ⟨h.y.1, fun x y hx hy => (frameSpec_pixel h.y hx hy rfl).trans ?_, h.y.2.2⟩
    unfold deepLumaOn
    rw [if_neg (fun hh => hs hh.1 hh.2.1), c94_luma d hd ch rg m ho _ (px x y)]
  · refine ⟨h.u.1, fun cx cy hx hy => ?_, h.u.2.2⟩
    obtain ⟨l1, l2⟩ := block_len rgba stride ch.count i.width i.height s hx hy hi.wpos hi.hpos
    obtain ⟨a, ⟨b1, b2⟩, -⟩ := c94_chroma d hd ch rg m ho _ l1 (pb cx cy)
    exact ⟨_, frameSpec_pixel h.u hx hy rfl, b1, b2, fun h4 => (a (l2 h4)).1⟩
  · refine ⟨h.v.1, fun cx cy hx hy => ?_, h.v.2.2⟩
    obtain ⟨l1, l2⟩ := block_len rgba stride ch.count i.width i.height s hx hy hi.wpos hi.hpos
    obtain ⟨a, -, b1, b2⟩ := c94_chroma d hd ch rg m ho _ l1 (pb cx cy)
    exact ⟨_, frameSpec_pixel h.v hx hy rfl, b1, b2, fun h4 => (a (l2 h4)).2⟩

example : GoodPlanar (demoDst16 7) .yuv420 65536 ∧ GoodDst demoRgb10.length 11 3 2 3 ∧
    Samples 12 demoRgb10 ∧ HasDeepKernel .avx2 12 ∧ ¬ Overflows 12 .full .bt601 ∧
    ¬ Overflows 16 .limited .bt601 :=
  ⟨demoDst16_good, ⟨by unfold U32; decide, by decide, by unfold FullRows; decide, by decide⟩, by
    unfold Samples; decide, .inl rfl, by decide, by decide⟩

/-- A 2×2 4:2:0 image of 10 bits. -/
def demoDst22 : Planar := ⟨[7, 7, 7, 7], 2, [7], 1, [7], 1, 2, 2⟩
theorem demoDst22_good : GoodPlanar demoDst22 .yuv420 65536 where
  wpos := by decide
  hpos := by decide
  w32 := by unfold U32; decide
  h32 := by unfold U32; decide
  y := ⟨by unfold U32; decide, by decide, by unfold FullRows; decide, by decide⟩
  u := ⟨by unfold U32; decide, by decide, by unfold FullRows; decide, by decide⟩
  v := ⟨by unfold U32; decide, by decide, by unfold FullRows; decide, by decide⟩

/-- C94 fails on SSE4.1 in 4:2:0: the luma of the second row is computed with the green of the first.
Below a black row the luma of a green pixel (0, 1023, 0) is 64, that of black. -/
theorem c94_sse_420_green_of_row_above :
    ∃ out, rgb16ToP16On .sse41 .little .lsb 10 .rgb .yuv420 demoDst22
      [0, 0, 0, 0, 0, 0, 0, 1023, 0, 0, 1023, 0] 6 .limited .bt709 = .ok out ∧
      pixelAt out.y 2 1 0 1 = [64] ∧ pixelAt out.y 2 1 1 1 = [64] ∧
      deepLuma 10 .rgb .limited .bt709 [0, 1023, 0] = 691 := by
  obtain ⟨out, e, h⟩ := c93_x86_deep_encode .sse41 .little .lsb 10 (.inl rfl) (.inr ⟨rfl, by decide⟩)
    .rgb .yuv420 demoDst22 [0, 0, 0, 0, 0, 0, 0, 1023, 0, 0, 1023, 0] 6 .limited .bt709
    (fun _ _ => by decide) 65536 demoDst22_good
    ⟨by unfold U32; decide, by decide, by unfold FullRows; decide, by decide⟩ (by unfold Samples; decide)
  refine ⟨out, e, (frameSpec_pixel h.y (x := 0) (y := 1) (by decide) (by decide) rfl).trans ?_,
    (frameSpec_pixel h.y (x := 1) (y := 1) (by decide) (by decide) rfl).trans ?_, ?_⟩
  · decide +kernel
  · decide +kernel
  · decide +kernel

/-- A 1×1 4:4:4 image. -/
def demoDst11 : Planar := ⟨[7], 1, [7], 1, [7], 1, 1, 1⟩
theorem demoDst11_good : GoodPlanar demoDst11 .yuv444 65536 where
  wpos := by decide
  hpos := by decide
  w32 := by unfold U32; decide
  h32 := by unfold U32; decide
  y := ⟨by unfold U32; decide, by decide, by unfold FullRows; decide, by decide⟩
  u := ⟨by unfold U32; decide, by decide, by unfold FullRows; decide, by decide⟩
  v := ⟨by unfold U32; decide, by decide, by unfold FullRows; decide, by decide⟩

/-- C94 fails on AVX2 at 16 bits, full range, BT.601: the luma of white does not fit in 32 bits and
becomes that of black. -/
theorem c94_avx2_16bit_white_is_black :
    ∃ out, rgb16ToP16On .avx2 .little .lsb 16 .rgb .yuv444 demoDst11 [65535, 65535, 65535] 3 .full .bt601
      = .ok out ∧ pixelAt out.y 1 1 0 0 = [0] ∧ lumaVal 15 16 .full .bt601 65535 65535 65535 ≥ 65535 := by
  obtain ⟨out, e, h⟩ := c93_x86_deep_encode .avx2 .little .lsb 16 (.inr (.inr (.inr rfl))) (.inl rfl)
    .rgb .yuv444 demoDst11 [65535, 65535, 65535] 3 .full .bt601 (fun h => by cases h) 65536 demoDst11_good
    ⟨by unfold U32; decide, by decide, by unfold FullRows; decide, by decide⟩ (by unfold Samples; decide)
  refine ⟨out, e, (frameSpec_pixel h.y (x := 0) (y := 0) (by decide) (by decide) rfl).trans ?_, ?_⟩
  · decide +kernel
  · decide +kernel

/-- The chroma of four pixels can differ from that of their average: here an average
blue of 1.25 counts as 2. -/
theorem c94_420_chroma_differs :
    vecDeepCb 10 .rgb .full .bt709 [[0, 0, 2], [0, 0, 1], [0, 0, 1], [0, 0, 1]] = 513 ∧
    deepCb 10 .rgb .full .bt709 [[0, 0, 2], [0, 0, 1], [0, 0, 1], [0, 0, 1]] = 512 := by
  decide +kernel

end Verif
