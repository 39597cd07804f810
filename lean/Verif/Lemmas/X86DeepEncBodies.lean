import Verif.Lemmas.X86DeepEncArith
import Verif.Lemmas.X86EncValues
/-! # One step of the x86 encoders of 10- to 16-bit images -/
namespace Verif.X86
open Spec

/-! ## The kernels -/

/-- The arithmetic of a kernel on components below `B`, for biases and weights that satisfy `P`. -/
structure KernelOk (K : DeepKernel) (B : Nat) (P : Nat → Int × Int × Int → Prop) : Prop where
  even : K.n % 2 = 0
  pos : 0 < K.n
  le : K.n ≤ 16
  load : ∀ (ch : Channels) (l : Buf) (x0 : Nat), (x0 + K.n) * ch.count ≤ l.length →
    (∀ s ∈ l, s < 65536) → ∃ c, K.load ch l (x0 * ch.count) = .ok c ∧ PixAtW ch c K.n l x0
  dot : ∀ {bias : Nat} {k : Int × Int × Int}, P bias k → ∀ {c : Reg × Reg × Reg} {j r g b : Nat},
    j < K.n → r < B → g < B → b < B → w16 c.1 j = r → w16 c.2.1 j = g → w16 c.2.2 j = b →
    w16 (K.dot (deepBias bias) k c) j = sumWord bias k r g b
  dotBytes : ∀ bias k c, RegBytes (K.dot bias k c)
  pairs : ∀ {bias : Nat} {k : Int × Int × Int}, P bias k → ∀ {c : Reg × Reg × Reg}
    {j r g b r' g' b' : Nat}, j < K.n / 2 → r < B → g < B → b < B → r' < B → g' < B → b' < B →
    w16 c.1 (2 * j) = r → w16 c.2.1 (2 * j) = g → w16 c.2.2 (2 * j) = b →
    w16 c.1 (2 * j + 1) = r' → w16 c.2.1 (2 * j + 1) = g' → w16 c.2.2 (2 * j + 1) = b' →
    w16 (K.pairs (deepBias bias) k c) j
      = sumWord bias k ((r + r' + 1) / 2) ((g + g' + 1) / 2) ((b + b' + 1) / 2)
  pairsBytes : ∀ bias k c, RegBytes (K.pairs bias k c)

theorem packus_bytes (a b : Reg) : RegBytes (packus32 a b) := mk16_bytes _

theorem avx2Deep_ok {B : Nat} (hB : B ≤ 32768) :
    KernelOk avx2Deep B fun bias k => SumFits B (deepBias bias) k where
  even := rfl
  pos := by decide
  le := by decide
  load ch l x0 h hl := avx2Load16_at ch h hl
  dot hf _ _ _ _ _ _ hr hg hb h1 h2 h3 := affDot_at hB hf blueWord_ok hr hg hb h1 h2 h3
  dotBytes _ _ _ := packus_bytes _ _
  pairs hf _ j _ _ _ _ _ _ hj hr hg hb hr' hg' hb' h1 h2 h3 h1' h2' h3' :=
    (avx2Pack32_at _ (show j < 8 from hj)).trans
      (affHalf_at hB hf blueWord_ok hr hg hb hr' hg' hb' h1 h2 h3 h1' h2' h3')
  pairsBytes _ _ _ := perm4_bytes (packus_bytes _ _) _

theorem avx2Deep16_ok : KernelOk avx2Deep16 65536 fun _ _ => True where
  even := rfl
  pos := by decide
  le := by decide
  load ch l x0 h hl := avx2Load16_at ch h hl
  dot _ _ _ _ _ _ _ hr hg hb h1 h2 h3 := wideDot_at hr hg hb h1 h2 h3
  dotBytes _ _ _ := packus_bytes _ _
  pairs _ _ j _ _ _ _ _ _ hj hr hg hb hr' hg' hb' h1 h2 h3 h1' h2' h3' :=
    (avx2Pack32_at _ (show j < 8 from hj)).trans
      (widePairSum_at hj hr hg hb hr' hg' hb' h1 h2 h3 h1' h2' h3')
  pairsBytes _ _ _ := perm4_bytes (packus_bytes _ _) _

theorem sseDeep_ok {B : Nat} (hB : B ≤ 32768) :
    KernelOk sseDeep B fun bias k => SumFits B (deepBias bias) k where
  even := rfl
  pos := by decide
  le := by decide
  load ch l x0 h hl := sseLoad16_at ch h hl
  dot hf _ _ _ _ _ _ hr hg hb h1 h2 h3 := affDot_at hB hf blueDword_ok hr hg hb h1 h2 h3
  dotBytes _ _ _ := packus_bytes _ _
  pairs hf _ j _ _ _ _ _ _ hj hr hg hb hr' hg' hb' h1 h2 h3 h1' h2' h3' :=
    (ssePack32_at _ (show j < 4 from hj)).trans
      (affHalf_at hB hf blueDword_ok hr hg hb hr' hg' hb' h1 h2 h3 h1' h2' h3')
  pairsBytes _ _ _ := packus_bytes _ _

theorem sseDeep420_ok {B : Nat} (hB : B ≤ 32768) :
    KernelOk sseDeep420 B fun bias k => SumFits B (deepBias bias) k where
  even := rfl
  pos := by decide
  le := by decide
  load ch l x0 h hl := sseLoad16_at ch h hl
  dot hf _ _ _ _ _ _ hr hg hb h1 h2 h3 := affDot_at hB hf blueWord_ok hr hg hb h1 h2 h3
  dotBytes _ _ _ := packus_bytes _ _
  pairs hf _ j _ _ _ _ _ _ hj hr hg hb hr' hg' hb' h1 h2 h3 h1' h2' h3' :=
    (ssePack32_at _ (show j < 4 from hj)).trans
      (affHalf_at hB hf blueWord_ok hr hg hb hr' hg' hb' h1 h2 h3 h1' h2' h3')
  pairsBytes _ _ _ := packus_bytes _ _

/-! ## Values -/

/-- The component of chroma sample `c` of a row of components. -/
def midWord (s : Sampling) (R : Nat → Nat) (c : Nat) : Nat :=
  if s = .yuv444 then R c else (R (2 * c) + R (2 * c + 1) + 1) / 2

/-- Stored luma of a pixel. -/
def lumaWord (q : DeepConf) (r g b : Nat) : Nat :=
  wordOf q.e q.bp q.d (sumWord q.rg.biasY (kLuma q.t) r g b)
/-- Stored luma of a pixel. -/
def deepL (q : DeepConf) (px : Buf) : Nat := lumaWord q (red q.ch px) (green q.ch px) (blue q.ch px)
/-- Stored chroma of one row. -/
def deepC1 (s : Sampling) (q : DeepConf) (k : Int × Int × Int) (p : Nat → Buf) (c : Nat) : Nat :=
  wordOf q.e q.bp q.d (sumWord q.rg.biasUv k (midWord s (fun x => red q.ch (p x)) c)
    (midWord s (fun x => green q.ch (p x)) c) (midWord s (fun x => blue q.ch (p x)) c))
/-- The average of two rows of components. -/
abbrev midRow (f : Buf → Nat) (p0 p1 : Nat → Buf) (x : Nat) : Nat := (f (p0 x) + f (p1 x) + 1) / 2
/-- Stored chroma of two rows. -/
def deepC2 (q : DeepConf) (k : Int × Int × Int) (p0 p1 : Nat → Buf) (c : Nat) : Nat :=
  wordOf q.e q.bp q.d (sumWord q.rg.biasUv k (midWord .yuv420 (midRow (red q.ch) p0 p1) c)
    (midWord .yuv420 (midRow (green q.ch) p0 p1) c) (midWord .yuv420 (midRow (blue q.ch) p0 p1) c))

theorem midWord_sub {s : Sampling} (hs : s ≠ .yuv444) (R : Nat → Nat) (c : Nat) :
    midWord s R c = (R (2 * c) + R (2 * c + 1) + 1) / 2 := if_neg hs

theorem midWord_congr {s : Sampling} {R S : Nat → Nat} {c d : Nat}
    (h : ∀ i, i < hdiv s → R (hdiv s * c + i) = S (hdiv s * d + i)) : midWord s R c = midWord s S d := by
  cases s
  · have h0 := h 0 (by decide); have h1 := h 1 (by decide)
    simp only [hdiv, Nat.add_zero] at h0 h1
    simp only [midWord, h0, h1]; rfl
  · have h0 := h 0 (by decide); have h1 := h 1 (by decide)
    simp only [hdiv, Nat.add_zero] at h0 h1
    simp only [midWord, h0, h1]; rfl
  · have h0 := h 0 (by decide)
    simp only [hdiv, Nat.add_zero, Nat.one_mul] at h0
    simp only [midWord, h0]; rfl

theorem deepC1_local (s : Sampling) (q : DeepConf) (k : Int × Int × Int) : Local1 s (deepC1 s q k) := by
  intro p p' c d h
  unfold deepC1
  rw [midWord_congr (R := fun x => red q.ch (p x)) (S := fun x => red q.ch (p' x)) (d := d)
      fun i hi => congrArg (red q.ch) (h i hi),
    midWord_congr (R := fun x => green q.ch (p x)) (S := fun x => green q.ch (p' x)) (d := d)
      fun i hi => congrArg (green q.ch) (h i hi),
    midWord_congr (R := fun x => blue q.ch (p x)) (S := fun x => blue q.ch (p' x)) (d := d)
      fun i hi => congrArg (blue q.ch) (h i hi)]

theorem deepC2_local (q : DeepConf) (k : Int × Int × Int) : Local2 (deepC2 q k) := by
  intro p r p' r' c d h h'
  have e : ∀ f : Buf → Nat, midWord .yuv420 (midRow f p r) c = midWord .yuv420 (midRow f p' r') d := by
    intro f
    refine midWord_congr fun i hi => ?_
    simp only [hdiv, midRow] at *
    rw [h i hi, h' i hi]
  unfold deepC2
  rw [e, e, e]

/-! ## Steps -/

theorem store16_flat {n p : Nat} {r : Reg} {f : Nat → Nat} (h : ∀ i, i < n → w16 r i = f i) (l : Buf) :
    store16 n r p l = put l p ((List.range n).flatMap fun j => [f j]) := by
  have e : (List.range n).map (w16 r) = (List.range n).flatMap fun j => [f j] := by
    rw [← List.map_eq_flatMap]
    exact List.map_congr_left fun i hi => h i (List.mem_range.1 hi)
  rw [store16, e]

theorem comp_lt {B : Nat} (hB : 0 < B) {px : Buf} (h : ∀ b ∈ px, b < B) (i : Nat) : px.getD i 0 < B := by
  rw [List.getD_eq_getElem?_getD]
  cases e : px[i]? with
  | none => exact hB
  | some v => exact h v (List.mem_of_getElem? e)

theorem red_lt' {B : Nat} (hB : 0 < B) (ch : Channels) {px : Buf} (h : ∀ b ∈ px, b < B) :
    red ch px < B := by cases ch <;> exact comp_lt hB h _
theorem green_lt' {B : Nat} (hB : 0 < B) (ch : Channels) {px : Buf} (h : ∀ b ∈ px, b < B) :
    green ch px < B := by cases ch <;> exact comp_lt hB h _
theorem blue_lt' {B : Nat} (hB : 0 < B) (ch : Channels) {px : Buf} (h : ∀ b ∈ px, b < B) :
    blue ch px < B := by cases ch <;> exact comp_lt hB h _

/-- The weights of `q` are good for a kernel, and the sums fit the depth. -/
structure ConfOk (q : DeepConf) (B : Nat) (P : Nat → Int × Int × Int → Prop) : Prop where
  deep : Verif.Deep q.d
  pos : 0 < B
  le : B ≤ 65536
  luma : P q.rg.biasY (kLuma q.t)
  cb : P q.rg.biasUv (kCb q.t)
  cr : P q.rg.biasUv (kCr q.t)
  luma_lt : ∀ r g b, r < B → g < B → b < B → sumWord q.rg.biasY (kLuma q.t) r g b < 2 ^ q.d
  cb_lt : ∀ r g b, r < B → g < B → b < B → sumWord q.rg.biasUv (kCb q.t) r g b < 2 ^ q.d
  cr_lt : ∀ r g b, r < B → g < B → b < B → sumWord q.rg.biasUv (kCr q.t) r g b < 2 ^ q.d

variable {K : DeepKernel} {B : Nat} {P : Nat → Int × Int × Int → Prop} {q : DeepConf}

/-- Luma and unsubsampled chroma: one word per pixel. -/
theorem dot_flat (hK : KernelOk K B P) (hd : Verif.Deep q.d) {bias : Nat} {k : Int × Int × Int}
    (hP : P bias k) (hlt : ∀ r g b, r < B → g < B → b < B → sumWord bias k r g b < 2 ^ q.d)
    {c : Reg × Reg × Reg} {R G Bl : Nat → Nat} (hc : ChansW c K.n R G Bl)
    (hR : ∀ j, R j < B) (hG : ∀ j, G j < B) (hBl : ∀ j, Bl j < B) (p : Nat) (l : Buf) :
    store16 K.n (storedReg q.e q.bp q.d (K.dot (deepBias bias) k c)) p l
      = put l p ((List.range K.n).flatMap fun j =>
          [wordOf q.e q.bp q.d (sumWord bias k (R j) (G j) (Bl j))]) := by
  refine store16_flat (fun j hj => ?_) l
  have hle := hK.le
  obtain ⟨h1, h2, h3⟩ := hc j hj
  exact storedReg_at q.e q.bp hd (hK.dotBytes _ _ _) (by omega) (hlt _ _ _ (hR j) (hG j) (hBl j))
    (hK.dot hP hj (hR j) (hG j) (hBl j) h1 h2 h3)

/-- Subsampled chroma: one word per two pixels. -/
theorem pairs_flat (hK : KernelOk K B P) (hd : Verif.Deep q.d) {s : Sampling} (hs : s ≠ .yuv444)
    {bias : Nat} {k : Int × Int × Int}
    (hP : P bias k) (hlt : ∀ r g b, r < B → g < B → b < B → sumWord bias k r g b < 2 ^ q.d)
    {c : Reg × Reg × Reg} {R G Bl : Nat → Nat} (hc : ChansW c K.n R G Bl)
    (hR : ∀ j, R j < B) (hG : ∀ j, G j < B) (hBl : ∀ j, Bl j < B) (p : Nat) (l : Buf) :
    store16 (K.n / 2) (storedReg q.e q.bp q.d (K.pairs (deepBias bias) k c)) p l
      = put l p ((List.range (K.n / 2)).flatMap fun j =>
          [wordOf q.e q.bp q.d (sumWord bias k (midWord s R j) (midWord s G j) (midWord s Bl j))]) := by
  refine store16_flat (fun j hj => ?_) l
  have hle := hK.le
  obtain ⟨h1, h2, h3⟩ := hc (2 * j) (by omega)
  obtain ⟨h1', h2', h3'⟩ := hc (2 * j + 1) (by omega)
  have hm : ∀ R : Nat → Nat, (∀ j, R j < B) → (R (2 * j) + R (2 * j + 1) + 1) / 2 < B := by
    intro R h; have := h (2 * j); have := h (2 * j + 1); omega
  rw [midWord_sub hs, midWord_sub hs, midWord_sub hs]
  exact storedReg_at q.e q.bp hd (hK.pairsBytes _ _ _) (by omega)
    (hlt _ _ _ (hm R hR) (hm G hG) (hm Bl hBl))
    (hK.pairs hP hj (hR _) (hG _) (hBl _) (hR _) (hG _) (hBl _) h1 h2 h3 h1' h2' h3')

theorem deepEnc_step (hK : KernelOk K B P) (hq : ConfOk q B P) (s : Sampling) :
    StepOk K.n s q.ch B (deepL q) (deepC1 s q (kCb q.t)) (deepC1 s q (kCr q.t)) (deepEnc K s q) := by
  intro src x0 o cx ux hb hl
  have hle := hq.le
  have hn := hK.even
  obtain ⟨c, e, hc⟩ := hK.load q.ch src x0 hl fun b h => Nat.lt_of_lt_of_le (hb b h) hle
  have hR : ∀ j, red q.ch (rowPx src q.ch.count (x0 + j)) < B := fun j => red_lt' hq.pos _ (bnd_rowPx hb)
  have hG : ∀ j, green q.ch (rowPx src q.ch.count (x0 + j)) < B := fun j => green_lt' hq.pos _ (bnd_rowPx hb)
  have hBl : ∀ j, blue q.ch (rowPx src q.ch.count (x0 + j)) < B := fun j => blue_lt' hq.pos _ (bnd_rowPx hb)
  have ec : ceil2 K.n = K.n / 2 := by unfold ceil2; omega
  rw [deepEnc, e, Outcome.bind_ok]
  refine bindEq (dot_flat hK hq.deep hq.luma hq.luma_lt hc hR hG hBl _ _) fun y => ?_
  cases s
  · simp only [chromaStep, ec]
    exact bindEq (pairs_flat hK hq.deep (s := .yuv420) (by decide) hq.cb hq.cb_lt hc hR hG hBl _ _) fun u =>
      bindEq (pairs_flat hK hq.deep (s := .yuv420) (by decide) hq.cr hq.cr_lt hc hR hG hBl _ _) fun v => rfl
  · simp only [chromaStep, ec]
    exact bindEq (pairs_flat hK hq.deep (s := .yuv422) (by decide) hq.cb hq.cb_lt hc hR hG hBl _ _) fun u =>
      bindEq (pairs_flat hK hq.deep (s := .yuv422) (by decide) hq.cr hq.cr_lt hc hR hG hBl _ _) fun v => rfl
  · exact bindEq (dot_flat hK hq.deep hq.cb hq.cb_lt hc hR hG hBl _ _) fun u =>
      bindEq (dot_flat hK hq.deep hq.cr hq.cr_lt hc hR hG hBl _ _) fun v => rfl

/-- Luma of the second row, given the pixel above: `second` takes the components of the pixel
itself or, if `mix`, the green of the pixel above. -/
def deepL1 (mix : Bool) (q : DeepConf) (above px : Buf) : Nat :=
  lumaWord q (red q.ch px) (green q.ch (if mix then above else px)) (blue q.ch px)

/-- What `second` picks. -/
def SecondOk (K : DeepKernel) (mix : Bool) : Prop :=
  ∀ c0 c1, K.second c0 c1 = (c1.1, if mix then c0.2.1 else c1.2.1, c1.2.2)

theorem deepEnc420_step (hK : KernelOk K B P) (hq : ConfOk q B P) {mix : Bool} (h2 : SecondOk K mix) :
    StepOk2 K.n q.ch B (fun a _ => deepL q a) (deepL1 mix q) (deepC2 q (kCb q.t)) (deepC2 q (kCr q.t))
      (deepEnc420 K q) := by
  intro src0 src1 x0 o cx ux hb0 hb1 hl0 hl1
  have hle := hq.le
  have hn := hK.even
  obtain ⟨c0, e0, hc0⟩ := hK.load q.ch src0 x0 hl0 fun b h => Nat.lt_of_lt_of_le (hb0 b h) hle
  obtain ⟨c1, e1, hc1⟩ := hK.load q.ch src1 x0 hl1 fun b h => Nat.lt_of_lt_of_le (hb1 b h) hle
  have hR : ∀ {src : Buf}, (∀ b ∈ src, b < B) → ∀ j, red q.ch (rowPx src q.ch.count (x0 + j)) < B :=
    fun hb j => red_lt' hq.pos _ (bnd_rowPx hb)
  have hG : ∀ {src : Buf}, (∀ b ∈ src, b < B) → ∀ j, green q.ch (rowPx src q.ch.count (x0 + j)) < B :=
    fun hb j => green_lt' hq.pos _ (bnd_rowPx hb)
  have hBl : ∀ {src : Buf}, (∀ b ∈ src, b < B) → ∀ j, blue q.ch (rowPx src q.ch.count (x0 + j)) < B :=
    fun hb j => blue_lt' hq.pos _ (bnd_rowPx hb)
  have hs : ChansW (K.second c0 c1) K.n (fun j => red q.ch (rowPx src1 q.ch.count (x0 + j)))
      (fun j => green q.ch (if mix then rowPx src0 q.ch.count (x0 + j) else rowPx src1 q.ch.count (x0 + j)))
      (fun j => blue q.ch (rowPx src1 q.ch.count (x0 + j))) := by
    intro j hj
    obtain ⟨a1, a2, a3⟩ := hc0 j hj
    obtain ⟨b1, b2, b3⟩ := hc1 j hj
    rw [h2]
    refine ⟨b1, ?_, b3⟩
    cases mix
    · exact b2
    · exact a2
  have hGs : ∀ j, green q.ch (if mix then rowPx src0 q.ch.count (x0 + j)
      else rowPx src1 q.ch.count (x0 + j)) < B := by
    intro j
    cases mix
    · exact hG hb1 j
    · exact hG hb0 j
  have ha : ChansW (avgRows16 c0 c1) K.n
      (midRow (red q.ch) (fun x => rowPx src0 q.ch.count (x0 + x)) (fun x => rowPx src1 q.ch.count (x0 + x)))
      (midRow (green q.ch) (fun x => rowPx src0 q.ch.count (x0 + x)) (fun x => rowPx src1 q.ch.count (x0 + x)))
      (midRow (blue q.ch) (fun x => rowPx src0 q.ch.count (x0 + x)) (fun x => rowPx src1 q.ch.count (x0 + x))) := by
    intro j hj
    obtain ⟨a1, a2, a3⟩ := hc0 j hj
    obtain ⟨b1, b2, b3⟩ := hc1 j hj
    exact ⟨avgU16_at (Nat.lt_of_lt_of_le (hR hb0 j) hle) (Nat.lt_of_lt_of_le (hR hb1 j) hle) a1 b1,
      avgU16_at (Nat.lt_of_lt_of_le (hG hb0 j) hle) (Nat.lt_of_lt_of_le (hG hb1 j) hle) a2 b2,
      avgU16_at (Nat.lt_of_lt_of_le (hBl hb0 j) hle) (Nat.lt_of_lt_of_le (hBl hb1 j) hle) a3 b3⟩
  have hm : ∀ f : Buf → Nat, (∀ j, f (rowPx src0 q.ch.count (x0 + j)) < B) →
      (∀ j, f (rowPx src1 q.ch.count (x0 + j)) < B) → ∀ j, midRow f (fun x => rowPx src0 q.ch.count (x0 + x))
        (fun x => rowPx src1 q.ch.count (x0 + x)) j < B := by
    intro f h0 h1 j
    have := h0 j; have := h1 j
    simp only [midRow]; omega
  rw [deepEnc420, e0, Outcome.bind_ok, e1, Outcome.bind_ok]
  exact bindEq (dot_flat hK hq.deep hq.luma hq.luma_lt hc0 (hR hb0) (hG hb0) (hBl hb0) _ _) fun y0 =>
    bindEq (dot_flat hK hq.deep hq.luma hq.luma_lt hs (hR hb1) hGs (hBl hb1) _ _) fun y1 =>
    bindEq (pairs_flat hK hq.deep (s := .yuv420) (by decide) hq.cb hq.cb_lt ha (hm _ (hR hb0) (hR hb1))
      (hm _ (hG hb0) (hG hb1)) (hm _ (hBl hb0) (hBl hb1)) _ _) fun u =>
    bindEq (pairs_flat hK hq.deep (s := .yuv420) (by decide) hq.cr hq.cr_lt ha (hm _ (hR hb0) (hR hb1))
      (hm _ (hG hb0) (hG hb1)) (hm _ (hBl hb0) (hBl hb1)) _ _) fun v => rfl

/-! ## Rows -/

theorem deepEncRow_ok (hK : KernelOk K B P) (hq : ConfOk q B P) (s : Sampling) {w : Nat} (hw : 0 < w)
    {rgba : Buf} (hB : ∀ b ∈ rgba, b < B) (hr : w * q.ch.count ≤ rgba.length) {o : Planes}
    (ly : w ≤ o.1.length) (lu : (w - 1) / hdiv s + 1 ≤ o.2.1.length)
    (lv : (w - 1) / hdiv s + 1 ≤ o.2.2.length) :
    ∃ ux, deepEncRow K s q w rgba o 0 0
      = .ok (encSt (hdiv s) (valL q.ch (deepL q) rgba) (valC q.ch (deepC1 s q (kCb q.t)) w rgba)
          (valC q.ch (deepC1 s q (kCr q.t)) w rgba) o w, w, ux) :=
  valRow_ok (deepEnc_step hK hq s) (deepC1_local s q _) (deepC1_local s q _) hK.even hK.pos hq.pos hw hB
    hr ly lu lv

theorem deepEncRow420_ok (hK : KernelOk K B P) (hq : ConfOk q B P) {mix : Bool} (h2 : SecondOk K mix)
    {w : Nat} (hw : 0 < w) {rgba0 rgba1 : Buf} (hB0 : ∀ b ∈ rgba0, b < B) (hB1 : ∀ b ∈ rgba1, b < B)
    (hr0 : w * q.ch.count ≤ rgba0.length) (hr1 : w * q.ch.count ≤ rgba1.length) {o : Planes4}
    (ly0 : w ≤ o.1.length) (ly1 : w ≤ o.2.1.length) (lu : (w - 1) / 2 + 1 ≤ o.2.2.1.length)
    (lv : (w - 1) / 2 + 1 ≤ o.2.2.2.length) :
    ∃ ux, deepEncRow420 K q w rgba0 rgba1 o 0 0
      = .ok (encSt2 (valL2 q.ch (fun a _ => deepL q a) rgba0 rgba1) (valL2 q.ch (deepL1 mix q) rgba0 rgba1)
          (valC2 q.ch (deepC2 q (kCb q.t)) w rgba0 rgba1) (valC2 q.ch (deepC2 q (kCr q.t)) w rgba0 rgba1)
          o w, w, ux) :=
  valRow420_ok (deepEnc420_step hK hq h2) (deepC2_local q _) (deepC2_local q _) hK.even hK.pos hq.pos hw
    hB0 hB1 hr0 hr1 ly0 ly1 lu lv

end Verif.X86
