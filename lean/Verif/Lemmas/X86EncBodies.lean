import Verif.Lemmas.X86EncRows
/-! # The planar x86 row encoders: steps and rows -/
namespace Verif.X86
open Spec

/-! ## Values -/

/-- The twelve-bit component of chroma sample `c` of a row of components. -/
def chWord (s : Sampling) (R : Nat → Nat) (c : Nat) : Nat :=
  if s = .yuv444 then expand12 (R c) else 8 * (R (2 * c) + R (2 * c + 1))

/-- A luma value. -/
def lumaVec (ch : Channels) (bias : Int) (k : Int × Int × Int) (px : Buf) : Nat :=
  vecSum bias k (expand12 (red ch px)) (expand12 (green ch px)) (expand12 (blue ch px))

/-- A chroma value of one row. -/
def chroma1 (s : Sampling) (ch : Channels) (bias : Int) (k : Int × Int × Int) (p : Nat → Buf)
    (c : Nat) : Nat :=
  vecSum bias k (chWord s (fun x => red ch (p x)) c) (chWord s (fun x => green ch (p x)) c)
    (chWord s (fun x => blue ch (p x)) c)

/-- A chroma value of two rows. -/
def chroma2 (ch : Channels) (bias : Int) (k : Int × Int × Int) (p q : Nat → Buf) (c : Nat) : Nat :=
  vecSum bias k (chWord .yuv420 (fun x => (red ch (p x) + red ch (q x) + 1) / 2) c)
    (chWord .yuv420 (fun x => (green ch (p x) + green ch (q x) + 1) / 2) c)
    (chWord .yuv420 (fun x => (blue ch (p x) + blue ch (q x) + 1) / 2) c)

theorem chroma1_congr {s : Sampling} {ch : Channels} {bias : Int} {k : Int × Int × Int}
    {p q : Nat → Buf} {c d : Nat}
    (h : ∀ i, i < hdiv s → p (hdiv s * c + i) = q (hdiv s * d + i)) :
    chroma1 s ch bias k p c = chroma1 s ch bias k q d := by
  unfold chroma1 chWord
  cases s
  · have h0 := h 0 (by decide); have h1 := h 1 (by decide)
    simp only [hdiv, Nat.add_zero] at h0 h1
    simp only [h0, h1, reduceCtorEq, if_false]
  · have h0 := h 0 (by decide); have h1 := h 1 (by decide)
    simp only [hdiv, Nat.add_zero] at h0 h1
    simp only [h0, h1, reduceCtorEq, if_false]
  · have h0 := h 0 (by decide)
    simp only [hdiv, Nat.add_zero, Nat.one_mul] at h0
    simp only [if_true, h0]

theorem chroma2_congr {ch : Channels} {bias : Int} {k : Int × Int × Int}
    {p q p' q' : Nat → Buf} {c d : Nat} (h : ∀ i, i < 2 → p (2 * c + i) = p' (2 * d + i))
    (h' : ∀ i, i < 2 → q (2 * c + i) = q' (2 * d + i)) :
    chroma2 ch bias k p q c = chroma2 ch bias k p' q' d := by
  have h0 := h 0 (by decide); have h1 := h 1 (by decide)
  have g0 := h' 0 (by decide); have g1 := h' 1 (by decide)
  simp only [Nat.add_zero] at h0 g0
  simp only [chroma2, chWord, h0, h1, g0, g1, reduceCtorEq, if_false]

/-! ## Steps -/

/-- A step of `n` pixels computes the luma and chroma values of its pixels. -/
def BodyOk (n : Nat) (s : Sampling) (ch : Channels) (bl bc : Int) (kl ku kv : Int × Int × Int)
    (f : Buf → Nat → Planes → Nat → Nat → Outcome Planes) : Prop :=
  ∀ (src : Buf) (x0 : Nat) (o : Planes) (cx ux : Nat), (∀ b ∈ src, b < 256) →
    (x0 + n) * ch.count ≤ src.length →
    f src (x0 * ch.count) o cx ux = (do
      let y ← put o.1 cx ((List.range n).flatMap fun j => [lumaVec ch bl kl (rowPx src ch.count (x0 + j))])
      let u ← put o.2.1 ux ((List.range (chromaStep s n)).flatMap fun c =>
        [chroma1 s ch bc ku (fun x => rowPx src ch.count (x0 + x)) c])
      let v ← put o.2.2 ux ((List.range (chromaStep s n)).flatMap fun c =>
        [chroma1 s ch bc kv (fun x => rowPx src ch.count (x0 + x)) c])
      return (y, u, v))

/-- A step of `n` pixels of two rows. -/
def BodyOk2 (n : Nat) (ch : Channels) (bl bc : Int) (kl ku kv : Int × Int × Int)
    (f : Buf → Buf → Nat → Planes4 → Nat → Nat → Outcome Planes4) : Prop :=
  ∀ (src0 src1 : Buf) (x0 : Nat) (o : Planes4) (cx ux : Nat), (∀ b ∈ src0, b < 256) →
    (∀ b ∈ src1, b < 256) → (x0 + n) * ch.count ≤ src0.length → (x0 + n) * ch.count ≤ src1.length →
    f src0 src1 (x0 * ch.count) o cx ux = (do
      let y0 ← put o.1 cx ((List.range n).flatMap fun j => [lumaVec ch bl kl (rowPx src0 ch.count (x0 + j))])
      let y1 ← put o.2.1 cx ((List.range n).flatMap fun j => [lumaVec ch bl kl (rowPx src1 ch.count (x0 + j))])
      let u ← put o.2.2.1 ux ((List.range (n / 2)).flatMap fun c =>
        [chroma2 ch bc ku (fun x => rowPx src0 ch.count (x0 + x)) (fun x => rowPx src1 ch.count (x0 + x)) c])
      let v ← put o.2.2.2 ux ((List.range (n / 2)).flatMap fun c =>
        [chroma2 ch bc kv (fun x => rowPx src0 ch.count (x0 + x)) (fun x => rowPx src1 ch.count (x0 + x)) c])
      return (y0, y1, u, v))

theorem store_flat {n p : Nat} {r : Reg} {f : Nat → Nat} (h : ∀ i, i < n → r i = f i) (l : Buf) :
    store n r p l = put l p ((List.range n).flatMap fun j => [f j]) := by
  have e : bytes n r = (List.range n).flatMap fun j => [f j] := by
    rw [← List.map_eq_flatMap]
    exact List.map_congr_left fun i hi => h i (List.mem_range.1 hi)
  rw [store, e]

theorem red_lt {ch : Channels} {px : Buf} (h : ∀ b ∈ px, b < 256) : red ch px < 256 := by
  cases ch <;> exact getD_lt h _
theorem green_lt {ch : Channels} {px : Buf} (h : ∀ b ∈ px, b < 256) : green ch px < 256 := by
  cases ch <;> exact getD_lt h _
theorem blue_lt {ch : Channels} {px : Buf} (h : ∀ b ∈ px, b < 256) : blue ch px < 256 := by
  cases ch <;> exact getD_lt h _

theorem bindEq {α β : Type} {x x' : Outcome α} {f g : α → Outcome β} (h : x = x')
    (hf : ∀ a, f a = g a) : (x >>= f) = (x' >>= g) := by
  rw [h]; congr 1; funext a; exact hf a

theorem PixAt.chans {ch : Channels} {c : Reg × Reg × Reg} {n : Nat} {l : Buf} {x0 : Nat}
    (h : PixAt ch c n l x0) (hl : ∀ b ∈ l, b < 256) :
    Chans c n (fun x => red ch (rowPx l ch.count (x0 + x)))
      (fun x => green ch (rowPx l ch.count (x0 + x)))
      (fun x => blue ch (rowPx l ch.count (x0 + x))) := by
  intro i hi
  obtain ⟨h1, h2, h3⟩ := h i hi
  exact ⟨⟨h1, red_lt (bnd_rowPx hl)⟩, ⟨h2, green_lt (bnd_rowPx hl)⟩, h3, blue_lt (bnd_rowPx hl)⟩

theorem Chans.avg {c d : Reg × Reg × Reg} {n : Nat} {R G B R' G' B' : Nat → Nat}
    (h : Chans c n R G B) (h' : Chans d n R' G' B') :
    Chans (avgRows c d) n (fun x => (R x + R' x + 1) / 2) (fun x => (G x + G' x + 1) / 2)
      (fun x => (B x + B' x + 1) / 2) := fun i hi => avgRows_at (h i hi) (h' i hi)

theorem chWord_sub {s : Sampling} (h : s ≠ .yuv444) (R : Nat → Nat) (c : Nat) :
    chWord s R c = 8 * (R (2 * c) + R (2 * c + 1)) := if_neg h

variable {rg : ChromaRange} {t : FwdCoef} {ch : Channels}

/-- Weights and offsets of the three outputs. -/
structure FwdOk (rg : ChromaRange) (t : FwdCoef) : Prop where
  y : DotOk (biasLuma rg) (kLuma t)
  u : DotOk (biasChroma rg) (kCb t)
  v : DotOk (biasChroma rg) (kCr t)

theorem avx2Enc_body (hf : FwdOk rg t) (s : Sampling) :
    BodyOk 32 s ch (biasLuma rg) (biasChroma rg) (kLuma t) (kCb t) (kCr t) (avx2Enc s ch rg t) := by
  intro src x0 o cx ux hb hl
  obtain ⟨c, e, hp⟩ := avx2Load_at ch hl
  have hc := hp.chans hb
  rw [avx2Enc, e, Outcome.bind_ok]
  refine bindEq (store_flat (fun i hi => dotBytes_at hf.y (n := 32) rfl hc hi) _) fun y => ?_
  have sub : ∀ s, s ≠ .yuv444 → ∀ k, DotOk (biasChroma rg) k → ∀ l,
      store 16 (avx2Pairs (biasChroma rg) k c) ux l
        = put l ux ((List.range 16).flatMap fun j =>
          [chroma1 s ch (biasChroma rg) k (fun x => rowPx src ch.count (x0 + x)) j]) := by
    intro s hs k hk l
    refine store_flat (fun i hi => ?_) l
    rw [avx2Pairs_at hk hc hi]
    simp only [chroma1, chWord_sub hs]
  cases s
  · exact bindEq (sub .yuv420 (by decide) _ hf.u _) fun u =>
      bindEq (sub .yuv420 (by decide) _ hf.v _) fun v => rfl
  · exact bindEq (sub .yuv422 (by decide) _ hf.u _) fun u =>
      bindEq (sub .yuv422 (by decide) _ hf.v _) fun v => rfl
  · exact bindEq (store_flat (fun i hi => dotBytes_at hf.u (n := 32) rfl hc hi) _) fun u =>
      bindEq (store_flat (fun i hi => dotBytes_at hf.v (n := 32) rfl hc hi) _) fun v => rfl

theorem sseEnc_body (hf : FwdOk rg t) (s : Sampling) :
    BodyOk 16 s ch (biasLuma rg) (biasChroma rg) (kLuma t) (kCb t) (kCr t) (sseEnc s ch rg t) := by
  intro src x0 o cx ux hb hl
  obtain ⟨c, e, hp⟩ := sseLoad_at ch hl
  have hc := hp.chans hb
  rw [sseEnc, e, Outcome.bind_ok]
  refine bindEq (store_flat (fun i hi => dotBytes_at hf.y (n := 16) rfl hc hi) _) fun y => ?_
  have sub : ∀ s, s ≠ .yuv444 → ∀ k, DotOk (biasChroma rg) k → ∀ l,
      store 8 (ssePairs (biasChroma rg) k c) ux l
        = put l ux ((List.range 8).flatMap fun j =>
          [chroma1 s ch (biasChroma rg) k (fun x => rowPx src ch.count (x0 + x)) j]) := by
    intro s hs k hk l
    refine store_flat (fun i hi => ?_) l
    rw [ssePairs_at hk (Nat.le_refl 16) hc (by omega)]
    simp only [chroma1, chWord_sub hs]
  cases s
  · exact bindEq (sub .yuv420 (by decide) _ hf.u _) fun u =>
      bindEq (sub .yuv420 (by decide) _ hf.v _) fun v => rfl
  · exact bindEq (sub .yuv422 (by decide) _ hf.u _) fun u =>
      bindEq (sub .yuv422 (by decide) _ hf.v _) fun v => rfl
  · exact bindEq (store_flat (fun i hi => dotBytes_at hf.u (n := 16) rfl hc hi) _) fun u =>
      bindEq (store_flat (fun i hi => dotBytes_at hf.v (n := 16) rfl hc hi) _) fun v => rfl

theorem sseEncHalf_body (hf : FwdOk rg t) (s : Sampling) :
    BodyOk 8 s ch (biasLuma rg) (biasChroma rg) (kLuma t) (kCb t) (kCr t) (sseEncHalf s ch rg t) := by
  intro src x0 o cx ux hb hl
  obtain ⟨c, e, hp⟩ := sseLoadHalf_at ch hl
  have hc := hp.chans hb
  rw [sseEncHalf, e, Outcome.bind_ok]
  refine bindEq (store_flat (fun i hi => dotBytesLow_at hf.y hc hi) _) fun y => ?_
  have sub : ∀ s, s ≠ .yuv444 → ∀ k, DotOk (biasChroma rg) k → ∀ l,
      store 4 (ssePairs (biasChroma rg) k c) ux l
        = put l ux ((List.range 4).flatMap fun j =>
          [chroma1 s ch (biasChroma rg) k (fun x => rowPx src ch.count (x0 + x)) j]) := by
    intro s hs k hk l
    refine store_flat (fun i hi => ?_) l
    rw [ssePairs_at hk (show 8 ≤ 16 by omega) hc (by omega)]
    simp only [chroma1, chWord_sub hs]
  cases s
  · exact bindEq (sub .yuv420 (by decide) _ hf.u _) fun u =>
      bindEq (sub .yuv420 (by decide) _ hf.v _) fun v => rfl
  · exact bindEq (sub .yuv422 (by decide) _ hf.u _) fun u =>
      bindEq (sub .yuv422 (by decide) _ hf.v _) fun v => rfl
  · exact bindEq (store_flat (fun i hi => dotBytesLow_at hf.u hc hi) _) fun u =>
      bindEq (store_flat (fun i hi => dotBytesLow_at hf.v hc hi) _) fun v => rfl

theorem avx2Enc420_body (hf : FwdOk rg t) :
    BodyOk2 32 ch (biasLuma rg) (biasChroma rg) (kLuma t) (kCb t) (kCr t) (avx2Enc420 ch rg t) := by
  intro src0 src1 x0 o cx ux hb0 hb1 hl0 hl1
  obtain ⟨c0, e0, hp0⟩ := avx2Load_at ch hl0
  obtain ⟨c1, e1, hp1⟩ := avx2Load_at ch hl1
  have hc0 := hp0.chans hb0
  have hc1 := hp1.chans hb1
  have ha := hc0.avg hc1
  rw [avx2Enc420, e0, Outcome.bind_ok, e1, Outcome.bind_ok]
  refine bindEq (store_flat (fun i hi => dotBytes_at hf.y (n := 32) rfl hc0 hi) _) fun y0 => ?_
  exact bindEq (store_flat (fun i hi => dotBytes_at hf.y (n := 32) rfl hc1 hi) _) fun y1 =>
    bindEq (store_flat (fun i hi => avx2Pairs_at hf.u ha hi) _) fun u =>
      bindEq (store_flat (fun i hi => avx2Pairs_at hf.v ha hi) _) fun v => rfl

theorem sseEnc420_body (hf : FwdOk rg t) :
    BodyOk2 16 ch (biasLuma rg) (biasChroma rg) (kLuma t) (kCb t) (kCr t) (sseEnc420 ch rg t) := by
  intro src0 src1 x0 o cx ux hb0 hb1 hl0 hl1
  obtain ⟨c0, e0, hp0⟩ := sseLoad_at ch hl0
  obtain ⟨c1, e1, hp1⟩ := sseLoad_at ch hl1
  have hc0 := hp0.chans hb0
  have hc1 := hp1.chans hb1
  have ha := hc0.avg hc1
  rw [sseEnc420, e0, Outcome.bind_ok]
  refine bindEq (store_flat (fun i hi => dotBytes_at hf.y (n := 16) rfl hc0 hi) _) fun y0 => ?_
  rw [e1, Outcome.bind_ok]
  exact bindEq (store_flat (fun i hi => dotBytes_at hf.y (n := 16) rfl hc1 hi) _) fun y1 =>
    bindEq (store_flat (fun i hi => ssePairs_at hf.u (Nat.le_refl 16) ha (by omega)) _) fun u =>
      bindEq (store_flat (fun i hi => ssePairs_at hf.v (Nat.le_refl 16) ha (by omega)) _) fun v => rfl

theorem sseEnc420Half_body (hf : FwdOk rg t) :
    BodyOk2 8 ch (biasLuma rg) (biasChroma rg) (kLuma t) (kCb t) (kCr t) (sseEnc420Half ch rg t) := by
  intro src0 src1 x0 o cx ux hb0 hb1 hl0 hl1
  obtain ⟨c0, e0, hp0⟩ := sseLoadHalf_at ch hl0
  obtain ⟨c1, e1, hp1⟩ := sseLoadHalf_at ch hl1
  have hc0 := hp0.chans hb0
  have hc1 := hp1.chans hb1
  have ha := hc0.avg hc1
  rw [sseEnc420Half, e0, Outcome.bind_ok, e1, Outcome.bind_ok]
  refine bindEq (store_flat (fun i hi => dotBytesLow_at hf.y hc0 hi) _) fun y0 => ?_
  exact bindEq (store_flat (fun i hi => dotBytesLow_at hf.y hc1 hi) _) fun y1 =>
    bindEq (store_flat (fun i hi => ssePairs_at hf.u (show 8 ≤ 16 by omega) ha (by omega)) _) fun u =>
      bindEq (store_flat (fun i hi => ssePairs_at hf.v (show 8 ≤ 16 by omega) ha (by omega)) _) fun v => rfl

end Verif.X86
