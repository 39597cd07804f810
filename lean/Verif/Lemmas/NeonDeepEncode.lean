import Verif.Lemmas.NeonDeepEncArith
/-! # The 64-bit ARM encoders of 10- to 16-bit images: steps, rows and frames -/
namespace Verif.Neon
open X86 Spec

theorem loadRgb16_at (ch : Channels) {l : Buf} {x0 : Nat} (h : (x0 + 8) * ch.count ≤ l.length)
    (hl : ∀ s ∈ l, s < 65536) : ∃ c, loadRgb16 ch l (x0 * ch.count) = .ok c ∧ PixAtW ch c 8 l x0 := by
  have hlen : x0 * ch.count + 8 * ch.count ≤ l.length := by rw [← Nat.add_mul]; exact h
  have ew : ∀ o i, w16 (mk16 fun k => (l.getD (x0 * ch.count + (ch.count * k + o)) 0 : Int)) i
      = l.getD (x0 * ch.count + (ch.count * i + o)) 0 := by
    intro o i
    rw [w16_mk16, X86.asU16_nat (getD16_lt hl _)]
  unfold loadRgb16
  rw [if_pos hlen]
  cases ch
  all_goals
    refine ⟨_, rfl, ?_⟩
    refine pixAtW_of_words (b := fun i => l.getD (x0 * Channels.count _ + i) 0) (fun i _ => rfl) fun i _ => ?_
    exact ⟨ew 1 i, ew 0 i, ew 2 i⟩

/-! ## Values -/

/-- Stored luma of a pixel. -/
def armL (rdm : Bool) (q : DeepConf) (px : Buf) : Nat :=
  wordOf q.e q.bp q.d (neonLumaOf rdm q.rg q.t (neonComp rdm (red q.ch px)) (neonComp rdm (green q.ch px))
    (neonComp rdm (blue q.ch px)))
/-- Stored chroma of one row. -/
def armC1 (rdm : Bool) (s : Sampling) (q : DeepConf) (k : Int × Int × Int) (p : Nat → Buf) (c : Nat) : Nat :=
  wordOf q.e q.bp q.d (neonChromaOf rdm q.rg k (midWord s (fun x => neonComp rdm (red q.ch (p x))) c)
    (midWord s (fun x => neonComp rdm (green q.ch (p x))) c)
    (midWord s (fun x => neonComp rdm (blue q.ch (p x))) c))
/-- Stored chroma of two rows. -/
def armC2 (rdm : Bool) (q : DeepConf) (k : Int × Int × Int) (p0 p1 : Nat → Buf) (c : Nat) : Nat :=
  wordOf q.e q.bp q.d (neonChromaOf rdm q.rg k
    (midWord .yuv420 (midRow (fun px => neonComp rdm (red q.ch px)) p0 p1) c)
    (midWord .yuv420 (midRow (fun px => neonComp rdm (green q.ch px)) p0 p1) c)
    (midWord .yuv420 (midRow (fun px => neonComp rdm (blue q.ch px)) p0 p1) c))
/-- Stored chroma of the pixels it covers. -/
def armBlk (rdm : Bool) (q : DeepConf) (k : Int × Int × Int) (blk : List Buf) : Nat :=
  wordOf q.e q.bp q.d (neonChromaOf rdm q.rg k (vecMean (blk.map fun px => neonComp rdm (red q.ch px)))
    (vecMean (blk.map fun px => neonComp rdm (green q.ch px)))
    (vecMean (blk.map fun px => neonComp rdm (blue q.ch px))))

theorem armC1_local (rdm : Bool) (s : Sampling) (q : DeepConf) (k : Int × Int × Int) :
    Local1 s (armC1 rdm s q k) := by
  intro p p' c d h
  have e : ∀ f : Buf → Nat, midWord s (fun x => f (p x)) c = midWord s (fun x => f (p' x)) d :=
    fun f => midWord_congr fun i hi => congrArg f (h i hi)
  unfold armC1
  rw [e fun px => neonComp rdm (red q.ch px), e fun px => neonComp rdm (green q.ch px),
    e fun px => neonComp rdm (blue q.ch px)]

theorem armC2_local (rdm : Bool) (q : DeepConf) (k : Int × Int × Int) : Local2 (armC2 rdm q k) := by
  intro p r p' r' c d h h'
  have e : ∀ f : Buf → Nat, midWord .yuv420 (midRow f p r) c = midWord .yuv420 (midRow f p' r') d := by
    intro f
    refine midWord_congr fun i hi => ?_
    simp only [hdiv, midRow] at *
    rw [h i hi, h' i hi]
  unfold armC2
  rw [e, e, e]

/-! ## Kernels -/

/-- A kernel's arithmetic on components below `C`, for what is asked of it. -/
structure EncOk (K : EncKernel) (rdm : Bool) (q : DeepConf) (C : Nat) : Prop where
  deep : Verif.Deep q.d
  le : C ≤ 65536
  pre : ∀ {a : Reg} {j x : Nat}, w16 a j = x → x < 2 ^ q.d → w16 (K.pre a) j = neonComp rdm x
  comp : ∀ {x : Nat}, x < 2 ^ q.d → neonComp rdm x < C
  luma : ∀ {c : Rgb} {j r g b : Nat}, j < 8 → r < C → g < C → b < C → w16 c.1 j = r → w16 c.2.1 j = g →
    w16 c.2.2 j = b → w16 (K.luma c) j = neonLumaOf rdm q.rg q.t r g b
  cb : ∀ {c : Rgb} {j r g b : Nat}, j < 8 → r < C → g < C → b < C → w16 c.1 j = r → w16 c.2.1 j = g →
    w16 c.2.2 j = b → w16 (K.cb c) j = neonChromaOf rdm q.rg (kCb q.t) r g b
  cr : ∀ {c : Rgb} {j r g b : Nat}, j < 8 → r < C → g < C → b < C → w16 c.1 j = r → w16 c.2.1 j = g →
    w16 c.2.2 j = b → w16 (K.cr c) j = neonChromaOf rdm q.rg (kCr q.t) r g b
  lumaBytes : ∀ c, RegBytes (K.luma c)
  cbBytes : ∀ c, RegBytes (K.cb c)
  crBytes : ∀ c, RegBytes (K.cr c)
  luma_lt : ∀ {r g b : Nat}, r < C → g < C → b < C → neonLumaOf rdm q.rg q.t r g b < 2 ^ q.d
  chroma_lt : ∀ k r g b, neonChromaOf rdm q.rg k r g b < 2 ^ q.d

variable {K : EncKernel} {rdm : Bool} {q : DeepConf} {C : Nat}

/-- One word per lane. -/
theorem out_flat {n : Nat} (hn : n ≤ 8) (hd : Verif.Deep q.d) {v : Reg} (hv : RegBytes v) {f : Nat → Nat}
    (hlt : ∀ j, j < n → f j < 2 ^ q.d) (h : ∀ j, j < n → w16 v j = f j) (p : Nat) (l : Buf) :
    store16 n (storedReg q.e q.bp q.d v) p l
      = put l p ((List.range n).flatMap fun j => [wordOf q.e q.bp q.d (f j)]) :=
  store16_flat (fun j hj => storedReg_at q.e q.bp hd hv (by omega) (hlt j hj) (h j hj)) l

theorem each_pre (hK : EncOk K rdm q C) {c : Rgb} {R G B : Nat → Nat} (hc : ChansW c 8 R G B)
    (hR : ∀ j, R j < 2 ^ q.d) (hG : ∀ j, G j < 2 ^ q.d) (hB : ∀ j, B j < 2 ^ q.d) :
    ChansW (each K.pre c) 8 (fun j => neonComp rdm (R j)) (fun j => neonComp rdm (G j))
      (fun j => neonComp rdm (B j)) := by
  intro j hj
  obtain ⟨h1, h2, h3⟩ := hc j hj
  exact ⟨hK.pre h1 (hR j), hK.pre h2 (hG j), hK.pre h3 (hB j)⟩

theorem halve16_at {a : Reg} {j : Nat} {R : Nat → Nat} (h0 : w16 a (2 * j) = R (2 * j))
    (h1 : w16 a (2 * j + 1) = R (2 * j + 1)) (l0 : R (2 * j) < 65536) (l1 : R (2 * j + 1) < 65536)
    {s : Sampling} (hs : s ≠ .yuv444) : w16 (halve16 a) j = midWord s R j := by
  rw [midWord_sub hs, halve16, w16_mk16, h0, h1, X86.asU16_nat (by omega)]

/-- Means of neighbours. -/
theorem each_halve {c : Rgb} {R G B : Nat → Nat} (hc : ChansW c 8 R G B) (hR : ∀ j, R j < 65536)
    (hG : ∀ j, G j < 65536) (hB : ∀ j, B j < 65536) {s : Sampling} (hs : s ≠ .yuv444) :
    ChansW (each halve16 c) 4 (midWord s R) (midWord s G) (midWord s B) := by
  intro j hj
  obtain ⟨h1, h2, h3⟩ := hc (2 * j) (by omega)
  obtain ⟨g1, g2, g3⟩ := hc (2 * j + 1) (by omega)
  exact ⟨halve16_at h1 g1 (hR _) (hR _) hs, halve16_at h2 g2 (hG _) (hG _) hs,
    halve16_at h3 g3 (hB _) (hB _) hs⟩

theorem mid_lt {s : Sampling} {R : Nat → Nat} (h : ∀ j, R j < C) (j : Nat) : midWord s R j < C := by
  unfold midWord
  have := h j; have := h (2 * j); have := h (2 * j + 1)
  split <;> omega

theorem encDeep_step (hK : EncOk K rdm q C) (s : Sampling) :
    StepOk 8 s q.ch (2 ^ q.d) (armL rdm q) (armC1 rdm s q (kCb q.t)) (armC1 rdm s q (kCr q.t))
      (encDeep K s q) := by
  intro src x0 o cx ux hb hl
  have p2 : 0 < 2 ^ q.d := by positivity
  have hle : 2 ^ q.d ≤ 65536 := Nat.pow_le_pow_right (n := 2) (j := 16) (by decide) hK.deep.le16
  have hcle := hK.le
  obtain ⟨c, e, hc⟩ := loadRgb16_at q.ch hl fun b h => Nat.lt_of_lt_of_le (hb b h) hle
  have hp := each_pre hK hc (fun j => red_lt' p2 _ (bnd_rowPx hb)) (fun j => green_lt' p2 _ (bnd_rowPx hb))
    (fun j => blue_lt' p2 _ (bnd_rowPx hb))
  have hR : ∀ j, neonComp rdm (red q.ch (rowPx src q.ch.count (x0 + j))) < C :=
    fun j => hK.comp (red_lt' p2 _ (bnd_rowPx hb))
  have hG : ∀ j, neonComp rdm (green q.ch (rowPx src q.ch.count (x0 + j))) < C :=
    fun j => hK.comp (green_lt' p2 _ (bnd_rowPx hb))
  have hB : ∀ j, neonComp rdm (blue q.ch (rowPx src q.ch.count (x0 + j))) < C :=
    fun j => hK.comp (blue_lt' p2 _ (bnd_rowPx hb))
  have ly := out_flat (q := q) (n := 8) (by omega) hK.deep (hK.lumaBytes (each K.pre c))
    (fun j _ => hK.luma_lt (hR j) (hG j) (hB j))
    (fun j hj => hK.luma hj (hR j) (hG j) (hB j) (hp j hj).1 (hp j hj).2.1 (hp j hj).2.2) cx o.1
  have w : ∀ {R : Nat → Nat}, (∀ j, R j < C) → ∀ j, R j < 65536 := fun h j => Nat.lt_of_lt_of_le (h j) hcle
  have half : ∀ s, s ≠ .yuv444 → ∀ (f : Rgb → Reg) (k : Int × Int × Int),
      (∀ c, RegBytes (f c)) →
      (∀ {c : Rgb} {j r g b : Nat}, j < 8 → r < C → g < C → b < C → w16 c.1 j = r → w16 c.2.1 j = g →
        w16 c.2.2 j = b → w16 (f c) j = neonChromaOf rdm q.rg k r g b) → ∀ l,
      store16 4 (storedReg q.e q.bp q.d (f (each halve16 (each K.pre c)))) ux l
        = put l ux ((List.range 4).flatMap fun j =>
          [armC1 rdm s q k (fun x => rowPx src q.ch.count (x0 + x)) j]) := by
    intro s hs f k hfb hf l
    have hh := each_halve hp (w hR) (w hG) (w hB) hs
    exact out_flat (q := q) (n := 4) (by omega) hK.deep (hfb _) (fun j _ => hK.chroma_lt _ _ _ _)
      (fun j hj => hf (show j < 8 by omega) (mid_lt hR j) (mid_lt hG j) (mid_lt hB j) (hh j hj).1
        (hh j hj).2.1 (hh j hj).2.2) _ _
  have full : ∀ (f : Rgb → Reg) (k : Int × Int × Int), (∀ c, RegBytes (f c)) →
      (∀ {c : Rgb} {j r g b : Nat}, j < 8 → r < C → g < C → b < C → w16 c.1 j = r → w16 c.2.1 j = g →
        w16 c.2.2 j = b → w16 (f c) j = neonChromaOf rdm q.rg k r g b) → ∀ l,
      store16 8 (storedReg q.e q.bp q.d (f (each K.pre c))) ux l
        = put l ux ((List.range 8).flatMap fun j =>
          [armC1 rdm .yuv444 q k (fun x => rowPx src q.ch.count (x0 + x)) j]) := by
    intro f k hfb hf l
    exact out_flat (q := q) (n := 8) (by omega) hK.deep (hfb _) (fun j _ => hK.chroma_lt _ _ _ _)
      (fun j hj => hf hj (hR j) (hG j) (hB j) (hp j hj).1 (hp j hj).2.1 (hp j hj).2.2) _ _
  rw [encDeep, e, Outcome.bind_ok]
  refine bindEq ly fun y => ?_
  cases s
  · exact bindEq (half .yuv420 (by decide) _ _ hK.cbBytes hK.cb _) fun u =>
      bindEq (half .yuv420 (by decide) _ _ hK.crBytes hK.cr _) fun v => rfl
  · exact bindEq (half .yuv422 (by decide) _ _ hK.cbBytes hK.cb _) fun u =>
      bindEq (half .yuv422 (by decide) _ _ hK.crBytes hK.cr _) fun v => rfl
  · exact bindEq (full _ _ hK.cbBytes hK.cb _) fun u =>
      bindEq (full _ _ hK.crBytes hK.cr _) fun v => rfl

theorem rhadd_lane {a b : Reg} {j x y : Nat} (hx : x < 65536) (hy : y < 65536) (h1 : w16 a j = x)
    (h2 : w16 b j = y) : w16 (rhadd16 a b) j = (x + y + 1) / 2 := by
  rw [rhadd16, w16_mk16, h1, h2, X86.asU16_nat (by omega)]

theorem encDeep420_step (hK : EncOk K rdm q C) :
    StepOk2 8 q.ch (2 ^ q.d) (fun a _ => armL rdm q a) (fun _ b => armL rdm q b) (armC2 rdm q (kCb q.t))
      (armC2 rdm q (kCr q.t)) (encDeep420 K q) := by
  intro src0 src1 x0 o cx ux hb0 hb1 hl0 hl1
  have p2 : 0 < 2 ^ q.d := by positivity
  have hle : 2 ^ q.d ≤ 65536 := Nat.pow_le_pow_right (n := 2) (j := 16) (by decide) hK.deep.le16
  have hcle := hK.le
  obtain ⟨c0, e0, hc0⟩ := loadRgb16_at q.ch hl0 fun b h => Nat.lt_of_lt_of_le (hb0 b h) hle
  obtain ⟨c1, e1, hc1⟩ := loadRgb16_at q.ch hl1 fun b h => Nat.lt_of_lt_of_le (hb1 b h) hle
  have hp0 := each_pre hK hc0 (fun j => red_lt' p2 _ (bnd_rowPx hb0)) (fun j => green_lt' p2 _ (bnd_rowPx hb0))
    (fun j => blue_lt' p2 _ (bnd_rowPx hb0))
  have hp1 := each_pre hK hc1 (fun j => red_lt' p2 _ (bnd_rowPx hb1)) (fun j => green_lt' p2 _ (bnd_rowPx hb1))
    (fun j => blue_lt' p2 _ (bnd_rowPx hb1))
  have hR : ∀ {src : Buf}, (∀ b ∈ src, b < 2 ^ q.d) → ∀ j,
      neonComp rdm (red q.ch (rowPx src q.ch.count (x0 + j))) < C :=
    fun hb j => hK.comp (red_lt' p2 _ (bnd_rowPx hb))
  have hG : ∀ {src : Buf}, (∀ b ∈ src, b < 2 ^ q.d) → ∀ j,
      neonComp rdm (green q.ch (rowPx src q.ch.count (x0 + j))) < C :=
    fun hb j => hK.comp (green_lt' p2 _ (bnd_rowPx hb))
  have hB : ∀ {src : Buf}, (∀ b ∈ src, b < 2 ^ q.d) → ∀ j,
      neonComp rdm (blue q.ch (rowPx src q.ch.count (x0 + j))) < C :=
    fun hb j => hK.comp (blue_lt' p2 _ (bnd_rowPx hb))
  have w : ∀ {R : Nat → Nat}, (∀ j, R j < C) → ∀ j, R j < 65536 := fun h j => Nat.lt_of_lt_of_le (h j) hcle
  have luma : ∀ {src : Buf} {c : Rgb} (hb : ∀ b ∈ src, b < 2 ^ q.d)
      (hp : ChansW (each K.pre c) 8 (fun j => neonComp rdm (red q.ch (rowPx src q.ch.count (x0 + j))))
        (fun j => neonComp rdm (green q.ch (rowPx src q.ch.count (x0 + j))))
        (fun j => neonComp rdm (blue q.ch (rowPx src q.ch.count (x0 + j))))) (l : Buf),
      store16 8 (storedReg q.e q.bp q.d (K.luma (each K.pre c))) cx l
        = put l cx ((List.range 8).flatMap fun j => [armL rdm q (rowPx src q.ch.count (x0 + j))]) := by
    intro src c hb hp l
    exact out_flat (q := q) (n := 8) (by omega) hK.deep (hK.lumaBytes (each K.pre c))
      (fun j _ => hK.luma_lt (hR hb j) (hG hb j) (hB hb j))
      (fun j hj => hK.luma hj (hR hb j) (hG hb j) (hB hb j) (hp j hj).1 (hp j hj).2.1 (hp j hj).2.2) cx l
  have hm : ∀ f : Buf → Nat, (∀ j, f (rowPx src0 q.ch.count (x0 + j)) < C) →
      (∀ j, f (rowPx src1 q.ch.count (x0 + j)) < C) → ∀ j, midRow f (fun x => rowPx src0 q.ch.count (x0 + x))
        (fun x => rowPx src1 q.ch.count (x0 + x)) j < C := by
    intro f h0 h1 j
    have := h0 j; have := h1 j
    simp only [midRow]; omega
  have mR := hm (fun px => neonComp rdm (red q.ch px)) (hR hb0) (hR hb1)
  have mG := hm (fun px => neonComp rdm (green q.ch px)) (hG hb0) (hG hb1)
  have mB := hm (fun px => neonComp rdm (blue q.ch px)) (hB hb0) (hB hb1)
  have ha : ChansW (each2 rhadd16 (each K.pre c0) (each K.pre c1)) 8
      (midRow (fun px => neonComp rdm (red q.ch px)) (fun x => rowPx src0 q.ch.count (x0 + x))
        (fun x => rowPx src1 q.ch.count (x0 + x)))
      (midRow (fun px => neonComp rdm (green q.ch px)) (fun x => rowPx src0 q.ch.count (x0 + x))
        (fun x => rowPx src1 q.ch.count (x0 + x)))
      (midRow (fun px => neonComp rdm (blue q.ch px)) (fun x => rowPx src0 q.ch.count (x0 + x))
        (fun x => rowPx src1 q.ch.count (x0 + x))) := by
    intro j hj
    obtain ⟨a1, a2, a3⟩ := hp0 j hj
    obtain ⟨b1, b2, b3⟩ := hp1 j hj
    exact ⟨rhadd_lane (w (hR hb0) j) (w (hR hb1) j) a1 b1, rhadd_lane (w (hG hb0) j) (w (hG hb1) j) a2 b2,
      rhadd_lane (w (hB hb0) j) (w (hB hb1) j) a3 b3⟩
  have hh := each_halve ha (w mR) (w mG) (w mB) (s := .yuv420) (by decide)
  have half : ∀ (f : Rgb → Reg) (k : Int × Int × Int), (∀ c, RegBytes (f c)) →
      (∀ {c : Rgb} {j r g b : Nat}, j < 8 → r < C → g < C → b < C → w16 c.1 j = r → w16 c.2.1 j = g →
        w16 c.2.2 j = b → w16 (f c) j = neonChromaOf rdm q.rg k r g b) → ∀ l,
      store16 4 (storedReg q.e q.bp q.d (f (each halve16 (each2 rhadd16 (each K.pre c0) (each K.pre c1))))) ux l
        = put l ux ((List.range 4).flatMap fun j =>
          [armC2 rdm q k (fun x => rowPx src0 q.ch.count (x0 + x))
            (fun x => rowPx src1 q.ch.count (x0 + x)) j]) := by
    intro f k hfb hf l
    exact out_flat (q := q) (n := 4) (by omega) hK.deep (hfb _) (fun j _ => hK.chroma_lt _ _ _ _)
      (fun j hj => hf (show j < 8 by omega) (mid_lt mR j) (mid_lt mG j) (mid_lt mB j) (hh j hj).1
        (hh j hj).2.1 (hh j hj).2.2) _ _
  rw [encDeep420, e0, Outcome.bind_ok, e1, Outcome.bind_ok]
  exact bindEq (luma hb0 hp0 _) fun y0 => bindEq (luma hb1 hp1 _) fun y1 =>
    bindEq (half _ _ hK.cbBytes hK.cb _) fun u => bindEq (half _ _ hK.crBytes hK.cr _) fun v => rfl

/-! ## Rows -/

theorem armC1_row {s : Sampling} {k : Int × Int × Int} {w : Nat} {rgba : Buf} {c : Nat}
    (hc : c < chromaDone (hdiv s) w) (hw : 0 < w) :
    armC1 rdm s q k (extPx w q.ch.count rgba) c = armBlk rdm q k (rowBlock rgba q.ch.count w (hdiv s) c) := by
  have h := chromaDone_le (hdiv_pos s) hw hc
  rw [armC1, midWord_row h hw fun px => neonComp rdm (red q.ch px),
    midWord_row h hw fun px => neonComp rdm (green q.ch px),
    midWord_row h hw fun px => neonComp rdm (blue q.ch px), armBlk]

theorem armC2_rows {k : Int × Int × Int} {w : Nat} {rgba0 rgba1 : Buf} {c : Nat}
    (hc : c < chromaDone 2 w) (hw : 0 < w) :
    armC2 rdm q k (extPx w q.ch.count rgba0) (extPx w q.ch.count rgba1) c
      = armBlk rdm q k (rowBlock rgba0 q.ch.count w 2 c ++ rowBlock rgba1 q.ch.count w 2 c) := by
  have h := chromaDone_le (by decide) hw hc
  rw [armC2, midWord_rows h hw, midWord_rows h hw, midWord_rows h hw, armBlk]

/-- The encoder finishes every row with these values. -/
def RowVals (f : RowEncoder) (s : Sampling) (cn B w : Nat) (L : Buf → Nat) (U V : List Buf → Nat) : Prop :=
  ∀ y u v rgba, (∀ b ∈ rgba, b < B) → w ≤ y.length → chromaDone (hdiv s) w ≤ u.length →
    chromaDone (hdiv s) w ≤ v.length → w * cn ≤ rgba.length →
    f y u v rgba = .ok (fillTo (fun x => L (rowPx rgba cn x)) w y,
      fillTo (fun c => U (rowBlock rgba cn w (hdiv s) c)) (chromaDone (hdiv s) w) u,
      fillTo (fun c => V (rowBlock rgba cn w (hdiv s) c)) (chromaDone (hdiv s) w) v, w)

/-- The same for two rows. -/
def Row2Vals (f : RowEncoder420) (cn B w : Nat) (L : Buf → Nat) (U V : List Buf → Nat) : Prop :=
  ∀ y0 y1 u v r0 r1, (∀ b ∈ r0, b < B) → (∀ b ∈ r1, b < B) → w ≤ y0.length → w ≤ y1.length →
    chromaDone 2 w ≤ u.length → chromaDone 2 w ≤ v.length → w * cn ≤ r0.length → w * cn ≤ r1.length →
    f y0 y1 u v r0 r1 = .ok (fillTo (fun x => L (rowPx r0 cn x)) w y0,
      fillTo (fun x => L (rowPx r1 cn x)) w y1,
      fillTo (fun c => U (rowBlock r0 cn w 2 c ++ rowBlock r1 cn w 2 c)) (chromaDone 2 w) u,
      fillTo (fun c => V (rowBlock r0 cn w 2 c ++ rowBlock r1 cn w 2 c)) (chromaDone 2 w) v, w)

theorem encDeepRow_vals (hK : EncOk K rdm q C) (s : Sampling) {w : Nat} (hw : 0 < w) :
    RowVals (fun y u v rgba => do
      let r ← encDeepRow K s q w rgba (y, u, v) 0 0
      return (r.1.1, r.1.2.1, r.1.2.2, r.2.1)) s q.ch.count (2 ^ q.d) w (armL rdm q)
      (armBlk rdm q (kCb q.t)) (armBlk rdm q (kCr q.t)) := by
  intro y u v rgba hB ly lu lv hr
  have p2 : 0 < 2 ^ q.d := by positivity
  have ec := chromaDone_cover (hdiv_pos s) hw
  obtain ⟨ux, e⟩ := valRow_ok (encDeep_step hK s) (armC1_local rdm s q _) (armC1_local rdm s q _) rfl (by decide)
    p2 hw (o := (y, u, v)) hB hr ly (by rw [← ec]; exact lu) (by rw [← ec]; exact lv)
  have e' : encDeepRow K s q w rgba (y, u, v) 0 0 = _ := e
  simp only [e', Outcome.bind_ok, encSt, painted_fill, Outcome.pure_eq]
  rw [fillTo_congr (f := fun x => armC1 rdm s q (kCb q.t) (extPx w q.ch.count rgba) x)
      (fun c hc => armC1_row hc hw),
    fillTo_congr (f := fun x => armC1 rdm s q (kCr q.t) (extPx w q.ch.count rgba) x)
      (fun c hc => armC1_row hc hw)]

theorem encDeepRow420_vals (hK : EncOk K rdm q C) {w : Nat} (hw : 0 < w) :
    Row2Vals (fun y0 y1 u v rgba0 rgba1 => do
      let r ← encDeepRow420 K q w rgba0 rgba1 (y0, y1, u, v) 0 0
      return (r.1.1, r.1.2.1, r.1.2.2.1, r.1.2.2.2, r.2.1)) q.ch.count (2 ^ q.d) w (armL rdm q)
      (armBlk rdm q (kCb q.t)) (armBlk rdm q (kCr q.t)) := by
  intro y0 y1 u v r0 r1 hB0 hB1 ly0 ly1 lu lv hr0 hr1
  have p2 : 0 < 2 ^ q.d := by positivity
  have ec := chromaDone_cover (hd := 2) (by decide) hw
  obtain ⟨ux, e⟩ := valRow420_ok (encDeep420_step hK) (armC2_local rdm q _) (armC2_local rdm q _) rfl (by decide)
    p2 hw (o := (y0, y1, u, v)) hB0 hB1 hr0 hr1 ly0 ly1 (by rw [← ec]; exact lu) (by rw [← ec]; exact lv)
  have e' : encDeepRow420 K q w r0 r1 (y0, y1, u, v) 0 0 = _ := e
  simp only [e', Outcome.bind_ok, encSt2, painted_fill, Outcome.pure_eq]
  rw [fillTo_congr (f := fun x => armC2 rdm q (kCb q.t) (extPx w q.ch.count r0) (extPx w q.ch.count r1) x)
      (fun c hc => armC2_rows hc hw),
    fillTo_congr (f := fun x => armC2 rdm q (kCr q.t) (extPx w q.ch.count r0) (extPx w q.ch.count r1) x)
      (fun c hc => armC2_rows hc hw)]

/-! ## Frames -/

/-- Luma at `(x, y)`. -/
def valsL (L tL : Buf → Nat) (s : Sampling) (cn w h : Nat) (rgba : Buf) (stride x y : Nat) : Nat :=
  if Redone s w h x (y / 2) then tL (pixelAt rgba stride cn x y) else L (pixelAt rgba stride cn x y)
/-- Chroma at `(cx, cy)`. -/
def valsC (U tU : List Buf → Nat) (s : Sampling) (cn w h : Nat) (rgba : Buf) (stride cx cy : Nat) : Nat :=
  if Redone s w h (2 * cx) cy then tU (blk rgba stride cn w h s cx cy) else U (blk rgba stride cn w h s cx cy)

variable {E : PixelBlocks} {hd : RowEncoder} {hd2 : RowEncoder420} {i : Planar} {rgba : Buf}
  {stride D cn B : Nat} {L tL : Buf → Nat} {U V tU tV : List Buf → Nat}

theorem vals444 (hH : RowVals hd .yuv444 cn B i.width L U V) (hst : 0 < stride)
    (hp : PlanarRows i .yuv444 D) (hs : FullRows rgba.length stride i.height)
    (hw : i.width * cn ≤ stride) (hB : ∀ a ∈ rgba, a < B) :
    ExactPlanes .yuv444 i (valsL L tL .yuv444 cn i.width i.height rgba stride)
      (valsC U tU .yuv444 cn i.width i.height rgba stride)
      (valsC V tV .yuv444 cn i.width i.height rgba stride) (encode444 cn E hd i rgba stride) := by
  refine encode444_exact hst hp hs fun r hr y u v hy hu hv => ?_
  have cr := chunk_length (fullRows_row hs hr)
  have ed : chromaDone (hdiv .yuv444) i.width = i.width := by simp [chromaDone, hdiv]
  have px := pxRow_chunk (rgba := rgba) (r := r) hw
  have e := hH y u v (chunk stride rgba r) (bnd_chunk hB) (by omega) (by rw [ed]; exact hu)
    (by rw [ed]; exact hv) (by omega)
  rw [ed] at e
  unfold encFullRow
  rw [e]
  simp only [Outcome.bind_ok, if_true, Outcome.pure_eq]
  exact fills3 (fun x hx => by rw [px x hx, valsL, if_neg (by simp [Redone, vdiv])])
    (fun c _ => by rw [valsC, if_neg (by simp [Redone, vdiv])]; exact congrArg U (px.block1 hr))
    (fun c _ => by rw [valsC, if_neg (by simp [Redone, vdiv])]; exact congrArg V (px.block1 hr))

theorem vals422 (hH : RowVals hd .yuv422 cn B i.width L U V) (hst : 0 < stride)
    (hp : PlanarRows i .yuv422 D) (hs : FullRows rgba.length stride i.height)
    (hw : i.width * cn ≤ stride) (hB : ∀ a ∈ rgba, a < B) :
    ExactPlanes .yuv422 i (valsL L tL .yuv422 cn i.width i.height rgba stride)
      (valsC U tU .yuv422 cn i.width i.height rgba stride)
      (valsC V tV .yuv422 cn i.width i.height rgba stride) (encode422 false cn E hd i rgba stride) := by
  refine encode422_exact hst hp hs fun r hr y u v hy hu hv => ?_
  have cr := chunk_length (fullRows_row hs hr)
  have ed : chromaDone (hdiv .yuv422) i.width = ceil2 i.width := chromaDone_two _
  have px := pxRow_chunk (rgba := rgba) (r := r) hw
  have e := hH y u v (chunk stride rgba r) (bnd_chunk hB) (by omega) (by rw [ed]; exact hu)
    (by rw [ed]; exact hv) (by omega)
  rw [ed] at e
  unfold encHalvedRow
  rw [e]
  simp only [Outcome.bind_ok, if_true, Outcome.pure_eq]
  exact fills3 (fun x hx => by rw [px x hx, valsL, if_neg (by simp [Redone, vdiv])])
    (fun c _ => by rw [valsC, if_neg (by simp [Redone, vdiv])]; exact congrArg U (px.block1 hr))
    (fun c _ => by rw [valsC, if_neg (by simp [Redone, vdiv])]; exact congrArg V (px.block1 hr))

/-- The scalar code that redoes the last column of two rows of odd width. -/
def TailVals (E : PixelBlocks) (cn B : Nat) (tL : Buf → Nat) (tU tV : List Buf → Nat) : Prop :=
  ∀ a b : Buf, a.length = cn → b.length = cn → (∀ s ∈ a, s < B) → (∀ s ∈ b, s < B) →
    E.tail2 a b = .ok (tL a, tL b, tU [a, b], tV [a, b])

/-- Two rows. -/
theorem valsDoubled (hcn : 0 < cn) {w : Nat} (hw : 0 < w) (hH : Row2Vals hd2 cn B w L U V)
    (hT : w % 2 = 1 → TailVals E cn B tL tU tV) {y0 y1 u v r0 r1 : Buf} (hy0 : y0.length = w)
    (hy1 : y1.length = w) (hu : u.length = ceil2 w) (hv : v.length = ceil2 w) (hr0 : r0.length = w * cn)
    (hr1 : r1.length = w * cn) (hB0 : ∀ s ∈ r0, s < B) (hB1 : ∀ s ∈ r1, s < B) :
    encDoubledRow false w cn E hd2 y0 y1 u v r0 r1
      = .ok (fillTo (fun x => if w % 2 = 1 ∧ x + 1 = w then tL (rowPx r0 cn x) else L (rowPx r0 cn x)) w y0,
        fillTo (fun x => if w % 2 = 1 ∧ x + 1 = w then tL (rowPx r1 cn x) else L (rowPx r1 cn x)) w y1,
        fillTo (fun c => if w % 2 = 1 ∧ 2 * c + 1 = w then tU (rowBlock r0 cn w 2 c ++ rowBlock r1 cn w 2 c)
          else U (rowBlock r0 cn w 2 c ++ rowBlock r1 cn w 2 c)) (ceil2 w) u,
        fillTo (fun c => if w % 2 = 1 ∧ 2 * c + 1 = w then tV (rowBlock r0 cn w 2 c ++ rowBlock r1 cn w 2 c)
          else V (rowBlock r0 cn w 2 c ++ rowBlock r1 cn w 2 c)) (ceil2 w) v) := by
  have hcd := chromaDone_two w
  have e := hH y0 y1 u v r0 r1 hB0 hB1 (by omega) (by omega) (by omega) (by omega) (by omega) (by omega)
  rw [hcd] at e
  unfold encDoubledRow
  rw [e]
  simp only [Outcome.bind_ok]
  rw [if_neg (by decide), fillTo_length (by omega), fillTo_length (by omega), fillTo_length (by omega),
    fillTo_length (by omega), hy0, hy1, hu, hv, hr0, hr1, div_two_cn hcn,
    show min (min (min (min (min (w / 2) (w / 2)) (ceil2 w)) (ceil2 w)) (w / 2)) (w / 2) = w / 2 by
      unfold ceil2; omega, forRange_empty (Nat.le_refl _)]
  simp only [Outcome.bind_ok]
  by_cases hev : w % 2 = 0
  · rw [if_pos hev, Outcome.pure_eq]
    exact fills4 (fun x _ => (if_neg (by omega)).symm) (fun x _ => (if_neg (by omega)).symm)
      (fun x _ => (if_neg (by omega)).symm) (fun x _ => (if_neg (by omega)).symm)
  · have hodd : w % 2 = 1 := by omega
    have hw1 : w - 1 < w := by omega
    have hcw : ceil2 w = w / 2 + 1 := by unfold ceil2; omega
    have hb0 := rowBlock_last (row := r0) (cn := cn) (w := w) (c := w / 2) (by omega)
    have hb1 := rowBlock_last (row := r1) (cn := cn) (w := w) (c := w / 2) (by omega)
    rw [show 2 * (w / 2) = w - 1 by omega] at hb0 hb1
    rw [if_neg hev, remainder_px hcn hr0 hodd, remainder_px hcn hr1 hodd,
      hT hodd _ _ (rowPx_length (w := w) (by omega) hw1) (rowPx_length (w := w) (by omega) hw1)
        (bnd_rowPx hB0) (bnd_rowPx hB1)]
    simp only [Outcome.bind_ok]
    rw [setLast_fill (n := w - 1) (g := fun x => if w % 2 = 1 ∧ x + 1 = w then tL (rowPx r0 cn x)
        else L (rowPx r0 cn x)) (by omega) (by omega) (fun x hx => (if_neg (by omega)).symm)
        (if_pos ⟨hodd, by omega⟩).symm]
    simp only [Outcome.bind_ok]
    rw [setLast_fill (n := w - 1) (g := fun x => if w % 2 = 1 ∧ x + 1 = w then tL (rowPx r1 cn x)
        else L (rowPx r1 cn x)) (by omega) (by omega) (fun x hx => (if_neg (by omega)).symm)
        (if_pos ⟨hodd, by omega⟩).symm]
    simp only [Outcome.bind_ok]
    rw [setLast_fill (n := w / 2) (g := fun c => if w % 2 = 1 ∧ 2 * c + 1 = w then
          tU (rowBlock r0 cn w 2 c ++ rowBlock r1 cn w 2 c)
          else U (rowBlock r0 cn w 2 c ++ rowBlock r1 cn w 2 c)) (by omega) (by omega)
        (fun c hc => (if_neg (by omega)).symm) (by
          rw [if_pos ⟨hodd, by omega⟩, hb0, hb1]; rfl)]
    simp only [Outcome.bind_ok]
    rw [setLast_fill (n := w / 2) (g := fun c => if w % 2 = 1 ∧ 2 * c + 1 = w then
          tV (rowBlock r0 cn w 2 c ++ rowBlock r1 cn w 2 c)
          else V (rowBlock r0 cn w 2 c ++ rowBlock r1 cn w 2 c)) (by omega) (by omega)
        (fun c hc => (if_neg (by omega)).symm) (by
          rw [if_pos ⟨hodd, by omega⟩, hb0, hb1]; rfl)]
    simp only [Outcome.bind_ok, Outcome.pure_eq]
    rw [show w - 1 + 1 = w by omega, hcw]

theorem ite_iff' {α : Type} {p q : Prop} [Decidable p] [Decidable q] (h : p ↔ q) {a b c d : α} (h1 : a = c)
    (h2 : b = d) : (if p then a else b) = (if q then c else d) := by
  subst h1; subst h2
  by_cases hp : p
  · rw [if_pos hp, if_pos (h.1 hp)]
  · rw [if_neg hp, if_neg (fun hq => hp (h.2 hq))]

theorem vals420 (hcn : 0 < cn) (hH : RowVals hd .yuv420 cn B i.width L U V)
    (hH2 : Row2Vals hd2 cn B i.width L U V) (hT : i.width % 2 = 1 → TailVals E cn B tL tU tV)
    (hp : PlanarRows i .yuv420 D) (hs : FullRows rgba.length stride i.height)
    (hw : i.width * cn ≤ stride) (hB : ∀ a ∈ rgba, a < B) :
    ExactPlanes .yuv420 i (valsL L tL .yuv420 cn i.width i.height rgba stride)
      (valsC U tU .yuv420 cn i.width i.height rgba stride)
      (valsC V tV .yuv420 cn i.width i.height rgba stride) (encode420 false cn E hd hd2 i rgba stride) := by
  have hwp := hp.wpos
  have hhp := hp.hpos
  refine encode420_exact hcn hp hs hw (fun r hr y0 y1 u v hy0 hy1 hu hv => ?_)
    (fun hodd y u v hy hu hv => ?_)
  · have cr0 := chunk_length (fullRows_row hs (show 2 * r < i.height by omega))
    have cr1 := chunk_length (fullRows_row hs (show 2 * r + 1 < i.height by omega))
    have px0 := (pxRow_chunk (rgba := rgba) (r := 2 * r) hw).take
    have px1 := (pxRow_chunk (rgba := rgba) (r := 2 * r + 1) hw).take
    rw [valsDoubled hcn hwp hH2 hT hy0 hy1 hu hv (by rw [List.length_take]; omega)
      (by rw [List.length_take]; omega) (bnd_take (bnd_chunk hB)) (bnd_take (bnd_chunk hB))]
    have red : ∀ x p, p < i.height / 2 →
        ((i.width % 2 = 1 ∧ x + 1 = i.width) ↔ Redone .yuv420 i.width i.height x p) := by
      intro x p hp
      exact ⟨fun h => ⟨rfl, h.1, h.2, hp⟩, fun h => ⟨h.2.1, h.2.2.1⟩⟩
    exact fills4
      (fun x hx => ite_iff' (red x _ (by omega)) (by rw [px0 x hx]) (by rw [px0 x hx]))
      (fun x hx => ite_iff' (red x _ (by omega)) (by rw [px1 x hx]) (by rw [px1 x hx]))
      (fun c _ => ite_iff' (red (2 * c) r (by omega)) (congrArg tU (px0.block2 px1 (by omega)))
        (congrArg U (px0.block2 px1 (by omega))))
      (fun c _ => ite_iff' (red (2 * c) r (by omega)) (congrArg tV (px0.block2 px1 (by omega)))
        (congrArg V (px0.block2 px1 (by omega))))
  · obtain ⟨hrl, px⟩ := pxRow_remainder hs hw hodd
    have px2 := px
    rw [show i.height - 1 = 2 * (i.height / 2) by omega] at px2
    have ed : chromaDone (hdiv .yuv420) i.width = ceil2 i.width := chromaDone_two _
    have e := hH y u v ((remainder (stride * 2) rgba).take (i.width * cn))
      (bnd_take (bnd_remainder hB)) (by omega) (by omega) (by omega)
      (by rw [List.length_take]; omega)
    rw [ed] at e
    unfold encHalvedRow
    rw [e]
    simp only [Outcome.bind_ok, if_true, Outcome.pure_eq]
    exact fills3 (fun x hx => by rw [px x hx, valsL, if_neg (fun h => by have := h.2.2.2; omega)])
      (fun c _ => by
        rw [valsC, if_neg (fun h => by have := h.2.2.2; omega)]; exact congrArg U (px2.blockLast (by omega)))
      (fun c _ => by
        rw [valsC, if_neg (fun h => by have := h.2.2.2; omega)]; exact congrArg V (px2.blockLast (by omega)))

/-! ## The weights -/

/-- Signs and sizes of the weights at a depth. -/
def FwdOk (d : Nat) (c : ChromaRange) (t : FwdCoef) : Prop :=
  ((0 ≤ t.yr ∧ t.yr ≤ 32767) ∧ (0 ≤ t.yg ∧ t.yg ≤ 32767) ∧ (0 ≤ t.yb ∧ t.yb ≤ 32767) ∧
    t.yr + t.yg + t.yb ≤ 32769) ∧
  SignOk d c.biasUv t.cbB t.cbG t.cbR ∧ SignOk d c.biasUv t.crR t.crG t.crB ∧
  (c.biasY + c.rangeUv < 2 ^ d ∧ c.biasY + c.rangeY < 2 ^ d ∧ c.biasUv ≤ 32768 ∧ c.biasY ≤ 4096) ∧
  (d ≠ 16 → (2 ^ d - 1) * (t.yr + t.yg + t.yb) + ((c.biasY : Int) * 32768 + 16383) < 2 ^ d * 32768)

instance (d : Nat) (c : ChromaRange) (t : FwdCoef) : Decidable (FwdOk d c t) := by unfold FwdOk; infer_instance

theorem fwdOk {d : Nat} (hd : Verif.Deep d) (rg : YuvRange) (m : Matrix) :
    FwdOk d (getYuvRange d rg) (computedForward 15 d rg m) := by
  have h : ∀ d ∈ [10, 12, 14, 16], ∀ m ∈ allMatrix, ∀ rg ∈ allRange,
      FwdOk d (getYuvRange d rg) (computedForward 15 d rg m) := by decide +kernel
  exact h d (by rcases hd with rfl | rfl | rfl | rfl <;> simp) m (mem_allMatrix m) rg (mem_allRange rg)

theorem wideLuma_lt {d : Nat} (hd : d ≤ 16) {c : ChromaRange} {t : FwdCoef} (h : FwdOk d c t) {r g b : Nat}
    (hr : r < 2 ^ d) (hg : g < 2 ^ d) (hb : b < 2 ^ d) : neonLumaOf false c t r g b < 2 ^ d := by
  simp only [neonLumaOf, Bool.false_eq_true, if_false]
  by_cases h16 : d = 16
  · subst h16; exact Nat.mod_lt _ (by decide)
  · obtain ⟨⟨⟨y1, -⟩, ⟨y2, -⟩, ⟨y3, -⟩, -⟩, -, -, -, h5⟩ := h
    have h5 := h5 h16
    have cast : ∀ x : Nat, x < 2 ^ d → (x : Int) ≤ 2 ^ d - 1 := by
      intro x hx; have : (x : Int) < 2 ^ d := by exact_mod_cast hx
      omega
    have m1 := Int.mul_le_mul_of_nonneg_right (cast r hr) y1
    have m2 := Int.mul_le_mul_of_nonneg_right (cast g hg) y2
    have m3 := Int.mul_le_mul_of_nonneg_right (cast b hb) y3
    have n1 : 0 ≤ (r : Int) * t.yr := Int.mul_nonneg (by omega) y1
    have n2 : 0 ≤ (g : Int) * t.yg := Int.mul_nonneg (by omega) y2
    have n3 : 0 ≤ (b : Int) * t.yb := Int.mul_nonneg (by omega) y3
    refine Nat.lt_of_le_of_lt (Nat.mod_le _ _) ?_
    have hq : ((2 ^ d : Nat) : Int) = (2 : Int) ^ d := by push_cast; rfl
    rw [Int.mul_add, Int.mul_add] at h5
    unfold encVal
    norm_num only at h5 ⊢
    generalize (r : Int) * t.yr = p1 at *
    generalize (g : Int) * t.yg = p2 at *
    generalize (b : Int) * t.yb = p3 at *
    generalize ((2 : Int) ^ d - 1) * t.yr = q1 at *
    generalize ((2 : Int) ^ d - 1) * t.yg = q2 at *
    generalize ((2 : Int) ^ d - 1) * t.yb = q3 at *
    generalize 2 ^ d = P at *
    generalize (2 : Int) ^ d = Q at *
    subst hq
    omega

theorem neonChroma_lt {d : Nat} (rdm : Bool) {c : ChromaRange} (h : c.biasY + c.rangeUv < 2 ^ d)
    (k : Int × Int × Int) (r g b : Nat) : neonChromaOf rdm c k r g b < 2 ^ d := by
  unfold neonChromaOf
  split <;> omega

theorem wideLuma_bytes (c : ChromaRange) (t : FwdCoef) (x : Rgb) : RegBytes (wideLuma c t x) := by
  unfold wideLuma; exact mk16_bytes _
theorem wideChroma_bytes (c : ChromaRange) (x y z : Reg) (kx ky kz : Int) :
    RegBytes (wideChroma c x y z kx ky kz) := by
  unfold wideChroma; exact mk16_bytes _
theorem rdmLuma_bytes (c : ChromaRange) (t : FwdCoef) (x : Rgb) : RegBytes (rdmLuma c t x) := by
  unfold rdmLuma; exact mk16_bytes _
theorem rdmChroma_bytes (c : ChromaRange) (k : Int × Int × Int) (x : Rgb) : RegBytes (rdmChroma c k x) := by
  unfold rdmChroma; exact mk16_bytes _

theorem wideKernel_ok (e : Endianness) (bp : BytesPacking) {d : Nat} (hd : Verif.Deep d) (ch : Channels)
    (rg : YuvRange) (m : Matrix) :
    EncOk (wideKernel (getYuvRange d rg) (computedForward 15 d rg m)) false (deepConf e bp d ch rg m) (2 ^ d) := by
  have h := fwdOk hd rg m
  have hle : 2 ^ d ≤ 65536 := Nat.pow_le_pow_right (n := 2) (j := 16) (by decide) hd.le16
  obtain ⟨⟨y1, y2, y3, ys⟩, hcb, hcr, ⟨r1, r2, r3, r4⟩, -⟩ := h
  have re : ∀ {a b c : Int} (s : Int), a + b + c + s = c + b + a + s := by intros; ring
  refine
    { deep := hd
      le := hle
      pre := fun h _ => h
      comp := fun h => h
      luma := fun hj hr hg hb h1 h2 h3 =>
        wideLuma_at r4 y1 y2 y3 ys hj (Nat.lt_of_lt_of_le hr hle) (Nat.lt_of_lt_of_le hg hle)
          (Nat.lt_of_lt_of_le hb hle) h1 h2 h3
      cb := fun {c j r g b} hj hr hg hb h1 h2 h3 => ?_
      cr := fun {c j r g b} hj hr hg hb h1 h2 h3 => ?_
      lumaBytes := fun _ => wideLuma_bytes _ _ _
      cbBytes := fun _ => wideChroma_bytes _ _ _ _ _ _ _
      crBytes := fun _ => wideChroma_bytes _ _ _ _ _ _ _
      luma_lt := fun hr hg hb => wideLuma_lt hd.le16 (fwdOk hd rg m) hr hg hb
      chroma_lt := fun k r g b => neonChroma_lt false r1 k r g b }
  · have := wideChroma_at hd.le16 r3 (show _ < 65536 by omega) hcb hj hb hg hr h3 h2 h1
    rw [re] at this
    exact this
  · exact wideChroma_at hd.le16 r3 (show _ < 65536 by omega) hcr hj hr hg hb h1 h2 h3

theorem rdmKernel_ok (e : Endianness) (bp : BytesPacking) (ch : Channels) (rg : YuvRange) (m : Matrix) :
    EncOk (rdmKernel 10 (getYuvRange 10 rg) (computedForward 15 10 rg m)) true (deepConf e bp 10 ch rg m) 4096 := by
  have hd : Verif.Deep 10 := .inl rfl
  obtain ⟨⟨y1, y2, y3, ys⟩, ⟨u1, u2, u3, -⟩, ⟨v1, v2, v3, -⟩, ⟨r1, r2, -, -⟩, -⟩ := fwdOk hd rg m
  have b1 : (getYuvRange 10 rg).biasY ≤ 64 := by cases rg <;> decide
  have b2 : (getYuvRange 10 rg).biasUv ≤ 512 := by cases rg <;> decide
  norm_num at r1 r2
  exact
    { deep := hd
      le := by decide
      pre := fun h hx => expand10_at h hx
      comp := fun {x} hx => by
        have hx : x < 1024 := hx
        simp only [neonComp, if_true, longWord]; omega
      luma := fun hj hr hg hb h1 h2 h3 =>
        rdmLuma_at (Nat.le_trans b1 (by decide)) r2 y1 y2 y3 hr hg hb h1 h2 h3
      cb := fun {c j r g b} hj hr hg hb h1 h2 h3 =>
        rdmChroma_at b2 b1 r1 (by dsimp only [kCb]; omega) (by dsimp only [kCb]; omega)
          (by dsimp only [kCb]; omega) hr hg hb h1 h2 h3
      cr := fun {c j r g b} hj hr hg hb h1 h2 h3 =>
        rdmChroma_at b2 b1 r1 (by dsimp only [kCr]; omega) (by dsimp only [kCr]; omega)
          (by dsimp only [kCr]; omega) hr hg hb h1 h2 h3
      lumaBytes := fun _ => rdmLuma_bytes _ _ _
      cbBytes := fun _ => rdmChroma_bytes _ _ _
      crBytes := fun _ => rdmChroma_bytes _ _ _
      luma_lt := fun {r g b} _ _ _ => by
        show (if true = true then _ else _) < 1024
        rw [if_pos rfl]; dsimp only; omega
      chroma_lt := fun k r g b => neonChroma_lt true r1 k r g b }

/-- The kernel chosen. -/
theorem encKernel_ok (rdm : Bool) (e : Endianness) (bp : BytesPacking) {d : Nat} (hd : Verif.Deep d)
    (ch : Channels) (rg : YuvRange) (m : Matrix) :
    ∃ C, EncOk (encKernel rdm (deepConf e bp d ch rg m)) (rdm && decide (d = 10))
      (deepConf e bp d ch rg m) C := by
  unfold encKernel
  by_cases h : rdm = true ∧ d = 10
  · obtain ⟨rfl, rfl⟩ := h
    exact ⟨_, rdmKernel_ok e bp ch rg m⟩
  · rw [if_neg h, show (rdm && decide (d = 10)) = false by
      cases rdm
      · rfl
      · simp at h ⊢; exact h]
    exact ⟨_, wideKernel_ok e bp hd ch rg m⟩

/-- The scalar arithmetic of the last column. -/
theorem tailVals (e : Endianness) (bp : BytesPacking) {d : Nat} (hd : Verif.Deep d) (ch : Channels)
    (rg : YuvRange) (m : Matrix) (ho : ¬ Overflows d rg m) :
    TailVals (linBlocks (transformInteger e bp d) 1 true 15 (computedForward 15 d rg m)
      (getYuvRange d rg) ch) ch.count (2 ^ d) (fun px => wordOf e bp d (deepLuma d ch rg m px))
      (fun l => wordOf e bp d (deepCb d ch rg m l)) (fun l => wordOf e bp d (deepCr d ch rg m l)) := by
  intro a b la lb ba bb
  rw [(deep_blocks true e bp hd ch rg m ho).tail2 a b la lb ba bb]
  rfl

end Verif.Neon
