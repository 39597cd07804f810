import Verif.Model.X86NvDeep
import Verif.Spec.VecNvDeep
import Verif.Lemmas.X86DeepRows
import Verif.Lemmas.NvRows
/-! # The x86 decoder of 10- and 12-bit semi-planar images -/
namespace Verif.X86
open Spec

/-! ## Chroma -/

theorem sseDeinterleave16_at (a b : Reg) {k : Nat} (hk : k < 8) :
    w16 (sseDeinterleave16 a b).1 k = w16 (if k < 4 then a else b) (2 * (k % 4)) ∧
    w16 (sseDeinterleave16 a b).2 k = w16 (if k < 4 then a else b) (2 * (k % 4) + 1) := by
  have : k = 0 ∨ k = 1 ∨ k = 2 ∨ k = 3 ∨ k = 4 ∨ k = 5 ∨ k = 6 ∨ k = 7 := by omega
  rcases this with rfl | rfl | rfl | rfl | rfl | rfl | rfl | rfl <;> exact ⟨rfl, rfl⟩

theorem sseDeinterleave16_bytes {a b : Reg} (ha : RegBytes a) (hb : RegBytes b) :
    RegBytes (sseDeinterleave16 a b).1 ∧ RegBytes (sseDeinterleave16 a b).2 := by
  obtain ⟨h2, h3⟩ := unpack_bytes ha hb
  obtain ⟨h4, h5⟩ := unpack_bytes h2 h3
  exact unpack_bytes h4 h5

theorem zero_bytes : RegBytes zero := fun _ => by show 0 < 256; decide

/-- Number of chroma pairs of 8 pixels. -/
def nvPairs (s : Sampling) : Nat := chromaStep s 8

theorem nvLoad16_at {s : Sampling} (o : NVOrder) {uv : Buf} {ux : Nat}
    (h : ux + nvStep s 8 ≤ uv.length) (hc : ∀ x ∈ uv, x < 65536) :
    ∃ r, nvLoad16 s o uv ux = .ok r ∧ RegBytes r.1 ∧ RegBytes r.2 ∧
      (∀ k, k < nvPairs s → w16 r.1 k = uv.getD (ux + (2 * k + o.uPos)) 0) ∧
      ∀ k, k < nvPairs s → w16 r.2 k = uv.getD (ux + (2 * k + o.vPos)) 0 := by
  have half : ux + 8 ≤ uv.length →
      ∃ r, (load16 8 uv ux >>= fun r => Outcome.ok (swapUv o (sseDeinterleave16 r zero))) = .ok r ∧
      RegBytes r.1 ∧ RegBytes r.2 ∧
      (∀ k, k < 4 → w16 r.1 k = uv.getD (ux + (2 * k + o.uPos)) 0) ∧
      ∀ k, k < 4 → w16 r.2 k = uv.getD (ux + (2 * k + o.vPos)) 0 := by
    intro h
    obtain ⟨r, e1, h1, h2⟩ := load16_at h hc
    obtain ⟨b1, b2⟩ := sseDeinterleave16_bytes h2 zero_bytes
    have k1 : ∀ k, k < 4 → w16 (sseDeinterleave16 r zero).1 k = uv.getD (ux + 2 * k) 0 := by
      intro k hk
      rw [(sseDeinterleave16_at r zero (by omega)).1, if_pos hk, Nat.mod_eq_of_lt hk, h1 _ (by omega)]
    have k2 : ∀ k, k < 4 → w16 (sseDeinterleave16 r zero).2 k = uv.getD (ux + (2 * k + 1)) 0 := by
      intro k hk
      rw [(sseDeinterleave16_at r zero (by omega)).2, if_pos hk, Nat.mod_eq_of_lt hk, h1 _ (by omega)]
    refine ⟨_, by rw [e1]; rfl, ?_⟩
    cases o
    · exact ⟨b1, b2, k1, k2⟩
    · exact ⟨b2, b1, k2, k1⟩
  cases s
  · exact half h
  · exact half h
  · have h : ux + 16 ≤ uv.length := h
    obtain ⟨r, e1, h1, h2⟩ := load16_at (p := ux) (n := 8) (by omega) hc
    obtain ⟨r', e1', h1', h2'⟩ := load16_at (p := ux + 8) (n := 8) (by omega) hc
    obtain ⟨b1, b2⟩ := sseDeinterleave16_bytes h2 h2'
    have k1 : ∀ k, k < 8 → w16 (sseDeinterleave16 r r').1 k = uv.getD (ux + 2 * k) 0 := by
      intro k hk
      rw [(sseDeinterleave16_at r r' hk).1]
      split
      · rw [h1 _ (by omega), show 2 * (k % 4) = 2 * k by omega]
      · rw [h1' _ (by omega), show ux + 8 + 2 * (k % 4) = ux + 2 * k by omega]
    have k2 : ∀ k, k < 8 → w16 (sseDeinterleave16 r r').2 k = uv.getD (ux + (2 * k + 1)) 0 := by
      intro k hk
      rw [(sseDeinterleave16_at r r' hk).2]
      split
      · rw [h1 _ (by omega), show 2 * (k % 4) + 1 = 2 * k + 1 by omega]
      · rw [h1' _ (by omega), show ux + 8 + (2 * (k % 4) + 1) = ux + (2 * k + 1) by omega]
    refine ⟨_, by simp only [nvLoad16]; rw [e1, Outcome.bind_ok, e1']; rfl, ?_⟩
    cases o
    · exact ⟨b1, b2, k1, k2⟩
    · exact ⟨b2, b1, k2, k1⟩

/-- The sum of the two chroma words of pixel `j` of 8; `f` are the centred words. -/
def nvLane (s : Sampling) (f : Nat → Int) (j : Nat) : Int :=
  match s with
  | .yuv420 | .yuv422 => if j % 4 < 2 then f (j / 4 * 2) + f (j / 4 * 2 + 1) else 0
  | .yuv444 => if j < 4 then (if j % 2 = 0 then f j + f (j + 1) else 0) else f j

theorem asI16_zero2 : asI16 ((0 + 256 * 0 : Nat) : Int) + asI16 ((0 + 256 * 0 : Nat) : Int) = 0 := by
  decide

theorem nvSpread_at (s : Sampling) (c : Reg) {j : Nat} (hj : j < 4) :
    s16 (nvSpread s c).1 (2 * j) + s16 (nvSpread s c).1 (2 * j + 1) = nvLane s (s16 c) j ∧
    s16 (nvSpread s c).2 (2 * j) + s16 (nvSpread s c).2 (2 * j + 1) = nvLane s (s16 c) (4 + j) := by
  have z : ∀ x : Int, x + asI16 ((0 + 256 * 0 : Nat) : Int) = x := by
    intro x; rw [show asI16 ((0 + 256 * 0 : Nat) : Int) = 0 by decide, Int.add_zero]
  have : j = 0 ∨ j = 1 ∨ j = 2 ∨ j = 3 := by omega
  cases s
  · rcases this with rfl | rfl | rfl | rfl
    · exact ⟨rfl, rfl⟩
    · exact ⟨rfl, rfl⟩
    · exact ⟨asI16_zero2, asI16_zero2⟩
    · exact ⟨asI16_zero2, asI16_zero2⟩
  · rcases this with rfl | rfl | rfl | rfl
    · exact ⟨rfl, rfl⟩
    · exact ⟨rfl, rfl⟩
    · exact ⟨asI16_zero2, asI16_zero2⟩
    · exact ⟨asI16_zero2, asI16_zero2⟩
  · rcases this with rfl | rfl | rfl | rfl
    · exact ⟨rfl, z _⟩
    · exact ⟨asI16_zero2, z _⟩
    · exact ⟨rfl, z _⟩
    · exact ⟨asI16_zero2, z _⟩

theorem nvCentre_at (e : Endianness) (bp : BytesPacking) {d : Nat} (hd : Deep d) {rg : ChromaRange}
    {c : Reg} (hc : RegBytes c) {k : Nat} (hk : k < 16) :
    s16 (nvCentre e bp d rg c) k = int16 ((nativeSample e bp d (w16 c k) : Int) - rg.biasUv) := by
  rw [nvCentre, s16_sub, s16_set1, s16, nativeReg_at e bp hd hc hk]
  unfold int16 asI16; omega

/-! ## Sums -/

theorem int32_sum2 (l a : Int) : asI32 (asI32 (asI32 (asI32 (asI32 l + asI32 a) + 4095) / 2 ^ 13))
    = int32 (l + a + (2 ^ 12 - 1)) / 2 ^ 13 := by
  unfold int32 asI32; norm_num; omega

theorem nvSums_at {t : InvCoef} (ht : DeepCoef t) {y u v : Reg} {k : Nat} {yo : Nat} {U V : Int}
    (hy : s16 y (2 * k) = int16 (yo : Int)) (hy0 : s16 y (2 * k + 1) = 0)
    (hu : s16 u (2 * k) + s16 u (2 * k + 1) = U) (hv : s16 v (2 * k) + s16 v (2 * k + 1) = V) :
    s32 (nvSums t y u v).1 k = int32 (int16 (yo : Int) * t.y + V * t.cr + (2 ^ 12 - 1)) / 2 ^ 13 ∧
    s32 (nvSums t y u v).2.1 k
      = int32 (int16 (yo : Int) * t.y - V * t.g1 - U * t.g2 + (2 ^ 12 - 1)) / 2 ^ 13 ∧
    s32 (nvSums t y u v).2.2 k = int32 (int16 (yo : Int) * t.y + U * t.cb + (2 ^ 12 - 1)) / 2 ^ 13 := by
  obtain ⟨t1, t2, t3, t4, t5⟩ := ht
  have base : s32 (set1_32 (2 ^ 12 - 1)) k = 4095 := by rw [s32_set1]; rfl
  have m : ∀ (r : Reg) (c S : Int), -20000 ≤ c ∧ c ≤ 20000 →
      s16 r (2 * k) + s16 r (2 * k + 1) = S → s32 (madd16 r (set1_16 c)) k = asI32 (S * c) := by
    intro r c S hc hS
    rw [s32_madd, s16_set1, s16_set1, asI16_coef hc, ← hS, Int.add_mul]
  have l : s32 (madd16 y (set1_16 (asI16 t.y))) k = asI32 (int16 (yo : Int) * t.y) := by
    rw [asI16_coef (by omega)]
    exact m y t.y _ (by omega) (by rw [hy, hy0, Int.add_zero])
  refine ⟨?_, ?_, ?_⟩
  · simp only [nvSums]
    rw [s32_srai, s32_add, s32_add, l, base, asI16_coef t2, m v t.cr V t2 hv]
    generalize int16 (yo : Int) * t.y = a
    generalize V * t.cr = b
    unfold int32 asI32; norm_num; omega
  · simp only [nvSums]
    rw [s32_srai, s32_add, s32_add, s32_add, l, base, asI16_coef t4, asI16_coef t5,
      m v (-t.g1) V (by omega) hv, m u (-t.g2) U (by omega) hu, Int.mul_neg, Int.mul_neg]
    generalize int16 (yo : Int) * t.y = a
    generalize V * t.g1 = b
    generalize U * t.g2 = c
    unfold int32 asI32; norm_num; omega
  · simp only [nvSums]
    rw [s32_srai, s32_add, s32_add, l, base, asI16_coef t3, m u t.cb U t3 hu]
    generalize int16 (yo : Int) * t.y = a
    generalize U * t.cb = b
    unfold int32 asI32; norm_num; omega

theorem w16_pack8 {a b : Reg} {F : Nat → Int} (ha : ∀ k, k < 4 → s32 a k = F k)
    (hb : ∀ k, k < 4 → s32 b k = F (4 + k)) {k : Nat} (hk : k < 8) :
    w16 (packus32 a b) k = satU16 (F k) := by
  have h : satU16 (F k) < 65536 := by unfold satU16; omega
  rw [packus32, w16_mk16]
  have e : s32 (if k % 8 < 4 then a else b) (k / 8 * 4 + k % 4) = F k := by
    by_cases h : k < 4
    · rw [if_pos (by omega), ha _ (by omega)]; congr 1; omega
    · rw [if_neg (by omega), hb _ (by omega)]; congr 1; omega
  rw [e, asU16_nat h]

/-! ## The body -/

variable {rg : ChromaRange} {t : InvCoef}

theorem mixed_lane (s : Sampling) {cx j : Nat} (hc : cx % 8 = 0) (hj : j < 8) {F f : Nat → Int}
    (h : ∀ k, k < nvPairs s → f k = F (cx + hdiv s * k)) :
    nvLane s f j = mixedChroma (hdiv s) F (cx + j) := by
  have half : (∀ k, k < 4 → f k = F (cx + 2 * k)) →
      (if j % 4 < 2 then f (j / 4 * 2) + f (j / 4 * 2 + 1) else 0) = mixedChroma 2 F (cx + j) := by
    intro h
    unfold mixedChroma
    rw [if_pos rfl]
    by_cases hm : j % 4 < 2
    · rw [if_pos hm, if_pos (by omega), h _ (by omega), h _ (by omega),
        show (cx + j) / 4 * 4 = cx + 2 * (j / 4 * 2) by omega,
        show cx + 2 * (j / 4 * 2 + 1) = cx + 2 * (j / 4 * 2) + 2 by omega]
    · rw [if_neg hm, if_neg (by omega)]
  cases s
  · exact half h
  · exact half h
  · have h : ∀ k, k < 8 → f k = F (cx + 1 * k) := h
    show (if j < 4 then (if j % 2 = 0 then f j + f (j + 1) else 0) else f j) = mixedChroma 1 F (cx + j)
    unfold mixedChroma
    rw [if_neg (show ¬ (1 = 2) by decide)]
    by_cases h4 : j < 4
    · rw [if_pos h4, if_pos (show (cx + j) % 8 < 4 by omega)]
      by_cases h2 : j % 2 = 0
      · rw [if_pos h2, if_pos (show (cx + j) % 2 = 0 by omega), h _ (by omega), h _ (by omega), Nat.one_mul, Nat.one_mul,
          Nat.add_assoc]
      · rw [if_neg h2, if_neg (by omega)]
    · rw [if_neg h4, if_neg (by omega), h _ hj, Nat.one_mul]

theorem sseNvDeepBody_eq (o : NVOrder) (s : Sampling) (e : Endianness) (bp : BytesPacking) {d : Nat}
    (hd : d = 10 ∨ d = 12) (ch : Channels) (ht : DeepCoef t) (hby : rg.biasY < 65536)
    {y uv : Buf} (hy : ∀ x ∈ y, x < 65536) (hu : ∀ x ∈ uv, x < 65536)
    {cx ux : Nat} (ly : cx + 8 ≤ y.length) (lu : ux + nvStep s 8 ≤ uv.length) (hc : cx % 8 = 0)
    {fu fv : Nat → Nat}
    (hfu : ∀ k, k < nvPairs s → fu (cx + hdiv s * k) = uv.getD (ux + (2 * k + o.uPos)) 0)
    (hfv : ∀ k, k < nvPairs s → fv (cx + hdiv s * k) = uv.getD (ux + (2 * k + o.vPos)) 0)
    (p : Nat) (row : Buf) :
    sseNvDeepBody o s e bp d ch rg t y uv cx ux p row
      = put row p ((List.range 8).flatMap fun j => nvMixedPixel d ch (hdiv s) rg t (cx + j)
          (nativeSample e bp d (y.getD (cx + j) 0)) (fun x => nativeSample e bp d (fu x))
          (fun x => nativeSample e bp d (fv x))) := by
  have hD : Deep d := hd.elim .inl fun h => .inr (.inl h)
  have hd15 : d ≤ 15 := by omega
  have hp8 : nvPairs s ≤ 8 := by cases s <;> decide
  obtain ⟨yr, e1, a1, a2⟩ := load16_at ly hy
  obtain ⟨r, e2, b1, b2, b3, b4⟩ := nvLoad16_at o lu hu
  unfold sseNvDeepBody
  rw [e1, Outcome.bind_ok, e2, Outcome.bind_ok]
  simp only
  rw [sseStore16_eq]
  refine congrArg (put row p) (range_flatMap_congr fun j hj => ?_)
  -- the operands of one lane
  have lu' : ∀ j, j < 8 → nvLane s (s16 (nvCentre e bp d rg r.1)) j
      = mixedChroma (hdiv s) (fun k => int16 ((nativeSample e bp d (fu k) : Int) - rg.biasUv)) (cx + j) := by
    intro j hj
    refine mixed_lane s hc hj fun k hk => ?_
    rw [nvCentre_at e bp hD b1 (by omega), b3 k hk, hfu k hk]
  have lv' : ∀ j, j < 8 → nvLane s (s16 (nvCentre e bp d rg r.2)) j
      = mixedChroma (hdiv s) (fun k => int16 ((nativeSample e bp d (fv k) : Int) - rg.biasUv)) (cx + j) := by
    intro j hj
    refine mixed_lane s hc hj fun k hk => ?_
    rw [nvCentre_at e bp hD b2 (by omega), b4 k hk, hfv k hk]
  have ey : ∀ j, j < 8 → w16 (subsU16 (nativeReg e bp d yr) (set1_16 (rg.biasY : Int))) j
      = nativeSample e bp d (y.getD (cx + j) 0) - rg.biasY := by
    intro j hj
    rw [w16_subsU (nativeReg_bytes e bp d a2) hby, nativeReg_at e bp hD a2 (by omega), a1 j hj]
  have lo : ∀ k, k < 4 → _ := fun k hk => nvSums_at ht (k := k)
    (y := unpacklo 2 (subsU16 (nativeReg e bp d yr) (set1_16 (rg.biasY : Int))) zero)
    (u := (nvSpread s (nvCentre e bp d rg r.1)).1) (v := (nvSpread s (nvCentre e bp d rg r.2)).1)
    (yo := nativeSample e bp d (y.getD (cx + k) 0) - rg.biasY)
    (by rw [(s16_unpacklo2 _ zero k).1, s16, show k / 4 * 8 + k % 4 = k by omega, ey k (by omega)]; rfl)
    (by rw [(s16_unpacklo2 _ zero k).2, s16_zero])
    ((nvSpread_at s _ hk).1.trans (lu' k (by omega))) ((nvSpread_at s _ hk).1.trans (lv' k (by omega)))
  have hi : ∀ k, k < 4 → _ := fun k hk => nvSums_at ht (k := k)
    (y := unpackhi 2 (subsU16 (nativeReg e bp d yr) (set1_16 (rg.biasY : Int))) zero)
    (u := (nvSpread s (nvCentre e bp d rg r.1)).2) (v := (nvSpread s (nvCentre e bp d rg r.2)).2)
    (yo := nativeSample e bp d (y.getD (cx + (4 + k)) 0) - rg.biasY)
    (by rw [(s16_unpackhi2 _ zero k).1, s16, show k / 4 * 8 + 4 + k % 4 = 4 + k by omega,
          ey (4 + k) (by omega)]; rfl)
    (by rw [(s16_unpackhi2 _ zero k).2, s16_zero])
    ((nvSpread_at s _ hk).2.trans (lu' (4 + k) (by omega)))
    ((nvSpread_at s _ hk).2.trans (lv' (4 + k) (by omega)))
  have pr := w16_pack8 (F := fun j => int32 (int16 ((nativeSample e bp d (y.getD (cx + j) 0) - rg.biasY : Nat) : Int)
      * t.y + mixedChroma (hdiv s) (fun k => int16 ((nativeSample e bp d (fv k) : Int) - rg.biasUv)) (cx + j) * t.cr
      + (2 ^ 12 - 1)) / 2 ^ 13) (fun k hk => (lo k hk).1) (fun k hk => (hi k hk).1) hj
  have pg := w16_pack8 (F := fun j => int32 (int16 ((nativeSample e bp d (y.getD (cx + j) 0) - rg.biasY : Nat) : Int)
      * t.y - mixedChroma (hdiv s) (fun k => int16 ((nativeSample e bp d (fv k) : Int) - rg.biasUv)) (cx + j) * t.g1
      - mixedChroma (hdiv s) (fun k => int16 ((nativeSample e bp d (fu k) : Int) - rg.biasUv)) (cx + j) * t.g2
      + (2 ^ 12 - 1)) / 2 ^ 13) (fun k hk => (lo k hk).2.1) (fun k hk => (hi k hk).2.1) hj
  have pb := w16_pack8 (F := fun j => int32 (int16 ((nativeSample e bp d (y.getD (cx + j) 0) - rg.biasY : Nat) : Int)
      * t.y + mixedChroma (hdiv s) (fun k => int16 ((nativeSample e bp d (fu k) : Int) - rg.biasUv)) (cx + j) * t.cb
      + (2 ^ 12 - 1)) / 2 ^ 13) (fun k hk => (lo k hk).2.2) (fun k hk => (hi k hk).2.2) hj
  rw [w16_min hd15 pr, w16_min hd15 pg, w16_min hd15 pb, w16_alpha hD]
  rfl

/-! ## Rows -/

/-- The pixel of column `x` on a processor; `px` is the scalar code. -/
def cpuNvDeep (cpu : Cpu) (e : Endianness) (bp : BytesPacking) (d : Nat) (ch : Channels) (hd w : Nat)
    (rg : ChromaRange) (t : InvCoef) (px : Nat → Nat → Nat → Buf) (x y : Nat) (fu fv : Nat → Nat) :
    Buf :=
  if cpu ≠ .plain ∧ x < groupCols w then
    nvMixedPixel d ch hd rg t x (nativeSample e bp d y) (fun x => nativeSample e bp d (fu x))
      (fun x => nativeSample e bp d (fv x))
  else px y (fu x) (fv x)

theorem nvMixedPixel_length (d : Nat) (ch : Channels) (hd : Nat) (c : ChromaRange) (t : InvCoef)
    (x y : Nat) (u v : Nat → Nat) : (nvMixedPixel d ch hd c t x y u v).length = ch.count :=
  layout_length' ..

theorem nvDeepHandler_fills (cpu : Cpu) (o : NVOrder) (s : Sampling) (e : Endianness)
    (bp : BytesPacking) {d : Nat} (hd : d = 10 ∨ d = 12) (ch : Channels) (ht : DeepCoef t)
    (hby : rg.biasY < 65536) {w : Nat} (hwp : 0 < w) (px : Nat → Nat → Nat → Buf) :
    (nvDeepHandler cpu o s e bp d ch rg t w).FillsRow false 65536 ch.count w (hdiv s) o.uPos o.vPos px
      (fun x y fu fv p => p = cpuNvDeep cpu e bp d ch (hdiv s) w rg t px x y fu fv) := by
  intro y uv row fu fv hy hu ly lu hw hfu hfv
  have vec : ∃ row' cx, done (sseNvDeepRow o s e bp d ch rg t w y uv row 0 0) = .ok (row', cx) ∧
      RowDone ch.count w (hdiv s) (fun x p => p = if x < groupCols w then
          nvMixedPixel d ch (hdiv s) rg t x (nativeSample e bp d (y.getD x 0))
            (fun x => nativeSample e bp d (fu x)) (fun x => nativeSample e bp d (fv x))
          else px (y.getD x 0) (fu x) (fv x)) row row' cx ∧
      ∀ x, ScalarCol false cx w x → x < w → px (y.getD x 0) (fu x) (fv x) = if x < groupCols w then
          nvMixedPixel d ch (hdiv s) rg t x (nativeSample e bp d (y.getD x 0))
            (fun x => nativeSample e bp d (fu x)) (fun x => nativeSample e bp d (fv x))
          else px (y.getD x 0) (fu x) (fv x) := by
    have gl : groupCols w + 1 ≤ w := by unfold groupCols; omega
    have hst : nvStep s 8 * hdiv s = 16 := by cases s <;> rfl
    obtain ⟨cx, ux, e1, h1, ⟨h2, h2'⟩, h3, h4⟩ := paintLoopI (step := 8) (ustep := nvStep s 8) (width := w)
      (cn := ch.count) (by decide) (I := fun cx ux => ux * hdiv s = 2 * cx ∧ cx % 8 = 0)
      (by
        intro cx ux g
        refine ⟨?_, by omega⟩
        rw [Nat.add_mul, g.1, hst]; omega)
      (pix := fun x => nvMixedPixel d ch (hdiv s) rg t x (nativeSample e bp d (y.getD x 0))
            (fun x => nativeSample e bp d (fu x)) (fun x => nativeSample e bp d (fv x)))
      (fun _ => nvMixedPixel_length ..) (row := row) hw
      (body := fun cx ux row => sseNvDeepBody o s e bp d ch rg t y uv cx ux (cx * ch.count) row)
      (cx0 := 0) (ux0 := 0) ⟨Nat.zero_mul _, rfl⟩
      (by
        rintro cx ux r _ ⟨hux, h8⟩ hlt
        have eq : ∀ k, 2 * ((cx + hdiv s * k) / hdiv s) = ux + 2 * k := by
          intro k
          cases s <;> simp only [hdiv] at hux ⊢ <;> omega
        have room : ux + nvStep s 8 ≤ uv.length := by
          cases s <;> simp only [hdiv, nvStep, chromaStep, ceil2] at * <;> omega
        have cols : ∀ k, k < nvPairs s → cx + hdiv s * k < w := by
          intro k hk
          cases s <;> simp only [hdiv, nvPairs, chromaStep, ceil2] at * <;> omega
        refine sseNvDeepBody_eq o s e bp hd ch ht hby hy hu (by omega) room h8 ?_ ?_ _ _
        · intro k hk
          rw [hfu _ (cols k hk), eq, Nat.add_assoc]
        · intro k hk
          rw [hfv _ (cols k hk), eq, Nat.add_assoc])
      (Nat.zero_le _)
    rw [painted_zero] at e1
    have hcx : cx = groupCols w := by rw [h1]; unfold loopEnd groupCols; omega
    refine ⟨_, cx, by unfold sseNvDeepRow; rw [e1]; rfl,
      painted_done (count_pos ch) (fun _ => nvMixedPixel_length ..) hw h3 (.inl ?_) ?_, ?_⟩
    · cases s <;> simp only [hdiv] <;> omega
    · intro x hx
      rw [if_pos (by omega)]
    · intro x hx hxw
      rw [if_neg]
      rcases hx with h | h <;> omega
  cases cpu with
  | avx2 =>
    obtain ⟨row', cx, e1, h1, h2⟩ := vec
    refine ⟨row', cx, e1, rowDone_imp h1 fun x p _ h => ?_, fun x h3 h4 => ?_⟩
    · simpa [cpuNvDeep] using h
    · simpa [cpuNvDeep] using h2 x h3 h4
  | sse41 =>
    obtain ⟨row', cx, e1, h1, h2⟩ := vec
    refine ⟨row', cx, e1, rowDone_imp h1 fun x p _ h => ?_, fun x h3 h4 => ?_⟩
    · simpa [cpuNvDeep] using h
    · simpa [cpuNvDeep] using h2 x h3 h4
  | plain =>
    exact ⟨row, 0, rfl, ⟨Nat.zero_le _, .inl (Nat.zero_mod _), rfl,
      fun x _ hx => absurd hx (Nat.not_lt_zero _), fun _ _ => rfl⟩,
      fun x _ _ => by simp [cpuNvDeep]⟩

end Verif.X86
