import Verif.Lemmas.X86Decode
import Verif.Spec.Vector
/-! # Rows of the x86 planar decoders -/
namespace Verif.X86
open Spec

/-! ## Loops that paint -/

/-- Where a loop of steps of `step` pixels that must leave at least one pixel stops. -/
def loopEnd (step width cx0 : Nat) : Nat := cx0 + (width - 1 - cx0) / step * step

theorem loopEnd_eq {step width cx0 cx k : Nat} (hs : 0 < step) (h : cx = cx0 + k * step)
    (h1 : k = 0 ∨ cx < width) (h2 : width ≤ cx + step) : cx = loopEnd step width cx0 := by
  have : (width - 1 - cx0) / step = k := by
    by_cases hk : k = 0
    · subst hk; rw [Nat.div_eq_of_lt (by omega)]
    · rw [Nat.div_eq_iff hs]
      omega
  unfold loopEnd; rw [this, h]

/-- A vector loop whose body stores the next `step` pixels paints a prefix of the row; `I` relates
the luma and chroma positions. -/
theorem paintLoopI {step ustep width cn : Nat} (hs : 0 < step) {I : Nat → Nat → Prop}
    (hus : ∀ cx ux, I cx ux → I (cx + step) (ux + ustep))
    {pix : Nat → Buf} (hp : ∀ j, (pix j).length = cn) {body : Nat → Nat → Buf → Outcome Buf}
    {row : Buf} (hw : width * cn ≤ row.length) {cx0 ux0 : Nat} (h0 : I cx0 ux0)
    (hbody : ∀ cx ux r, cx0 ≤ cx → I cx ux → cx + step < width →
      body cx ux r = put r (cx * cn) ((List.range step).flatMap fun j => pix (cx + j)))
    (hcx : cx0 ≤ width) :
    ∃ cx ux, vwhile step ustep width body cx0 ux0 (painted cn pix cx0 row)
        = .ok (painted cn pix cx row, cx, ux) ∧
      cx = loopEnd step width cx0 ∧ I cx ux ∧ cx ≤ width ∧ width ≤ cx + step := by
  obtain ⟨s, cx, ux, h1, ⟨h2, ⟨k, h3, h7⟩, h4, h5⟩, h6⟩ := vwhile_ok (width := width) (ustep := ustep)
    hs (body := body)
    (P := fun cx ux s => s = painted cn pix cx row ∧
      (∃ k, cx = cx0 + k * step ∧ (k = 0 ∨ cx < width)) ∧ I cx ux ∧ cx ≤ width)
    (by
      rintro cx ux s ⟨rfl, ⟨k, g1, _⟩, g2, g3⟩ hlt
      refine ⟨painted cn pix (cx + step) row, ?_, rfl, ⟨k + 1, ?_, .inr hlt⟩, hus _ _ g2, by omega⟩
      · rw [hbody cx ux _ (by omega) g2 hlt]
        exact painted_put hp (le_trans (Nat.mul_le_mul_right _ (by omega)) hw)
      · rw [Nat.add_mul]; omega)
    (cx := cx0) (ux := ux0) (s := painted cn pix cx0 row)
    ⟨rfl, ⟨0, by omega, .inl rfl⟩, h0, hcx⟩
  subst h2
  exact ⟨cx, ux, h1, loopEnd_eq hs h3 h7 h6, h4, h5, h6⟩

/-- … with `hd` luma positions per chroma position. -/
theorem paintLoop {step ustep width cn hd : Nat} (hs : 0 < step) (hus : ustep * hd = step)
    {pix : Nat → Buf} (hp : ∀ j, (pix j).length = cn) {body : Nat → Nat → Buf → Outcome Buf}
    {row : Buf} (hw : width * cn ≤ row.length) {cx0 ux0 : Nat} (h0 : ux0 * hd = cx0)
    (hbody : ∀ cx ux r, cx0 ≤ cx → ux * hd = cx → cx + step < width →
      body cx ux r = put r (cx * cn) ((List.range step).flatMap fun j => pix (cx + j)))
    (hcx : cx0 ≤ width) :
    ∃ cx ux, vwhile step ustep width body cx0 ux0 (painted cn pix cx0 row)
        = .ok (painted cn pix cx row, cx, ux) ∧
      cx = loopEnd step width cx0 ∧ ux * hd = cx ∧ cx ≤ width ∧ width ≤ cx + step :=
  paintLoopI (I := fun cx ux => ux * hd = cx) hs (fun cx ux g => by rw [Nat.add_mul, g, hus]) hp hw h0
    hbody hcx

/-- The same for loops over two rows. -/
theorem paintLoopI2 {step ustep width cn : Nat} (hs : 0 < step) {I : Nat → Nat → Prop}
    (hus : ∀ cx ux, I cx ux → I (cx + step) (ux + ustep))
    {pix0 pix1 : Nat → Buf} (hp0 : ∀ j, (pix0 j).length = cn) (hp1 : ∀ j, (pix1 j).length = cn)
    {body : Nat → Nat → Buf × Buf → Outcome (Buf × Buf)}
    {row0 row1 : Buf} (hw0 : width * cn ≤ row0.length) (hw1 : width * cn ≤ row1.length)
    {cx0 ux0 : Nat} (h0 : I cx0 ux0)
    (hbody : ∀ cx ux r0 r1, cx0 ≤ cx → I cx ux → cx + step < width →
      body cx ux (r0, r1) = (do
        let a ← put r0 (cx * cn) ((List.range step).flatMap fun j => pix0 (cx + j))
        let b ← put r1 (cx * cn) ((List.range step).flatMap fun j => pix1 (cx + j))
        return (a, b)))
    (hcx : cx0 ≤ width) :
    ∃ cx ux, vwhile step ustep width body cx0 ux0
        (painted cn pix0 cx0 row0, painted cn pix1 cx0 row1)
        = .ok ((painted cn pix0 cx row0, painted cn pix1 cx row1), cx, ux) ∧
      cx = loopEnd step width cx0 ∧ I cx ux ∧ cx ≤ width ∧ width ≤ cx + step := by
  obtain ⟨s, cx, ux, h1, ⟨h2, ⟨k, h3, h7⟩, h4, h5⟩, h6⟩ := vwhile_ok (width := width) (ustep := ustep)
    hs (body := body)
    (P := fun cx ux s => s = (painted cn pix0 cx row0, painted cn pix1 cx row1) ∧
      (∃ k, cx = cx0 + k * step ∧ (k = 0 ∨ cx < width)) ∧ I cx ux ∧ cx ≤ width)
    (by
      rintro cx ux s ⟨rfl, ⟨k, g1, _⟩, g2, g3⟩ hlt
      refine ⟨(painted cn pix0 (cx + step) row0, painted cn pix1 (cx + step) row1), ?_, rfl,
        ⟨k + 1, ?_, .inr hlt⟩, hus _ _ g2, by omega⟩
      · have hle : (cx + step) * cn ≤ width * cn := Nat.mul_le_mul_right _ (by omega)
        rw [hbody cx ux _ _ (by omega) g2 hlt, painted_put hp0 (by omega), Outcome.bind_ok,
          painted_put hp1 (by omega)]
        rfl
      · rw [Nat.add_mul]; omega)
    (cx := cx0) (ux := ux0) (s := (painted cn pix0 cx0 row0, painted cn pix1 cx0 row1))
    ⟨rfl, ⟨0, by omega, .inl rfl⟩, h0, hcx⟩
  subst h2
  exact ⟨cx, ux, h1, loopEnd_eq hs h3 h7 h6, h4, h5, h6⟩

theorem paintLoop2 {step ustep width cn hd : Nat} (hs : 0 < step) (hus : ustep * hd = step)
    {pix0 pix1 : Nat → Buf} (hp0 : ∀ j, (pix0 j).length = cn) (hp1 : ∀ j, (pix1 j).length = cn)
    {body : Nat → Nat → Buf × Buf → Outcome (Buf × Buf)}
    {row0 row1 : Buf} (hw0 : width * cn ≤ row0.length) (hw1 : width * cn ≤ row1.length)
    {cx0 ux0 : Nat} (h0 : ux0 * hd = cx0)
    (hbody : ∀ cx ux r0 r1, cx0 ≤ cx → ux * hd = cx → cx + step < width →
      body cx ux (r0, r1) = (do
        let a ← put r0 (cx * cn) ((List.range step).flatMap fun j => pix0 (cx + j))
        let b ← put r1 (cx * cn) ((List.range step).flatMap fun j => pix1 (cx + j))
        return (a, b)))
    (hcx : cx0 ≤ width) :
    ∃ cx ux, vwhile step ustep width body cx0 ux0
        (painted cn pix0 cx0 row0, painted cn pix1 cx0 row1)
        = .ok ((painted cn pix0 cx row0, painted cn pix1 cx row1), cx, ux) ∧
      cx = loopEnd step width cx0 ∧ ux * hd = cx ∧ cx ≤ width ∧ width ≤ cx + step :=
  paintLoopI2 (I := fun cx ux => ux * hd = cx) hs (fun cx ux g => by rw [Nat.add_mul, g, hus]) hp0 hp1
    hw0 hw1 h0 hbody hcx

/-! ## Stack buffers -/

theorem getD_append_left {a b : Buf} {i : Nat} (h : i < a.length) : (a ++ b).getD i 0 = a.getD i 0 := by
  simp only [List.getD_eq_getElem?_getD, List.getElem?_append_left h]

/-- Copying into a stack buffer. -/
theorem copyIn_ok {src dst : Buf} {p n : Nat} (h1 : p + n ≤ src.length) (h2 : n ≤ dst.length) :
    ∃ b, copyIn src p n dst = .ok b ∧ b.length = dst.length ∧
      (∀ i, i < n → b.getD i 0 = src.getD (p + i) 0) ∧ ∀ s ∈ b, s ∈ src ∨ s ∈ dst := by
  have hl : ((src.drop p).take n).length = n := by simp; omega
  refine ⟨_, by rw [copyIn, if_pos h1]; exact put_ok (by omega), splice_length (by omega), ?_, ?_⟩
  · intro i hi
    simp only [splice, List.take_zero, List.nil_append]
    rw [getD_append_left (by omega)]
    simp only [List.getD_eq_getElem?_getD, List.getElem?_take, hi, if_true, List.getElem?_drop]
  · intro s hs
    simp only [splice, List.take_zero, List.nil_append, List.mem_append] at hs
    rcases hs with hs | hs
    · exact .inl (List.mem_of_mem_drop (List.mem_of_mem_take hs))
    · exact .inr (List.mem_of_mem_drop hs)

/-- Copying the first `n` of the `N` pixels stored in a stack buffer to the row. -/
theorem copyOut_put {N L n cn : Nat} (hN : N * cn ≤ L) (hn : n ≤ N) {f : Nat → Buf}
    (hf : ∀ j, (f j).length = cn) (row : Buf) (p : Nat) :
    (put (List.replicate L 0) 0 ((List.range N).flatMap f) >>= fun db => copyOut db (n * cn) row p)
      = put row p ((List.range n).flatMap f) := by
  have hl : ((List.range N).flatMap f).length = N * cn := flatMap_length fun j _ => hf j
  have hle : n * cn ≤ N * cn := Nat.mul_le_mul_right _ hn
  rw [put_ok (by rw [hl, List.length_replicate]; omega), Outcome.bind_ok, copyOut,
    if_pos (by rw [splice_length (by rw [hl, List.length_replicate]; omega), List.length_replicate]; omega)]
  congr 1
  obtain ⟨k, rfl⟩ : ∃ k, N = n + k := ⟨N - n, by omega⟩
  simp only [splice, List.take_zero, List.nil_append]
  rw [range_add_flatMap, List.append_assoc, List.take_append_of_le_length
    (by rw [flatMap_length fun j _ => hf j]),
    List.take_of_length_le (by rw [flatMap_length fun j _ => hf j])]

/-! ## The bodies -/

/-- What a body of `n` pixels stores when the luma above its offset is `f y`. -/
def stepPix (ch : Channels) (t : InvCoef) (f : Nat → Nat) (hd n : Nat) (y u v : Buf) (cx ux : Nat) :
    Buf :=
  (List.range n).flatMap fun j => vecPixelAt ch t (f (y.getD (cx + j) 0))
    (u.getD (ux + j / hd) 0) (v.getD (ux + j / hd) 0)

theorem vecPixelAt_length (ch : Channels) (t : InvCoef) (yo u v : Nat) :
    (vecPixelAt ch t yo u v).length = ch.count := layout_length' ..

variable {rg : ChromaRange} {t : InvCoef}

/-- A load, bytes known. -/
theorem load_at {n : Nat} {l : Buf} {p : Nat} (h : p + n ≤ l.length) (hl : ∀ s ∈ l, s < 256) :
    ∃ r : Reg, load n l p = .ok r ∧ (∀ i, i < n → r i = l.getD (p + i) 0) ∧ ∀ i, r i < 256 := by
  refine ⟨_, load_ok h, ?_, ?_⟩
  · intro i hi; simp only [hi, if_true]
  · intro i
    split
    · exact getD_lt hl _
    · omega

theorem subsU8_at {r : Reg} {b i : Nat} (hb : b < 256) : subsU8 r (set1_8 b) i = r i - b := by
  simp only [subsU8, set1_8, asU8]; omega

theorem subsI8_at {r : Reg} {b i : Nat} (hb : b < 256) :
    subsI8 r (set1_8 b) i = signedLuma b (r i) := by
  have e : asU8 (b : Int) = b := by unfold asU8; omega
  simp only [subsI8, set1_8, e, signedLuma, asI8]
  rfl

theorem signedLuma_lt (b y : Nat) : signedLuma b y < 256 := by
  simp only [signedLuma]; omega

theorem avx2Chroma_at {s : Sampling} {c : Buf} {ux : Nat} (h : ux + chromaStep s 32 ≤ c.length)
    (hc : ∀ x ∈ c, x < 256) :
    ∃ r, avx2Chroma s c ux = .ok r ∧ (∀ i, i < 32 → r i = c.getD (ux + i / hdiv s) 0) ∧
      ∀ i, i < 32 → r i < 256 := by
  have sub : ∀ s, s ≠ .yuv444 → hdiv s = 2 → (ux + 16 ≤ c.length) →
      (∃ r, (load 16 c ux >>= fun r => Outcome.ok (avx2Double r)) = .ok r ∧
      (∀ i, i < 32 → r i = c.getD (ux + i / hdiv s) 0) ∧ ∀ i, i < 32 → r i < 256) := by
    intro s _ h2 hlen
    obtain ⟨r, e, h3, h4⟩ := load_at hlen hc
    refine ⟨avx2Double r, by rw [e]; rfl, ?_, ?_⟩
    · intro i hi; rw [avx2Double_at _ hi, h3 _ (by omega), h2]
    · intro i hi; rw [avx2Double_at _ hi]; exact h4 _
  cases s
  · exact sub .yuv420 (by decide) rfl h
  · exact sub .yuv422 (by decide) rfl h
  · obtain ⟨r, e, h3, h4⟩ := load_at (n := 32) h hc
    exact ⟨r, e, fun i hi => by rw [h3 i hi]; simp [hdiv], fun i _ => h4 i⟩

theorem avx2Body_eq (hb : rg.biasUv = 128) (hby : rg.biasY < 256) (ht : Coef16 t) (s : Sampling)
    (ch : Channels) {y u v : Buf} (hy : ∀ x ∈ y, x < 256) (hu : ∀ x ∈ u, x < 256)
    (hv : ∀ x ∈ v, x < 256) {cx ux : Nat} (ly : cx + 32 ≤ y.length)
    (lu : ux + chromaStep s 32 ≤ u.length) (lv : ux + chromaStep s 32 ≤ v.length) (p : Nat)
    (row : Buf) :
    avx2Body s ch rg t y u v cx ux p row
      = put row p (stepPix ch t (· - rg.biasY) (hdiv s) 32 y u v cx ux) := by
  obtain ⟨yr, ey, y1, y2⟩ := load_at ly hy
  obtain ⟨ur, eu, u1, u2⟩ := avx2Chroma_at lu hu
  obtain ⟨vr, ev, v1, v2⟩ := avx2Chroma_at lv hv
  rw [avx2Body, ey, Outcome.bind_ok, eu, Outcome.bind_ok, ev, Outcome.bind_ok, avx2Store_eq]
  have h := rgb444_at hb ht (n := 32) rfl (y := subsU8 yr (set1_8 rg.biasY)) (u := ur) (v := vr)
    (fun i _ => by rw [subsU8_at hby]; have := y2 i; omega) u2 v2
  rw [(h.congr (fun i hi => by rw [subsU8_at hby, y1 i hi]) u1 v1).pixels ch]
  rfl

theorem avx2Body422_eq (hb : rg.biasUv = 128) (hby : rg.biasY < 256) (ht : Coef16 t)
    (ch : Channels) {y u v : Buf} (hy : ∀ x ∈ y, x < 256) (hu : ∀ x ∈ u, x < 256)
    (hv : ∀ x ∈ v, x < 256) {cx ux : Nat} (ly : cx + 32 ≤ y.length)
    (lu : ux + 16 ≤ u.length) (lv : ux + 16 ≤ v.length) (p : Nat) (row : Buf) :
    avx2Body422 ch rg t y u v cx ux p row
      = put row p (stepPix ch t (· - rg.biasY) 2 32 y u v cx ux) := by
  obtain ⟨yr, ey, y1, y2⟩ := load_at ly hy
  obtain ⟨ur, eu, u1, u2⟩ := load_at lu hu
  obtain ⟨vr, ev, v1, v2⟩ := load_at lv hv
  rw [avx2Body422, ey, Outcome.bind_ok, eu, Outcome.bind_ok, ev, Outcome.bind_ok]
  have h := dup_at hb ht (n := 32) rfl (y := subsU8 yr (set1_8 rg.biasY))
    (uw := expandLo (permute4x64 0x50 ur)) (vw := expandLo (permute4x64 0x50 vr)) (U := ur) (V := vr)
    (fun i _ => by rw [subsU8_at hby]; have := y2 i; omega) (fun k _ => u2 k) (fun k _ => v2 k)
    (fun k hk => by
      rw [s16_expandLo (by rw [permute50_at _ (by omega)]; exact u2 _), permute50_at _ (by omega)])
    (fun k hk => by
      rw [s16_expandLo (by rw [permute50_at _ (by omega)]; exact v2 _), permute50_at _ (by omega)])
  simp only []
  rw [avx2Store_eq, (h.congr (Y' := fun i => y.getD (cx + i) 0 - rg.biasY)
    (U' := fun i => u.getD (ux + i / 2) 0) (V' := fun i => v.getD (ux + i / 2) 0)
    (fun i hi => by rw [subsU8_at hby, y1 i hi]) (fun i hi => u1 _ (by omega))
    (fun i hi => v1 _ (by omega))).pixels ch]
  rfl

theorem avx2Body420_eq (hb : rg.biasUv = 128) (hby : rg.biasY < 256) (ht : Coef16 t)
    (ch : Channels) {y0 y1 u v : Buf} (hy0 : ∀ x ∈ y0, x < 256) (hy1 : ∀ x ∈ y1, x < 256)
    (hu : ∀ x ∈ u, x < 256) (hv : ∀ x ∈ v, x < 256) {cx ux : Nat} (ly0 : cx + 32 ≤ y0.length)
    (ly1 : cx + 32 ≤ y1.length) (lu : ux + 16 ≤ u.length) (lv : ux + 16 ≤ v.length) (p : Nat)
    (r0 r1 : Buf) :
    avx2Body420 ch rg t y0 y1 u v cx ux p (r0, r1)
      = (do
        let a ← put r0 p (stepPix ch t (· - rg.biasY) 2 32 y0 u v cx ux)
        let b ← put r1 p (stepPix ch t (· - rg.biasY) 2 32 y1 u v cx ux)
        return (a, b)) := by
  obtain ⟨yr0, ey0, a1, a2⟩ := load_at ly0 hy0
  obtain ⟨yr1, ey1, b1, b2⟩ := load_at ly1 hy1
  obtain ⟨ur, eu, u1, u2⟩ := load_at lu hu
  obtain ⟨vr, ev, v1, v2⟩ := load_at lv hv
  rw [avx2Body420, ey0, Outcome.bind_ok, ey1, Outcome.bind_ok, eu, Outcome.bind_ok, ev,
    Outcome.bind_ok]
  simp only []
  have key : ∀ (yr : Reg) (y : Buf), (∀ i, i < 32 → yr i = y.getD (cx + i) 0) → (∀ i, yr i < 256) →
      ∀ row, avx2Store ch p (rgb444 rg t (subsU8 yr (set1_8 rg.biasY)) (avx2Double ur)
          (avx2Double vr)).1 (rgb444 rg t (subsU8 yr (set1_8 rg.biasY)) (avx2Double ur)
          (avx2Double vr)).2.1 (rgb444 rg t (subsU8 yr (set1_8 rg.biasY)) (avx2Double ur)
          (avx2Double vr)).2.2 (set1_8 255) row
        = put row p (stepPix ch t (· - rg.biasY) 2 32 y u v cx ux) := by
    intro yr y h1 h2 row
    have h := rgb444_at hb ht (n := 32) rfl (y := subsU8 yr (set1_8 rg.biasY)) (u := avx2Double ur)
      (v := avx2Double vr)
      (fun i _ => by rw [subsU8_at hby]; have := h2 i; omega)
      (fun i hi => by rw [avx2Double_at _ hi]; exact u2 _)
      (fun i hi => by rw [avx2Double_at _ hi]; exact v2 _)
    rw [avx2Store_eq, (h.congr (Y' := fun i => y.getD (cx + i) 0 - rg.biasY)
      (U' := fun i => u.getD (ux + i / 2) 0) (V' := fun i => v.getD (ux + i / 2) 0)
      (fun i hi => by rw [subsU8_at hby, h1 i hi])
      (fun i hi => by rw [avx2Double_at _ hi, u1 _ (by omega)])
      (fun i hi => by rw [avx2Double_at _ hi, v1 _ (by omega)])).pixels ch]
    rfl
  rw [key yr0 y0 a1 a2]
  congr 1
  funext a
  rw [key yr1 y1 b1 b2]

theorem sseChroma_at {s : Sampling} {n : Nat} (hn : n = 16 ∨ n = 8) {c : Buf} {ux : Nat}
    (h : ux + chromaStep s n ≤ c.length) (hc : ∀ x ∈ c, x < 256) :
    ∃ r, sseChroma s n c ux = .ok r ∧ (∀ i, i < n → r i = c.getD (ux + i / hdiv s) 0) ∧
      ∀ i, i < n → r i < 256 := by
  have sub : ∀ s, s ≠ .yuv444 → hdiv s = 2 → (ux + n / 2 ≤ c.length) →
      (∃ r, (load (n / 2) c ux >>= fun r => Outcome.ok (sseDouble r)) = .ok r ∧
      (∀ i, i < n → r i = c.getD (ux + i / hdiv s) 0) ∧ ∀ i, i < n → r i < 256) := by
    intro s _ h2 hlen
    obtain ⟨r, e, h3, h4⟩ := load_at hlen hc
    refine ⟨sseDouble r, by rw [e]; rfl, ?_, ?_⟩
    · intro i hi; rw [sseDouble_at _ (by omega), h3 _ (by omega), h2]
    · intro i hi; rw [sseDouble_at _ (by omega)]; exact h4 _
  cases s
  · exact sub .yuv420 (by decide) rfl (by simp only [chromaStep, ceil2] at h; omega)
  · exact sub .yuv422 (by decide) rfl (by simp only [chromaStep, ceil2] at h; omega)
  · obtain ⟨r, e, h3, h4⟩ := load_at (n := n) h hc
    exact ⟨r, e, fun i hi => by rw [h3 i hi]; simp [hdiv], fun i _ => h4 i⟩

theorem sseBody16_eq (hb : rg.biasUv = 128) (hby : rg.biasY < 256) (ht : Coef16 t) (s : Sampling)
    (ch : Channels) {y u v : Buf} (hy : ∀ x ∈ y, x < 256) (hu : ∀ x ∈ u, x < 256)
    (hv : ∀ x ∈ v, x < 256) {cx ux : Nat} (ly : cx + 16 ≤ y.length)
    (lu : ux + chromaStep s 16 ≤ u.length) (lv : ux + chromaStep s 16 ≤ v.length) (row : Buf) :
    sseBody16 s ch rg t y u v cx ux row
      = put row (cx * ch.count) (stepPix ch t (· - rg.biasY) (hdiv s) 16 y u v cx ux) := by
  obtain ⟨yr, ey, y1, y2⟩ := load_at ly hy
  obtain ⟨ur, eu, u1, u2⟩ := sseChroma_at (.inl rfl) lu hu
  obtain ⟨vr, ev, v1, v2⟩ := sseChroma_at (.inl rfl) lv hv
  rw [sseBody16, ey, Outcome.bind_ok, eu, Outcome.bind_ok, ev, Outcome.bind_ok, sseStore_eq]
  have h := rgb444_at hb ht (n := 16) rfl (y := subsU8 yr (set1_8 rg.biasY)) (u := ur) (v := vr)
    (fun i _ => by rw [subsU8_at hby]; have := y2 i; omega) u2 v2
  rw [(h.congr (fun i hi => by rw [subsU8_at hby, y1 i hi]) u1 v1).pixels ch]
  rfl

/-- A low-half step from the words. -/
theorem low_at (hb : rg.biasUv = 128) (ht : Coef16 t) {y uw vw : Reg} {U V : Nat → Nat}
    (hy : ∀ i, i < 8 → y i < 256) (hU : ∀ k, k < 8 → U k < 256) (hV : ∀ k, k < 8 → V k < 256)
    (hu : ∀ k, k < 8 → s16 uw k = expand10 (U k)) (hv : ∀ k, k < 8 → s16 vw k = expand10 (V k)) :
    RgbAt t (packRgbLow t (expandLo y) (chromaTerms rg t uw vw)) 8 y U V := by
  apply packRgbLow_at ht hy hU hV
  · intro k hk
    have e : k / 8 * 16 + k % 8 = k := by omega
    have h := s16_expandLo (v := y) (k := k) (by rw [e]; exact hy k hk)
    rw [e] at h; exact h
  · intro k hk
    exact chromaTerms_at hb ht (hU k hk) (hV k hk) (hu k hk) (hv k hk)

theorem s16_expandLo8 {v : Reg} {k : Nat} (hk : k < 8) (h : v k < 256) :
    s16 (expandLo v) k = expand10 (v k) := by
  have e : k / 8 * 16 + k % 8 = k := by omega
  have h2 := s16_expandLo (v := v) (k := k) (by rw [e]; exact h)
  rw [e] at h2; exact h2

theorem sseBody8_eq (hb : rg.biasUv = 128) (hby : rg.biasY < 256) (ht : Coef16 t) (s : Sampling)
    (ch : Channels) {y u v : Buf} (hy : ∀ x ∈ y, x < 256) (hu : ∀ x ∈ u, x < 256)
    (hv : ∀ x ∈ v, x < 256) {cx ux : Nat} (ly : cx + 8 ≤ y.length)
    (lu : ux + chromaStep s 8 ≤ u.length) (lv : ux + chromaStep s 8 ≤ v.length) (row : Buf) :
    sseBody8 s ch rg t y u v cx ux row
      = put row (cx * ch.count) (stepPix ch t (signedLuma rg.biasY) (hdiv s) 8 y u v cx ux) := by
  obtain ⟨yr, ey, y1, y2⟩ := load_at ly hy
  obtain ⟨ur, eu, u1, u2⟩ := sseChroma_at (.inr rfl) lu hu
  obtain ⟨vr, ev, v1, v2⟩ := sseChroma_at (.inr rfl) lv hv
  rw [sseBody8, ey, Outcome.bind_ok, eu, Outcome.bind_ok, ev, Outcome.bind_ok]
  have h := low_at hb ht (y := subsI8 yr (set1_8 rg.biasY)) (uw := expandLo ur) (vw := expandLo vr)
    (U := ur) (V := vr) (fun i _ => by rw [subsI8_at hby]; exact signedLuma_lt ..) u2 v2
    (fun k hk => s16_expandLo8 hk (u2 k hk)) (fun k hk => s16_expandLo8 hk (v2 k hk))
  simp only []
  rw [sseStoreHalf_eq, (h.congr (fun i hi => by rw [subsI8_at hby, y1 i hi]) u1 v1).pixels ch]
  rfl

theorem sseBody422_eq (hb : rg.biasUv = 128) (hby : rg.biasY < 256) (ht : Coef16 t)
    (ch : Channels) {y u v : Buf} (hy : ∀ x ∈ y, x < 256) (hu : ∀ x ∈ u, x < 256)
    (hv : ∀ x ∈ v, x < 256) {cx ux : Nat} (ly : cx + 16 ≤ y.length)
    (lu : ux + 8 ≤ u.length) (lv : ux + 8 ≤ v.length) (row : Buf) :
    sseBody422 ch rg t y u v cx ux row
      = put row (cx * ch.count) (stepPix ch t (· - rg.biasY) 2 16 y u v cx ux) := by
  obtain ⟨yr, ey, y1, y2⟩ := load_at ly hy
  obtain ⟨ur, eu, u1, u2⟩ := load_at lu hu
  obtain ⟨vr, ev, v1, v2⟩ := load_at lv hv
  rw [sseBody422, ey, Outcome.bind_ok, eu, Outcome.bind_ok, ev, Outcome.bind_ok]
  have h := dup_at hb ht (n := 16) rfl (y := subsU8 yr (set1_8 rg.biasY))
    (uw := expandLo ur) (vw := expandLo vr) (U := ur) (V := vr)
    (fun i _ => by rw [subsU8_at hby]; have := y2 i; omega) (fun k _ => u2 k) (fun k _ => v2 k)
    (fun k hk => s16_expandLo8 (by omega) (u2 k)) (fun k hk => s16_expandLo8 (by omega) (v2 k))
  simp only []
  rw [sseStore_eq, (h.congr (Y' := fun i => y.getD (cx + i) 0 - rg.biasY)
    (U' := fun i => u.getD (ux + i / 2) 0) (V' := fun i => v.getD (ux + i / 2) 0)
    (fun i hi => by rw [subsU8_at hby, y1 i hi]) (fun i hi => u1 _ (by omega))
    (fun i hi => v1 _ (by omega))).pixels ch]
  rfl

theorem s16_quad {r : Reg} {k : Nat} (hk : k < 8) (h : ∀ i, r i < 256) :
    s16 (srli16 6 (sseQuad r)) k = expand10 (r (k / 2)) := by
  apply s16_srli6 (h _)
  simp only [w16]
  rw [sseQuad_at _ (by omega), sseQuad_at _ (by omega)]
  have e1 : 2 * k / 4 = k / 2 := by omega
  have e2 : (2 * k + 1) / 4 = k / 2 := by omega
  rw [e1, e2]

theorem sseBody422Half_eq (hb : rg.biasUv = 128) (hby : rg.biasY < 256) (ht : Coef16 t)
    (ch : Channels) {y u v : Buf} (hy : ∀ x ∈ y, x < 256) (hu : ∀ x ∈ u, x < 256)
    (hv : ∀ x ∈ v, x < 256) {cx ux : Nat} (ly : cx + 8 ≤ y.length)
    (lu : ux + 4 ≤ u.length) (lv : ux + 4 ≤ v.length) (row : Buf) :
    sseBody422Half ch rg t y u v cx ux row
      = put row (cx * ch.count) (stepPix ch t (signedLuma rg.biasY) 2 8 y u v cx ux) := by
  obtain ⟨yr, ey, y1, y2⟩ := load_at ly hy
  obtain ⟨ur, eu, u1, u2⟩ := load_at lu hu
  obtain ⟨vr, ev, v1, v2⟩ := load_at lv hv
  rw [sseBody422Half, ey, Outcome.bind_ok, eu, Outcome.bind_ok, ev, Outcome.bind_ok]
  have h := low_at hb ht (y := subsI8 yr (set1_8 rg.biasY)) (uw := srli16 6 (sseQuad ur))
    (vw := srli16 6 (sseQuad vr)) (U := fun k => ur (k / 2)) (V := fun k => vr (k / 2))
    (fun i _ => by rw [subsI8_at hby]; exact signedLuma_lt ..) (fun k _ => u2 _) (fun k _ => v2 _)
    (fun k hk => s16_quad hk u2) (fun k hk => s16_quad hk v2)
  simp only []
  rw [sseStoreHalf_eq, (h.congr (Y' := fun i => signedLuma rg.biasY (y.getD (cx + i) 0))
    (U' := fun i => u.getD (ux + i / 2) 0) (V' := fun i => v.getD (ux + i / 2) 0)
    (fun i hi => by rw [subsI8_at hby, y1 i hi]) (fun i hi => u1 _ (by omega))
    (fun i hi => v1 _ (by omega))).pixels ch]
  rfl

theorem sseBody420_eq (hb : rg.biasUv = 128) (hby : rg.biasY < 256) (ht : Coef16 t)
    (ch : Channels) {y0 y1 u v : Buf} (hy0 : ∀ x ∈ y0, x < 256) (hy1 : ∀ x ∈ y1, x < 256)
    (hu : ∀ x ∈ u, x < 256) (hv : ∀ x ∈ v, x < 256) {cx ux : Nat} (ly0 : cx + 16 ≤ y0.length)
    (ly1 : cx + 16 ≤ y1.length) (lu : ux + 8 ≤ u.length) (lv : ux + 8 ≤ v.length) (r0 r1 : Buf) :
    sseBody420 ch rg t y0 y1 u v cx ux (r0, r1)
      = (do
        let a ← put r0 (cx * ch.count) (stepPix ch t (· - rg.biasY) 2 16 y0 u v cx ux)
        let b ← put r1 (cx * ch.count) (stepPix ch t (· - rg.biasY) 2 16 y1 u v cx ux)
        return (a, b)) := by
  obtain ⟨yr0, ey0, a1, a2⟩ := load_at ly0 hy0
  obtain ⟨yr1, ey1, b1, b2⟩ := load_at ly1 hy1
  obtain ⟨ur, eu, u1, u2⟩ := load_at lu hu
  obtain ⟨vr, ev, v1, v2⟩ := load_at lv hv
  rw [sseBody420, ey0, Outcome.bind_ok, ey1, Outcome.bind_ok, eu, Outcome.bind_ok, ev,
    Outcome.bind_ok]
  simp only []
  have key : ∀ (yr : Reg) (y : Buf), (∀ i, i < 16 → yr i = y.getD (cx + i) 0) → (∀ i, yr i < 256) →
      ∀ row, sseStore ch (cx * ch.count) (rgb444 rg t (subsU8 yr (set1_8 rg.biasY)) (sseDouble ur)
          (sseDouble vr)).1 (rgb444 rg t (subsU8 yr (set1_8 rg.biasY)) (sseDouble ur)
          (sseDouble vr)).2.1 (rgb444 rg t (subsU8 yr (set1_8 rg.biasY)) (sseDouble ur)
          (sseDouble vr)).2.2 (set1_8 255) row
        = put row (cx * ch.count) (stepPix ch t (· - rg.biasY) 2 16 y u v cx ux) := by
    intro yr y h1 h2 row
    have h := rgb444_at hb ht (n := 16) rfl (y := subsU8 yr (set1_8 rg.biasY)) (u := sseDouble ur)
      (v := sseDouble vr)
      (fun i _ => by rw [subsU8_at hby]; have := h2 i; omega)
      (fun i hi => by rw [sseDouble_at _ hi]; exact u2 _)
      (fun i hi => by rw [sseDouble_at _ hi]; exact v2 _)
    rw [sseStore_eq, (h.congr (Y' := fun i => y.getD (cx + i) 0 - rg.biasY)
      (U' := fun i => u.getD (ux + i / 2) 0) (V' := fun i => v.getD (ux + i / 2) 0)
      (fun i hi => by rw [subsU8_at hby, h1 i hi])
      (fun i hi => by rw [sseDouble_at _ hi, u1 _ (by omega)])
      (fun i hi => by rw [sseDouble_at _ hi, v1 _ (by omega)])).pixels ch]
    rfl
  rw [key yr0 y0 a1 a2]
  congr 1
  funext a
  rw [key yr1 y1 b1 b2]

theorem sseBody420Half_eq (hb : rg.biasUv = 128) (hby : rg.biasY < 256) (ht : Coef16 t)
    (ch : Channels) {y0 y1 u v : Buf} (hy0 : ∀ x ∈ y0, x < 256) (hy1 : ∀ x ∈ y1, x < 256)
    (hu : ∀ x ∈ u, x < 256) (hv : ∀ x ∈ v, x < 256) {cx ux : Nat} (ly0 : cx + 8 ≤ y0.length)
    (ly1 : cx + 8 ≤ y1.length) (lu : ux + 4 ≤ u.length) (lv : ux + 4 ≤ v.length) (r0 r1 : Buf) :
    sseBody420Half ch rg t y0 y1 u v cx ux (r0, r1)
      = (do
        let a ← put r0 (cx * ch.count) (stepPix ch t (· - rg.biasY) 2 8 y0 u v cx ux)
        let b ← put r1 (cx * ch.count) (stepPix ch t (· - rg.biasY) 2 8 y1 u v cx ux)
        return (a, b)) := by
  obtain ⟨yr0, ey0, a1, a2⟩ := load_at ly0 hy0
  obtain ⟨yr1, ey1, b1, b2⟩ := load_at ly1 hy1
  obtain ⟨ur, eu, u1, u2⟩ := load_at lu hu
  obtain ⟨vr, ev, v1, v2⟩ := load_at lv hv
  rw [sseBody420Half, ey0, Outcome.bind_ok, ey1, Outcome.bind_ok, eu, Outcome.bind_ok, ev,
    Outcome.bind_ok]
  simp only []
  have key : ∀ (yr : Reg) (y : Buf), (∀ i, i < 8 → yr i = y.getD (cx + i) 0) → (∀ i, yr i < 256) →
      RgbAt t (packRgbLow t (expandLo (subsU8 yr (set1_8 rg.biasY)))
        (chromaTerms rg t (expandLo (sseDouble ur)) (expandLo (sseDouble vr)))) 8
        (fun i => y.getD (cx + i) 0 - rg.biasY) (fun i => u.getD (ux + i / 2) 0)
        (fun i => v.getD (ux + i / 2) 0) := by
    intro yr y h1 h2
    have h := low_at hb ht (y := subsU8 yr (set1_8 rg.biasY)) (uw := expandLo (sseDouble ur))
      (vw := expandLo (sseDouble vr)) (U := sseDouble ur) (V := sseDouble vr)
      (fun i _ => by rw [subsU8_at hby]; have := h2 i; omega)
      (fun i hi => by rw [sseDouble_at _ (by omega)]; exact u2 _)
      (fun i hi => by rw [sseDouble_at _ (by omega)]; exact v2 _)
      (fun k hk => s16_expandLo8 hk (by rw [sseDouble_at _ (by omega)]; exact u2 _))
      (fun k hk => s16_expandLo8 hk (by rw [sseDouble_at _ (by omega)]; exact v2 _))
    exact h.congr (fun i hi => by rw [subsU8_at hby, h1 i hi])
      (fun i hi => by rw [sseDouble_at _ (by omega), u1 _ (by omega)])
      (fun i hi => by rw [sseDouble_at _ (by omega), v1 _ (by omega)])
  rw [sseStoreHalf_eq, (key yr0 y0 a1 a2).pixels ch]
  congr 1
  funext a
  rw [sseStoreHalf_eq, (key yr1 y1 b1 b2).pixels ch]
  rfl

end Verif.X86
