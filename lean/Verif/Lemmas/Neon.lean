import Verif.Model.Neon
import Verif.Spec.NeonDecode
import Verif.Lemmas.X86Decode
import Verif.Lemmas.X86Rows
import Mathlib.Tactic.IntervalCases
/-! # What the NEON kernels compute -/
namespace Verif.Neon
open Spec X86

theorem storeRgb_eq (n : Nat) (ch : Channels) (p : Nat) (r g b a : Reg) (row : Buf) :
    storeRgb n ch p r g b a row = put row p (X86.pixels ch n r g b a) := by
  cases ch <;> rfl

/-! ## Elements -/

theorem s16_rshr6_dup {a : Reg} {k x : Nat} (hx : x < 256) (h0 : a (2 * k) = x) (h1 : a (2 * k + 1) = x) :
    s16 (rshr6 a) k = ((257 * x + 32) / 64 : Nat) := by
  rw [rshr6, s16_mk16, w16, h0, h1, asI16_id] <;> omega

theorem s16_expandLow {a : Reg} {k : Nat} (hk : k < 8) (h : a k < 256) :
    s16 (expandLow a) k = ((257 * a k + 32) / 64 : Nat) := by
  refine s16_rshr6_dup h ?_ ?_
  · simp only [zip1, combine]
    rw [if_pos (by omega), show 2 * k / 2 = k by omega, if_pos hk]
  · simp only [zip1, combine]
    rw [if_neg (by omega), show (2 * k + 1) / 2 = k by omega, if_pos hk]

theorem s16_expandHigh {a : Reg} {k : Nat} (h : a (8 + k) < 256) :
    s16 (expandHigh a) k = ((257 * a (8 + k) + 32) / 64 : Nat) := by
  refine s16_rshr6_dup h ?_ ?_
  · simp only [zip2]
    rw [if_pos (by omega), show 16 / 2 + 2 * k / 2 = 8 + k by omega]
  · simp only [zip2]
    rw [if_neg (by omega), show 16 / 2 + (2 * k + 1) / 2 = 8 + k by omega]

theorem asI8_off {U : Nat} (h : U < 256) : asI8 (((U + 128) % 256 : Nat) : Int) = (U : Int) - 128 := by
  unfold asI8; omega

theorem s16_shllLow {a : Reg} {k U : Nat} (hU : U < 256) (h : a k = (U + 128) % 256) :
    s16 (shllLow a) k = 4 * ((U : Int) - 128) := by
  rw [shllLow, s16_mk16, h, asI8_off hU, asI16_id] <;> omega

theorem s16_shllHigh {a : Reg} {k U : Nat} (hU : U < 256) (h : a (8 + k) = (U + 128) % 256) :
    s16 (shllHigh a) k = 4 * ((U : Int) - 128) := by
  rw [shllHigh, s16_mk16, h, asI8_off hU, asI16_id] <;> omega

theorem neonScale_bounds {rdm : Bool} {a c : Int} (ha : -1024 ≤ a ∧ a ≤ 1024)
    (hc : -32767 ≤ c ∧ c ≤ 32767) : -1025 ≤ neonScale rdm a c ∧ neonScale rdm a c ≤ 1025 := by
  have h := mul_bounds ha hc
  unfold neonScale
  generalize a * c = p at h
  cases rdm
  · simp only [Bool.false_eq_true, if_false]; omega
  · simp only [if_true]; omega

theorem s16_mulh {rdm : Bool} {a : Reg} {c : Int} {k : Nat} (ha : -1024 ≤ s16 a k ∧ s16 a k ≤ 1024)
    (hc : -32767 ≤ c ∧ c ≤ 32767) :
    s16 (mulh rdm a (asI16 c)) k = neonScale rdm (s16 a k) c := by
  have hb := neonScale_bounds (rdm := rdm) ha hc
  rw [asI16_id (x := c) (by omega) (by omega)]
  unfold neonScale at *
  unfold mulh
  cases rdm
  · simp only [Bool.false_eq_true, if_false, Int.add_zero] at *
    rw [s16_mk16]; unfold satI16; rw [asI16_id] <;> omega
  · simp only [if_true] at *
    rw [s16_mk16]; unfold satI16; rw [asI16_id] <;> omega

theorem s16_mlah {rdm : Bool} {a b : Reg} {c : Int} {k : Nat} (ha : -3000 ≤ s16 a k ∧ s16 a k ≤ 3000)
    (hb : -1024 ≤ s16 b k ∧ s16 b k ≤ 1024) (hc : -32767 ≤ c ∧ c ≤ 32767) :
    s16 (mlah rdm a b (asI16 c)) k = s16 a k + neonScale rdm (s16 b k) c := by
  have hs := neonScale_bounds (rdm := rdm) hb hc
  have hm := s16_mulh (rdm := false) hb hc
  unfold mlah
  cases rdm
  · simp only [Bool.false_eq_true, if_false]
    rw [s16_add, hm, asI16_id] <;> omega
  · rw [asI16_id (x := c) (by omega) (by omega)]
    unfold neonScale at *
    simp only [if_true] at *
    rw [s16_mk16]
    generalize s16 b k * c = p at *
    unfold satI16; rw [asI16_id] <;> omega

/-- The three colours of a pixel. -/
theorem colours_at {rdm two : Bool} {t : InvCoef} (ht : Coef16 t) {y u v : Reg} {k Y U V : Nat}
    (hY : Y < 256) (hU : U < 256) (hV : V < 256)
    (hy : s16 y k = ((257 * Y + 32) / 64 : Nat)) (hu : s16 u k = 4 * ((U : Int) - 128))
    (hv : s16 v k = 4 * ((V : Int) - 128)) :
    satU8 (s16 (colours rdm two t y u v).1 k) = (neonRGB rdm two t Y U V).1 ∧
    satU8 (s16 (colours rdm two t y u v).2.1 k) = (neonRGB rdm two t Y U V).2.1 ∧
    satU8 (s16 (colours rdm two t y u v).2.2 k) = (neonRGB rdm two t Y U V).2.2 := by
  obtain ⟨h1, h2, h3, h4, h5⟩ := ht
  have by' : -1024 ≤ s16 y k ∧ s16 y k ≤ 1024 := by rw [hy]; omega
  have bu : -1024 ≤ s16 u k ∧ s16 u k ≤ 1024 := by rw [hu]; omega
  have bv : -1024 ≤ s16 v k ∧ s16 v k ≤ 1024 := by rw [hv]; omega
  have ey := s16_mulh (rdm := rdm) by' h1
  have byy := neonScale_bounds (rdm := rdm) by' h1
  rw [← ey] at byy
  have n4 : -32767 ≤ -t.g1 ∧ -t.g1 ≤ 32767 := by omega
  have n5 : -32767 ≤ -t.g2 ∧ -t.g2 ≤ 32767 := by omega
  have er := s16_mlah (rdm := rdm) (a := mulh rdm y (asI16 t.y)) (b := v) (c := t.cr) (k := k) (by omega) bv h2
  have eb := s16_mlah (rdm := rdm) (a := mulh rdm y (asI16 t.y)) (b := u) (c := t.cb) (k := k) (by omega) bu h3
  have key : ∀ x : Int, satU8 x = byteSat x := fun _ => rfl
  cases two
  · have g1 := s16_mlah (rdm := rdm) (a := mulh rdm y (asI16 t.y)) (b := v) (c := -t.g1) (k := k)
      (by omega) bv n4
    have bg1 := neonScale_bounds (rdm := rdm) bv n4
    have eg := s16_mlah (rdm := rdm) (a := mlah rdm (mulh rdm y (asI16 t.y)) v (asI16 (-t.g1))) (b := u)
      (c := -t.g2) (k := k) (by omega) bu n5
    simp only [colours, Bool.false_eq_true, if_false, rowColours, key, er, eg, g1, eb, ey, hu, hv, hy]
    exact ⟨rfl, rfl, rfl⟩
  · have g1 := s16_mulh (rdm := rdm) bv h4
    have bg1 := neonScale_bounds (rdm := rdm) bv h4
    have g2 := s16_mlah (rdm := rdm) (a := mulh rdm v (asI16 t.g1)) (b := u)
      (c := t.g2) (k := k) (by omega) bu h5
    have bg2 := neonScale_bounds (rdm := rdm) bu h5
    have eg : s16 (sub16 (mulh rdm y (asI16 t.y)) (mlah rdm (mulh rdm v (asI16 t.g1)) u (asI16 t.g2))) k
        = s16 (mulh rdm y (asI16 t.y)) k
          - (neonScale rdm (s16 v k) t.g1 + neonScale rdm (s16 u k) t.g2) := by
      rw [s16_sub, g2, g1, asI16_id] <;> omega
    simp only [colours, if_true, pairColours, key, er, eg, eb, ey, hu, hv, hy]
    exact ⟨rfl, rfl, rfl⟩

/-! ## Groups of pixels -/

theorem neonPixelAt_length (rdm two : Bool) (ch : Channels) (t : InvCoef) (yo u v : Nat) :
    (neonPixelAt rdm two ch t yo u v).length = ch.count := layout_length' ..

section
variable {rdm two : Bool} {t : InvCoef} (ht : Coef16 t) {ch : Channels} {Y U V : Nat → Nat}
include ht

theorem put16_eq {y u v : Reg} (hY : ∀ i, i < 16 → Y i < 256) (hU : ∀ i, i < 16 → U i < 256)
    (hV : ∀ i, i < 16 → V i < 256) (hy : ∀ i, i < 16 → y i = Y i)
    (hu : ∀ i, i < 16 → u i = (U i + 128) % 256) (hv : ∀ i, i < 16 → v i = (V i + 128) % 256)
    (p : Nat) (row : Buf) :
    put16 rdm two ch t p y u v row = put row p
      ((List.range 16).flatMap fun i => neonPixelAt rdm two ch t (Y i) (U i) (V i)) := by
  simp only [put16, storeRgb_eq]
  refine congrArg (put row p) ?_
  unfold X86.pixels
  apply range_flatMap_congr
  intro i hi
  have key : ∀ {a b : Reg} {x : Nat}, (i < 8 → satU8 (s16 a i) = x) →
      (8 ≤ i → satU8 (s16 b (i - 8)) = x) → qmovun a b i = x := by
    intro a b x ha hb
    unfold qmovun
    by_cases h8 : i < 8
    · rw [if_pos h8]; exact ha h8
    · rw [if_neg h8]; exact hb (by omega)
  have lo : i < 8 → _ := fun h8 => colours_at (rdm := rdm) (two := two) (y := expandLow y) (u := shllLow u)
    (v := shllLow v) ht (hY i hi) (hU i hi) (hV i hi)
    (by rw [s16_expandLow h8 (by rw [hy i hi]; exact hY i hi), hy i hi])
    (s16_shllLow (hU i hi) (hu i hi)) (s16_shllLow (hV i hi) (hv i hi))
  have hi' : 8 ≤ i → _ := fun h8 => colours_at (rdm := rdm) (two := two) (k := i - 8)
    (y := expandHigh y) (u := shllHigh u) (v := shllHigh v) ht (hY i hi) (hU i hi) (hV i hi)
    (by
      have e : 8 + (i - 8) = i := by omega
      rw [s16_expandHigh (by rw [e, hy i hi]; exact hY i hi), e, hy i hi])
    (s16_shllHigh (hU i hi) (by rw [show 8 + (i - 8) = i by omega]; exact hu i hi))
    (s16_shllHigh (hV i hi) (by rw [show 8 + (i - 8) = i by omega]; exact hv i hi))
  rw [key (fun h => (lo h).1) (fun h => (hi' h).1), key (fun h => (lo h).2.1) (fun h => (hi' h).2.1),
    key (fun h => (lo h).2.2) (fun h => (hi' h).2.2)]
  rfl

theorem put8_eq {y u v : Reg} (hY : ∀ i, i < 8 → Y i < 256) (hU : ∀ i, i < 8 → U i < 256)
    (hV : ∀ i, i < 8 → V i < 256) (hy : ∀ i, i < 8 → y i = Y i)
    (hu : ∀ i, i < 8 → u i = (U i + 128) % 256) (hv : ∀ i, i < 8 → v i = (V i + 128) % 256)
    (p : Nat) (row : Buf) :
    put8 rdm two ch t p y u v row = put row p
      ((List.range 8).flatMap fun i => neonPixelAt rdm two ch t (Y i) (U i) (V i)) := by
  simp only [put8, storeRgb_eq]
  refine congrArg (put row p) ?_
  unfold X86.pixels
  apply range_flatMap_congr
  intro i hi
  have lo := colours_at (rdm := rdm) (two := two) (y := expandLow y) (u := shllLow u)
    (v := shllLow v) ht (hY i hi) (hU i hi) (hV i hi)
    (by rw [s16_expandLow hi (by rw [hy i hi]; exact hY i hi), hy i hi])
    (s16_shllLow (hU i hi) (hu i hi)) (s16_shllLow (hV i hi) (hv i hi))
  simp only [qmovun, if_pos hi, lo]
  rfl

theorem put32_eq {y u v : Reg} (hY : ∀ i, i < 32 → Y i < 256) (hU : ∀ i, i < 32 → U i < 256)
    (hV : ∀ i, i < 32 → V i < 256) (hy : ∀ i, i < 32 → y i = Y i)
    (hu : ∀ i, i < 32 → u i = (U i + 128) % 256) (hv : ∀ i, i < 32 → v i = (V i + 128) % 256)
    (p : Nat) (row : Buf) :
    put32 rdm two ch t p y u v row = put row p
      ((List.range 32).flatMap fun i => neonPixelAt rdm two ch t (Y i) (U i) (V i)) := by
  unfold put32
  simp only [put16_eq ht (rdm := rdm) (two := two) (ch := ch) (Y := Y) (U := U) (V := V)
      (fun i h => hY i (by omega)) (fun i h => hU i (by omega)) (fun i h => hV i (by omega))
      (fun i h => hy i (by omega)) (fun i h => hu i (by omega)) (fun i h => hv i (by omega)),
    put16_eq ht (rdm := rdm) (two := two) (ch := ch) (Y := fun i => Y (16 + i)) (U := fun i => U (16 + i))
      (V := fun i => V (16 + i)) (y := upper 16 y) (u := upper 16 u) (v := upper 16 v)
      (fun i h => hY (16 + i) (by omega)) (fun i h => hU (16 + i) (by omega)) (fun i h => hV (16 + i) (by omega))
      (fun i h => hy (16 + i) (by omega)) (fun i h => hu (16 + i) (by omega)) (fun i h => hv (16 + i) (by omega))]
  rw [put_put _ _ _ _ _ (by
    rw [flatMap_length (cn := ch.count) (fun j _ => neonPixelAt_length ..), Nat.mul_comm])]
  rw [show (32 : Nat) = 16 + 16 from rfl, range_add_flatMap]

/-- The pixels of a step. -/
theorem putStep_eq {st : Step} {y u v : Reg} (hY : ∀ i, i < st.n → Y i < 256)
    (hU : ∀ i, i < st.n → U i < 256) (hV : ∀ i, i < st.n → V i < 256) (hy : ∀ i, i < st.n → y i = Y i)
    (hu : ∀ i, i < st.n → u i = (U i + 128) % 256) (hv : ∀ i, i < st.n → v i = (V i + 128) % 256)
    (p : Nat) (row : Buf) :
    putStep rdm two st ch t p y u v row = put row p
      ((List.range st.n).flatMap fun i => neonPixelAt rdm two ch t (Y i) (U i) (V i)) := by
  cases st
  · exact put32_eq ht hY hU hV hy hu hv p row
  · exact put16_eq ht hY hU hV hy hu hv p row
  · exact put8_eq ht hY hU hV hy hu hv p row

end

/-! ## Chroma -/

theorem sub8_at {rg : ChromaRange} (hb : rg.biasUv = 128) {r : Reg} {i x : Nat} (h : r i = x) :
    sub8 r (corr rg) i = (x + 128) % 256 := by
  simp only [sub8, corr, set1_8, hb, h]
  have : asU8 ((128 : Nat) : Int) = 128 := by rfl
  rw [this]
  omega

theorem doubled_at (st : Step) (r : Reg) {i : Nat} (h : i < st.n) : doubled st r i = r (i / 2) := by
  have z1 : ∀ i, zip1 r r i = r (i / 2) := by intro i; simp only [zip1, ite_self]
  have z2 : ∀ n i, zip2 n r r i = r (n / 2 + i / 2) := by intro n i; simp only [zip2, ite_self]
  cases st
  · simp only [doubled, combine, z1, z2]
    split
    · rfl
    · congr 1; omega
  · simp only [doubled, combine, z1, z2]
    split
    · rfl
    · congr 1; omega
  · exact z1 i

theorem n_half (st : Step) : st.n % 2 = 0 ∧ 0 < st.n := by cases st <;> decide

theorem planarChroma_at {rg : ChromaRange} (hb : rg.biasUv = 128) {st : Step} {s : Sampling} {u v : Buf}
    {ux : Nat} (hu : ∀ x ∈ u, x < 256)
    (hv : ∀ x ∈ v, x < 256) (lu : ux + chromaStep s st.n ≤ u.length)
    (lv : ux + chromaStep s st.n ≤ v.length) :
    ∃ c, planarChroma st s rg u v ux = .ok c ∧
      (∀ i, i < st.n → c.1 i = (u.getD (ux + i / hdiv s) 0 + 128) % 256) ∧
      (∀ i, i < st.n → c.2 i = (v.getD (ux + i / hdiv s) 0 + 128) % 256) := by
  obtain ⟨hn, -⟩ := n_half st
  have sub : ux + st.n / 2 ≤ u.length → ux + st.n / 2 ≤ v.length → ∃ c,
      (load (st.n / 2) u ux >>= fun uv => load (st.n / 2) v ux >>= fun vv =>
        Outcome.ok (doubled st (sub8 uv (corr rg)), doubled st (sub8 vv (corr rg)))) = .ok c ∧
      (∀ i, i < st.n → c.1 i = (u.getD (ux + i / 2) 0 + 128) % 256) ∧
      (∀ i, i < st.n → c.2 i = (v.getD (ux + i / 2) 0 + 128) % 256) := by
    intro lu lv
    obtain ⟨ur, eu, u1, u2⟩ := load_at lu hu
    obtain ⟨vr, ev, v1, v2⟩ := load_at lv hv
    refine ⟨_, by rw [eu, Outcome.bind_ok, ev, Outcome.bind_ok], fun i hi => ?_, fun i hi => ?_⟩
    · exact (doubled_at st _ hi).trans (sub8_at hb (u1 _ (by omega)))
    · exact (doubled_at st _ hi).trans (sub8_at hb (v1 _ (by omega)))
  cases s
  · exact sub (by simpa [chromaStep, ceil2, show (st.n + 1) / 2 = st.n / 2 by omega] using lu)
      (by simpa [chromaStep, ceil2, show (st.n + 1) / 2 = st.n / 2 by omega] using lv)
  · exact sub (by simpa [chromaStep, ceil2, show (st.n + 1) / 2 = st.n / 2 by omega] using lu)
      (by simpa [chromaStep, ceil2, show (st.n + 1) / 2 = st.n / 2 by omega] using lv)
  · obtain ⟨ur, eu, u1, u2⟩ := load_at (n := st.n) lu hu
    obtain ⟨vr, ev, v1, v2⟩ := load_at (n := st.n) lv hv
    refine ⟨_, by rw [planarChroma, eu, Outcome.bind_ok, ev, Outcome.bind_ok]; rfl,
      fun i hi => ?_, fun i hi => ?_⟩
    · simp only [hdiv, Nat.div_one]; exact sub8_at hb (u1 i hi)
    · simp only [hdiv, Nat.div_one]; exact sub8_at hb (v1 i hi)

theorem ordered_at (o : NVOrder) (r : Reg) (i : Nat) :
    (ordered o (deinterleave r)).1 i = r (2 * i + o.uPos) ∧
    (ordered o (deinterleave r)).2 i = r (2 * i + o.vPos) := by
  cases o <;> exact ⟨rfl, rfl⟩

theorem tbl_at (o : NVOrder) (r : Reg) {i : Nat} (h : i < 8) :
    (ordered o (tbl1 r [0, 0, 2, 2, 4, 4, 6, 6], tbl1 r [1, 1, 3, 3, 5, 5, 7, 7])).1 i
      = r (2 * (i / 2) + o.uPos) ∧
    (ordered o (tbl1 r [0, 0, 2, 2, 4, 4, 6, 6], tbl1 r [1, 1, 3, 3, 5, 5, 7, 7])).2 i
      = r (2 * (i / 2) + o.vPos) := by
  cases o <;> interval_cases i <;> exact ⟨rfl, rfl⟩

theorem uPos_le (o : NVOrder) : o.uPos ≤ 1 ∧ o.vPos ≤ 1 := by cases o <;> decide

theorem nvChroma2_at {rg : ChromaRange} (hb : rg.biasUv = 128) {st : Step} (o : NVOrder) {uv : Buf}
    {ux : Nat} (hu : ∀ x ∈ uv, x < 256) (lu : ux + st.n ≤ uv.length) :
    ∃ c, nvChroma2 st o rg uv ux = .ok c ∧
      (∀ i, i < st.n → c.1 i = (uv.getD (ux + (2 * (i / 2) + o.uPos)) 0 + 128) % 256) ∧
      (∀ i, i < st.n → c.2 i = (uv.getD (ux + (2 * (i / 2) + o.vPos)) 0 + 128) % 256) := by
  obtain ⟨p1, p2⟩ := uPos_le o
  obtain ⟨r, er, r1, r2⟩ := load_at lu hu
  have wide : st = .s32 ∨ st = .s16 → ∃ c,
      (load st.n uv ux >>= fun r =>
        Outcome.ok (doubled st (sub8 (ordered o (deinterleave r)).1 (corr rg)),
          doubled st (sub8 (ordered o (deinterleave r)).2 (corr rg)))) = .ok c ∧
      (∀ i, i < st.n → c.1 i = (uv.getD (ux + (2 * (i / 2) + o.uPos)) 0 + 128) % 256) ∧
      (∀ i, i < st.n → c.2 i = (uv.getD (ux + (2 * (i / 2) + o.vPos)) 0 + 128) % 256) := by
    intro hs
    have hn := n_half st
    refine ⟨_, by rw [er, Outcome.bind_ok], fun i hi => ?_, fun i hi => ?_⟩
    · refine (doubled_at st _ hi).trans (sub8_at hb ?_)
      rw [(ordered_at o r _).1]; exact r1 _ (by omega)
    · refine (doubled_at st _ hi).trans (sub8_at hb ?_)
      rw [(ordered_at o r _).2]; exact r1 _ (by omega)
  cases st
  · exact wide (.inl rfl)
  · exact wide (.inr rfl)
  · have er' : load 8 uv ux = .ok r := er
    refine ⟨_, by rw [nvChroma2, er', Outcome.bind_ok]; rfl, fun i hi => ?_, fun i hi => ?_⟩
    · have hi' : i < 8 := hi
      refine (tbl_at o _ hi).1.trans (sub8_at hb (r1 _ ?_))
      show 2 * (i / 2) + o.uPos < 8
      omega
    · have hi' : i < 8 := hi
      refine (tbl_at o _ hi).2.trans (sub8_at hb (r1 _ ?_))
      show 2 * (i / 2) + o.vPos < 8
      omega

theorem nvChroma1_at {rg : ChromaRange} (hb : rg.biasUv = 128) {st : Step} (o : NVOrder) {uv : Buf}
    {ux : Nat} (hu : ∀ x ∈ uv, x < 256) (lu : ux + st.n * 2 ≤ uv.length) :
    ∃ c, nvChroma1 st o rg uv ux = .ok c ∧
      (∀ i, i < st.n → c.1 i = (uv.getD (ux + (2 * i + o.uPos)) 0 + 128) % 256) ∧
      (∀ i, i < st.n → c.2 i = (uv.getD (ux + (2 * i + o.vPos)) 0 + 128) % 256) := by
  obtain ⟨p1, p2⟩ := uPos_le o
  have narrow : ∃ c,
      (load (2 * st.n) uv ux >>= fun r =>
        Outcome.ok (sub8 (ordered o (deinterleave r)).1 (corr rg),
          sub8 (ordered o (deinterleave r)).2 (corr rg))) = .ok c ∧
      (∀ i, i < st.n → c.1 i = (uv.getD (ux + (2 * i + o.uPos)) 0 + 128) % 256) ∧
      (∀ i, i < st.n → c.2 i = (uv.getD (ux + (2 * i + o.vPos)) 0 + 128) % 256) := by
    obtain ⟨r, er, r1, r2⟩ := load_at (n := 2 * st.n) (l := uv) (p := ux) (by omega) hu
    refine ⟨_, by rw [er, Outcome.bind_ok], fun i hi => ?_, fun i hi => ?_⟩
    · refine sub8_at hb ?_
      rw [(ordered_at o r _).1]; exact r1 _ (by omega)
    · refine sub8_at hb ?_
      rw [(ordered_at o r _).2]; exact r1 _ (by omega)
  cases st
  · have lu' : ux + 32 * 2 ≤ uv.length := lu
    obtain ⟨a, ea, a1, -⟩ := load_at (n := 32) (l := uv) (p := ux) (by omega) hu
    obtain ⟨b, eb, b1, -⟩ := load_at (n := 32) (l := uv) (p := ux + 16 * 2) (by omega) hu
    have sh : ∀ i d, 16 ≤ i → ux + 16 * 2 + (2 * (i - 16) + d) = ux + (2 * i + d) := by intros; omega
    refine ⟨_, by rw [nvChroma1, ea, Outcome.bind_ok, eb, Outcome.bind_ok]; rfl,
      fun i hi => ?_, fun i hi => ?_⟩
    · have hi' : i < 32 := hi
      simp only [combine]
      split
      · refine sub8_at hb ?_
        rw [(ordered_at o a _).1]; exact a1 _ (by omega)
      · refine sub8_at hb ?_
        rw [(ordered_at o b _).1, b1 _ (by omega), sh i _ (by omega)]
    · have hi' : i < 32 := hi
      simp only [combine]
      split
      · refine sub8_at hb ?_
        rw [(ordered_at o a _).2]; exact a1 _ (by omega)
      · refine sub8_at hb ?_
        rw [(ordered_at o b _).2, b1 _ (by omega), sh i _ (by omega)]
  · exact narrow
  · exact narrow

theorem nvChroma_at {rg : ChromaRange} (hb : rg.biasUv = 128) {st : Step} {s : Sampling} (o : NVOrder)
    {uv : Buf} {ux : Nat} (hu : ∀ x ∈ uv, x < 256) (lu : ux + nvStep s st.n ≤ uv.length) :
    ∃ c, nvChroma st s o rg uv ux = .ok c ∧
      (∀ i, i < st.n → c.1 i = (uv.getD (ux + (2 * (i / hdiv s) + o.uPos)) 0 + 128) % 256) ∧
      (∀ i, i < st.n → c.2 i = (uv.getD (ux + (2 * (i / hdiv s) + o.vPos)) 0 + 128) % 256) := by
  have hn := n_half st
  cases s
  · exact nvChroma2_at hb o hu (by simp only [nvStep, chromaStep, ceil2] at lu; omega)
  · exact nvChroma2_at hb o hu (by simp only [nvStep, chromaStep, ceil2] at lu; omega)
  · obtain ⟨c, e, h1, h2⟩ := nvChroma1_at hb (st := st) o hu lu
    exact ⟨c, e, by simpa [hdiv] using h1, by simpa [hdiv] using h2⟩

end Verif.Neon
