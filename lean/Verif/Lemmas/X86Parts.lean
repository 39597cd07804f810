import Verif.Model.X86Parts
import Verif.Spec.Parts
import Verif.Lemmas.X86EncValues
import Verif.Lemmas.X86NvEncHandlers
/-! # Row encoders made of one step: what they store, whatever the arithmetic -/
namespace Verif.X86
open Spec

/-- A step that holds pixels as `R` says stores the values `A`. -/
structure PartOk {C : Type} (P : Part C) (ch : Channels) (A : Vals) (R : C → (Nat → Buf) → Prop) :
    Prop where
  even : P.n % 2 = 0
  pos : 0 < P.n
  uvBuf : P.n ≤ P.uvBuf
  load : ∀ src x0, (∀ b ∈ src, b < 256) → (x0 + P.n) * ch.count ≤ src.length →
    ∃ c, P.load src (x0 * ch.count) = .ok c ∧ R c fun j => rowPx src ch.count (x0 + j)
  luma : ∀ c p, R c p → ∀ i, i < P.n → P.luma c i = A.y (p i)
  cb : ∀ c p, R c p → ∀ i, i < P.n → P.cb c i = A.u1 (p i)
  cr : ∀ c p, R c p → ∀ i, i < P.n → P.cr c i = A.v1 (p i)
  cbPairs : ∀ c p, R c p → ∀ i, i < P.n / 2 → P.cbPairs c i = A.u2 (p (2 * i)) (p (2 * i + 1))
  crPairs : ∀ c p, R c p → ∀ i, i < P.n / 2 → P.crPairs c i = A.v2 (p (2 * i)) (p (2 * i + 1))
  cbRows : ∀ c p d q, R c p → R d q → ∀ i, i < P.n / 2 →
    P.cbPairs (P.avg c d) i = A.u4 (p (2 * i)) (p (2 * i + 1)) (q (2 * i)) (q (2 * i + 1))
  crRows : ∀ c p d q, R c p → R d q → ∀ i, i < P.n / 2 →
    P.crPairs (P.avg c d) i = A.v4 (p (2 * i)) (p (2 * i + 1)) (q (2 * i)) (q (2 * i + 1))
  inter1 : ∀ a b, bytes P.n (P.inter a b).1 = (List.range (P.n / 2)).flatMap fun j => [a j, b j]
  inter2 : ∀ a b, bytes P.n (P.inter a b).1 ++ bytes P.n (P.inter a b).2
    = (List.range P.n).flatMap fun j => [a j, b j]

/-! ## Values -/

/-- The values as an encoder's functions of pixels. -/
def valsFun (A : Vals) (s : Sampling) : EncFun where
  y := A.y
  y11 _ px := A.y px
  u := A.cb s
  v := A.cr s

/-- Cb sample `c` of a row of pixels. -/
def rowU (A : Vals) (s : Sampling) (p : Nat → Buf) (c : Nat) : Nat :=
  if s = .yuv444 then A.u1 (p c) else A.u2 (p (2 * c)) (p (2 * c + 1))
/-- Cr sample `c` of a row of pixels. -/
def rowV (A : Vals) (s : Sampling) (p : Nat → Buf) (c : Nat) : Nat :=
  if s = .yuv444 then A.v1 (p c) else A.v2 (p (2 * c)) (p (2 * c + 1))
/-- Cb sample `c` of two rows of pixels. -/
def rowU2 (A : Vals) (p q : Nat → Buf) (c : Nat) : Nat :=
  A.u4 (p (2 * c)) (p (2 * c + 1)) (q (2 * c)) (q (2 * c + 1))
/-- Cr sample `c` of two rows of pixels. -/
def rowV2 (A : Vals) (p q : Nat → Buf) (c : Nat) : Nat :=
  A.v4 (p (2 * c)) (p (2 * c + 1)) (q (2 * c)) (q (2 * c + 1))

section
variable (A : Vals) (s : Sampling)

theorem rowU_local : Local1 s (rowU A s) := by
  intro p q c d h
  unfold rowU
  cases s
  · simp only [hdiv] at h
    rw [if_neg (by decide), if_neg (by decide), h 1 (by omega), show p (2 * c) = q (2 * d) from h 0 (by omega)]
  · simp only [hdiv] at h
    rw [if_neg (by decide), if_neg (by decide), h 1 (by omega), show p (2 * c) = q (2 * d) from h 0 (by omega)]
  · simp only [hdiv] at h
    have := h 0 (by omega)
    simp only [Nat.one_mul, Nat.add_zero] at this
    rw [if_pos rfl, if_pos rfl, this]

theorem rowV_local : Local1 s (rowV A s) := by
  intro p q c d h
  unfold rowV
  cases s
  · simp only [hdiv] at h
    rw [if_neg (by decide), if_neg (by decide), h 1 (by omega), show p (2 * c) = q (2 * d) from h 0 (by omega)]
  · simp only [hdiv] at h
    rw [if_neg (by decide), if_neg (by decide), h 1 (by omega), show p (2 * c) = q (2 * d) from h 0 (by omega)]
  · simp only [hdiv] at h
    have := h 0 (by omega)
    simp only [Nat.one_mul, Nat.add_zero] at this
    rw [if_pos rfl, if_pos rfl, this]

theorem rowU2_local : Local2 (rowU2 A) := by
  intro p q p' q' c d h h'
  unfold rowU2
  rw [h 1 (by omega), h' 1 (by omega), show p (2 * c) = p' (2 * d) from h 0 (by omega),
    show q (2 * c) = q' (2 * d) from h' 0 (by omega)]

theorem rowV2_local : Local2 (rowV2 A) := by
  intro p q p' q' c d h h'
  unfold rowV2
  rw [h 1 (by omega), h' 1 (by omega), show p (2 * c) = p' (2 * d) from h 0 (by omega),
    show q (2 * c) = q' (2 * d) from h' 0 (by omega)]

variable {A s} {w : Nat} {cn c : Nat}

theorem extPx_succ_last {rgba : Buf} (h : 2 * c + 1 = w) :
    extPx w cn rgba (2 * c + 1) = extPx w cn rgba (2 * c) := by
  unfold extPx; congr 1; omega

theorem rowU_block {rgba : Buf} (hc : c < (w - 1) / hdiv s + 1) (hw : 0 < w) :
    rowU A s (extPx w cn rgba) c = A.cb s false (rowBlock rgba cn w (hdiv s) c) := by
  have sub : ∀ s, s ≠ .yuv444 → c < (w - 1) / 2 + 1 →
      rowU A s (extPx w cn rgba) c = A.cb s false (rowBlock rgba cn w 2 c) := by
    intro s hs hc
    rw [rowU, if_neg hs]
    by_cases h : 2 * c + 1 < w
    · rw [rowBlock_two h, extPx_lt (by omega), extPx_lt h]
      rfl
    · have h' : 2 * c + 1 = w := by omega
      rw [rowBlock_last h', extPx_succ_last h', extPx_lt (by omega), Vals.cb, if_neg hs]
  cases s
  · exact sub .yuv420 (by decide) hc
  · exact sub .yuv422 (by decide) hc
  · simp only [hdiv, Nat.div_one] at hc ⊢
    rw [rowBlock_one (by omega), rowU, if_pos rfl, extPx_lt (by omega)]
    rfl

theorem rowV_block {rgba : Buf} (hc : c < (w - 1) / hdiv s + 1) (hw : 0 < w) :
    rowV A s (extPx w cn rgba) c = A.cr s false (rowBlock rgba cn w (hdiv s) c) := by
  have sub : ∀ s, s ≠ .yuv444 → c < (w - 1) / 2 + 1 →
      rowV A s (extPx w cn rgba) c = A.cr s false (rowBlock rgba cn w 2 c) := by
    intro s hs hc
    rw [rowV, if_neg hs]
    by_cases h : 2 * c + 1 < w
    · rw [rowBlock_two h, extPx_lt (by omega), extPx_lt h]
      rfl
    · have h' : 2 * c + 1 = w := by omega
      rw [rowBlock_last h', extPx_succ_last h', extPx_lt (by omega), Vals.cr, if_neg hs]
  cases s
  · exact sub .yuv420 (by decide) hc
  · exact sub .yuv422 (by decide) hc
  · simp only [hdiv, Nat.div_one] at hc ⊢
    rw [rowBlock_one (by omega), rowV, if_pos rfl, extPx_lt (by omega)]
    rfl

theorem rowU2_block {rgba0 rgba1 : Buf} (hc : c < (w - 1) / 2 + 1) (hw : 0 < w) :
    rowU2 A (extPx w cn rgba0) (extPx w cn rgba1) c
      = A.cb .yuv420 (decide (2 * c + 1 = w)) (rowBlock rgba0 cn w 2 c ++ rowBlock rgba1 cn w 2 c) := by
  rw [rowU2]
  by_cases h : 2 * c + 1 < w
  · rw [rowBlock_two h, rowBlock_two h, extPx_lt (by omega), extPx_lt h, extPx_lt (by omega), extPx_lt h]
    rfl
  · have h' : 2 * c + 1 = w := by omega
    rw [rowBlock_last h', rowBlock_last h', extPx_succ_last h', extPx_succ_last h', extPx_lt (by omega),
      extPx_lt (by omega), decide_eq_true h']
    rfl

theorem rowV2_block {rgba0 rgba1 : Buf} (hc : c < (w - 1) / 2 + 1) (hw : 0 < w) :
    rowV2 A (extPx w cn rgba0) (extPx w cn rgba1) c
      = A.cr .yuv420 (decide (2 * c + 1 = w)) (rowBlock rgba0 cn w 2 c ++ rowBlock rgba1 cn w 2 c) := by
  rw [rowV2]
  by_cases h : 2 * c + 1 < w
  · rw [rowBlock_two h, rowBlock_two h, extPx_lt (by omega), extPx_lt h, extPx_lt (by omega), extPx_lt h]
    rfl
  · have h' : 2 * c + 1 = w := by omega
    rw [rowBlock_last h', rowBlock_last h', extPx_succ_last h', extPx_succ_last h', extPx_lt (by omega),
      extPx_lt (by omega), decide_eq_true h']
    rfl
end

/-! ## Semi-planar rows with any values -/

/-- A step of `n` pixels stores luma `L` and the pairs of `U` and `V`. -/
def StepNv (o : NVOrder) (n : Nat) (s : Sampling) (ch : Channels) (L : Buf → Nat)
    (U V : (Nat → Buf) → Nat → Nat) (f : Buf → Nat → Planes2 → Nat → Nat → Outcome Planes2) : Prop :=
  ∀ (src : Buf) (x0 : Nat) (d : Planes2) (cx ux : Nat), (∀ b ∈ src, b < 256) →
    (x0 + n) * ch.count ≤ src.length →
    f src (x0 * ch.count) d cx ux = (do
      let y ← put d.1 cx ((List.range n).flatMap fun j => [L (rowPx src ch.count (x0 + j))])
      let uv ← put d.2 ux ((List.range (chromaStep s n)).flatMap fun c =>
        orderUV o (U (fun x => rowPx src ch.count (x0 + x)) c)
          (V (fun x => rowPx src ch.count (x0 + x)) c))
      return (y, uv))

/-- A step of `n` pixels of two rows. -/
def StepNv2 (o : NVOrder) (n : Nat) (ch : Channels) (L : Buf → Nat)
    (U V : (Nat → Buf) → (Nat → Buf) → Nat → Nat)
    (f : Buf → Buf → Nat → Planes3 → Nat → Nat → Outcome Planes3) : Prop :=
  ∀ (src0 src1 : Buf) (x0 : Nat) (d : Planes3) (cx ux : Nat), (∀ b ∈ src0, b < 256) →
    (∀ b ∈ src1, b < 256) → (x0 + n) * ch.count ≤ src0.length → (x0 + n) * ch.count ≤ src1.length →
    f src0 src1 (x0 * ch.count) d cx ux = (do
      let y0 ← put d.1 cx ((List.range n).flatMap fun j => [L (rowPx src0 ch.count (x0 + j))])
      let y1 ← put d.2.1 cx ((List.range n).flatMap fun j => [L (rowPx src1 ch.count (x0 + j))])
      let uv ← put d.2.2 ux ((List.range (n / 2)).flatMap fun c =>
        orderUV o
          (U (fun x => rowPx src0 ch.count (x0 + x)) (fun x => rowPx src1 ch.count (x0 + x)) c)
          (V (fun x => rowPx src0 ch.count (x0 + x)) (fun x => rowPx src1 ch.count (x0 + x)) c))
      return (y0, y1, uv))

/-- Chroma pairs of a row. -/
abbrev valP (o : NVOrder) (ch : Channels) (U V : (Nat → Buf) → Nat → Nat) (w : Nat) (rgba : Buf)
    (c : Nat) : Buf := orderUV o (U (extPx w ch.count rgba) c) (V (extPx w ch.count rgba) c)
/-- Chroma pairs of two rows. -/
abbrev valP2 (o : NVOrder) (ch : Channels) (U V : (Nat → Buf) → (Nat → Buf) → Nat → Nat) (w : Nat)
    (rgba0 rgba1 : Buf) (c : Nat) : Buf :=
  orderUV o (U (extPx w ch.count rgba0) (extPx w ch.count rgba1) c)
    (V (extPx w ch.count rgba0) (extPx w ch.count rgba1) c)

section
variable {ch : Channels} {o : NVOrder} {n : Nat} {s : Sampling} {L : Buf → Nat}

theorem stepNv_step {U V : (Nat → Buf) → Nat → Nat}
    {f : Buf → Nat → Planes2 → Nat → Nat → Outcome Planes2}
    (hf : StepNv o n s ch L U V f) (hU : Local1 s U) (hV : Local1 s V) (hn : n % 2 = 0) (h0 : 0 < n)
    {w : Nat} {rgba : Buf}
    (hB : ∀ b ∈ rgba, b < 256) (hr : w * ch.count ≤ rgba.length) {d : Planes2} (ly : w ≤ d.1.length)
    (lu : 2 * ((w - 1) / hdiv s + 1) ≤ d.2.length) {cx c : Nat} (hux : c * hdiv s = cx)
    (hlt : cx + n < w) :
    f rgba (cx * ch.count) (nvSt (hdiv s) (valL ch L rgba) (valP o ch U V w rgba) d cx) cx
        (c * 2)
      = .ok (nvSt (hdiv s) (valL ch L rgba) (valP o ch U V w rgba) d (cx + n)) := by
  have hm := count_mono ch (show cx + n ≤ w by omega)
  have d1 : chromaDone (hdiv s) cx = c := by rw [← hux]; exact chromaDone_mul (hdiv_pos s)
  have d2 : chromaDone (hdiv s) (cx + n) = c + chromaStep s n := by
    rw [← hux]; exact chromaDone_step hn
  have hroom := chroma_room hux hn (show cx + n ≤ w by omega) (Nat.le_refl ((w - 1) / hdiv s + 1)) h0
  rw [hf rgba cx _ cx (c * 2) hB (by omega)]
  simp only [nvSt, d1, d2]
  rw [painted_put1 (fun _ => rfl) (by omega) (fun j _ => rfl), Outcome.bind_ok,
    painted_put2 (fun _ => orderUV_length) (by omega) (fun j hj => by
      rw [list_one_inj (valC_step hux hn (show cx + n ≤ w by omega) hj hU),
        list_one_inj (valC_step hux hn (show cx + n ≤ w by omega) hj hV)]), Outcome.bind_ok]
  rfl

theorem stepNvTail_ok {U V : (Nat → Buf) → Nat → Nat}
    {f : Buf → Nat → Planes2 → Nat → Nat → Outcome Planes2}
    (hf : StepNv o n s ch L U V f) (hU : Local1 s U) (hV : Local1 s V) (hn : n % 2 = 0) {w : Nat}
    {rgba : Buf}
    (hB : ∀ b ∈ rgba, b < 256) (hr : w * ch.count ≤ rgba.length) {d : Planes2} (ly : w ≤ d.1.length)
    (lu : 2 * ((w - 1) / hdiv s + 1) ≤ d.2.length) {cx c : Nat} (hux : c * hdiv s = cx) (hlt : cx < w)
    (hle : w ≤ cx + n) :
    ∃ ux', nvEncTail n s ch.count w (fun sb b => f sb 0 b 0 0) rgba
        (nvSt (hdiv s) (valL ch L rgba) (valP o ch U V w rgba) d cx) cx (c * 2)
      = .ok (nvSt (hdiv s) (valL ch L rgba) (valP o ch U V w rgba) d w, w, ux') := by
  obtain ⟨sb, es, ls, sB, sp⟩ := tailSrc_ok (n := n) (cn := ch.count) (w := w) (count_le ch) hn
    (s != .yuv444) hB hr hlt hle
  have d1 : chromaDone (hdiv s) cx = c := by rw [← hux]; exact chromaDone_mul (hdiv_pos s)
  have d2 : chromaDone (hdiv s) w = c + chromaStep s (w - cx) := by
    rw [← hux]; exact chromaDone_tail (by omega)
  have hcs : chromaStep s n ≤ n := by cases s <;> simp only [chromaStep, ceil2] <;> omega
  have hct : chromaStep s (w - cx) ≤ chromaStep s n := by
    cases s <;> simp only [chromaStep, ceil2] <;> omega
  have hroom := chroma_tail hux hlt (Nat.le_refl ((w - 1) / hdiv s + 1))
  have hb := hf sb 0 (List.replicate n 0, List.replicate (n * 2) 0) 0 0 sB
    (by rw [ls, Nat.zero_add]; exact Nat.mul_le_mul_left _ (count_le ch))
  obtain ⟨by', ey, cy⟩ := buf_copyOut (N := n) (L := n) (cn := 1)
    (f := fun j => [L (rowPx sb ch.count (0 + j))]) (by omega) (fun _ => rfl)
  obtain ⟨bu, eu, cu⟩ := buf_copyOut (N := chromaStep s n) (L := n * 2) (cn := 2)
    (f := fun c => orderUV o (U (fun x => rowPx sb ch.count (0 + x)) c)
      (V (fun x => rowPx sb ch.count (0 + x)) c)) (by omega)
    (fun _ => orderUV_length)
  simp only [Nat.zero_mul, ey, eu, Outcome.bind_ok] at hb
  simp only [Nat.mul_one] at cy
  unfold nvEncTail
  rw [if_pos hlt]
  simp only [if_neg (show ¬ n < w - cx by omega), es, Outcome.bind_ok, hb, Outcome.pure_eq]
  rw [cy _ _ _ (by omega), cu _ _ _ hct]
  simp only [nvSt, d1, d2]
  rw [painted_put1 (fun _ => rfl) (by omega) (fun j hj => by
      rw [Nat.zero_add, sp j (.inl hj), extPx_lt (by omega)]), Outcome.bind_ok,
    painted_put2 (fun _ => orderUV_length) (by omega) (fun j hj => by
      rw [list_one_inj (valC_tail hux hlt sp hj hU), list_one_inj (valC_tail hux hlt sp hj hV)]),
    Outcome.bind_ok]
  refine ⟨c * 2 + chromaStep s (w - cx) * 2, ?_⟩
  rw [show cx + (w - cx) = w by omega]

variable {U V : (Nat → Buf) → (Nat → Buf) → Nat → Nat}

theorem stepNv2_step {f : Buf → Buf → Nat → Planes3 → Nat → Nat → Outcome Planes3}
    (hf : StepNv2 o n ch L U V f) (hU : Local2 U) (hV : Local2 V) (hn : n % 2 = 0) {w : Nat}
    {rgba0 rgba1 : Buf}
    (hB0 : ∀ b ∈ rgba0, b < 256) (hB1 : ∀ b ∈ rgba1, b < 256)
    (hr0 : w * ch.count ≤ rgba0.length) (hr1 : w * ch.count ≤ rgba1.length) {d : Planes3}
    (ly0 : w ≤ d.1.length) (ly1 : w ≤ d.2.1.length) (lu : 2 * ((w - 1) / 2 + 1) ≤ d.2.2.length)
    {cx c : Nat} (hux : c * 2 = cx) (hlt : cx + n < w) :
    f rgba0 rgba1 (cx * ch.count)
        (nvSt2 (valL ch L rgba0) (valL ch L rgba1) (valP2 o ch U V w rgba0 rgba1) d cx) cx
        (c * 2)
      = .ok (nvSt2 (valL ch L rgba0) (valL ch L rgba1) (valP2 o ch U V w rgba0 rgba1) d
          (cx + n)) := by
  have hm := count_mono ch (show cx + n ≤ w by omega)
  have d1 : chromaDone 2 cx = c := by unfold chromaDone; omega
  have d2 : chromaDone 2 (cx + n) = c + n / 2 := by unfold chromaDone; omega
  rw [hf rgba0 rgba1 cx _ cx (c * 2) hB0 hB1 (by omega) (by omega)]
  simp only [nvSt2, d1, d2]
  rw [painted_put1 (fun _ => rfl) (by omega) (fun j _ => rfl), Outcome.bind_ok,
    painted_put1 (fun _ => rfl) (by omega) (fun j _ => rfl), Outcome.bind_ok,
    painted_put2 (fun _ => orderUV_length) (by omega) (fun j hj => by
      rw [list_one_inj (valC2_step hux hn (show cx + n ≤ w by omega) hj hU),
        list_one_inj (valC2_step hux hn (show cx + n ≤ w by omega) hj hV)]), Outcome.bind_ok]
  rfl

theorem stepNvTail420_ok {C : Type} (P : Part C)
    {f : Buf → Buf → Nat → Planes3 → Nat → Nat → Outcome Planes3}
    (hf : StepNv2 o P.n ch L U V f) (hU : Local2 U) (hV : Local2 V) (hn : P.n % 2 = 0)
    (huv : P.n ≤ P.uvBuf) {w : Nat}
    {rgba0 rgba1 : Buf}
    (hB0 : ∀ b ∈ rgba0, b < 256) (hB1 : ∀ b ∈ rgba1, b < 256)
    (hr0 : w * ch.count ≤ rgba0.length) (hr1 : w * ch.count ≤ rgba1.length) {d : Planes3}
    (ly0 : w ≤ d.1.length) (ly1 : w ≤ d.2.1.length) (lu : 2 * ((w - 1) / 2 + 1) ≤ d.2.2.length)
    {cx c : Nat} (hux : c * 2 = cx) (hlt : cx < w) (hle : w ≤ cx + P.n) :
    ∃ ux', P.nvTail420 ch.count w (fun s0 s1 b => f s0 s1 0 b 0 0) rgba0 rgba1
        (nvSt2 (valL ch L rgba0) (valL ch L rgba1) (valP2 o ch U V w rgba0 rgba1) d cx) cx
        (c * 2)
      = .ok (nvSt2 (valL ch L rgba0) (valL ch L rgba1) (valP2 o ch U V w rgba0 rgba1) d w,
          w, ux') := by
  obtain ⟨s0, es0, ls0, sB0, sp0⟩ := tailSrc_ok (n := P.n) (cn := ch.count) (w := w) (count_le ch) hn
    true hB0 hr0 hlt hle
  obtain ⟨s1, es1, ls1, sB1, sp1⟩ := tailSrc_ok (n := P.n) (cn := ch.count) (w := w) (count_le ch) hn
    true hB1 hr1 hlt hle
  have d1 : chromaDone 2 cx = c := by unfold chromaDone; omega
  have d2 : chromaDone 2 w = c + ceil2 (w - cx) := by unfold chromaDone ceil2; omega
  have hct : ceil2 (w - cx) ≤ P.n / 2 := by unfold ceil2; omega
  have hcl : c + ceil2 (w - cx) ≤ (w - 1) / 2 + 1 := by unfold ceil2; omega
  have hb := hf s0 s1 0 (List.replicate P.n 0, List.replicate P.n 0, List.replicate P.uvBuf 0)
    0 0 sB0 sB1 (by rw [ls0, Nat.zero_add]; exact Nat.mul_le_mul_left _ (count_le ch))
    (by rw [ls1, Nat.zero_add]; exact Nat.mul_le_mul_left _ (count_le ch))
  obtain ⟨b0, ey0, cy0⟩ := buf_copyOut (N := P.n) (L := P.n) (cn := 1)
    (f := fun j => [L (rowPx s0 ch.count (0 + j))]) (by omega) (fun _ => rfl)
  obtain ⟨b1, ey1, cy1⟩ := buf_copyOut (N := P.n) (L := P.n) (cn := 1)
    (f := fun j => [L (rowPx s1 ch.count (0 + j))]) (by omega) (fun _ => rfl)
  obtain ⟨bu, eu, cu⟩ := buf_copyOut (N := P.n / 2) (L := P.uvBuf) (cn := 2)
    (f := fun c => orderUV o
      (U (fun x => rowPx s0 ch.count (0 + x)) (fun x => rowPx s1 ch.count (0 + x)) c)
      (V (fun x => rowPx s0 ch.count (0 + x)) (fun x => rowPx s1 ch.count (0 + x)) c))
    (by omega) (fun _ => orderUV_length)
  simp only [Nat.zero_mul, ey0, ey1, eu, Outcome.bind_ok] at hb
  simp only [Nat.mul_one] at cy0 cy1
  unfold Part.nvTail420
  rw [if_pos hlt]
  simp only [if_neg (show ¬ P.n < w - cx by omega), es0, es1, Outcome.bind_ok, hb, Outcome.pure_eq]
  rw [cy0 _ _ _ (by omega), cy1 _ _ _ (by omega), cu _ _ _ hct]
  simp only [nvSt2, d1, d2]
  rw [painted_put1 (fun _ => rfl) (by omega) (fun j hj => by
      rw [Nat.zero_add, sp0 j (.inl hj), extPx_lt (by omega)]), Outcome.bind_ok,
    painted_put1 (fun _ => rfl) (by omega) (fun j hj => by
      rw [Nat.zero_add, sp1 j (.inl hj), extPx_lt (by omega)]), Outcome.bind_ok,
    painted_put2 (fun _ => orderUV_length) (by omega) (fun j hj => by
      rw [list_one_inj (valC2_tail hux hlt sp0 sp1 hj hU),
        list_one_inj (valC2_tail hux hlt sp0 sp1 hj hV)]),
    Outcome.bind_ok]
  refine ⟨c * 2 + ceil2 (w - cx) * 2, ?_⟩
  rw [show cx + (w - cx) = w by omega]

end

/-! ## The steps of a part -/

section
variable {C : Type} {P : Part C} {ch : Channels} {A : Vals} {R : C → (Nat → Buf) → Prop}

theorem Part.step_ok (h : PartOk P ch A R) (s : Sampling) :
    StepOk P.n s ch 256 A.y (rowU A s) (rowV A s) (P.enc s) := by
  intro src x0 o cx ux hb hl
  obtain ⟨c, e, hc⟩ := h.load src x0 hb hl
  have he := h.even
  have hcs : ceil2 P.n = P.n / 2 := by unfold ceil2; omega
  rw [Part.enc, e, Outcome.bind_ok]
  refine bindEq (store_flat (h.luma c _ hc) _) fun y => ?_
  cases s
  · simp only [chromaStep, hcs]
    exact bindEq (store_flat (h.cbPairs c _ hc) _) fun u =>
      bindEq (store_flat (h.crPairs c _ hc) _) fun v => rfl
  · simp only [chromaStep, hcs]
    exact bindEq (store_flat (h.cbPairs c _ hc) _) fun u =>
      bindEq (store_flat (h.crPairs c _ hc) _) fun v => rfl
  · simp only [chromaStep]
    exact bindEq (store_flat (h.cb c _ hc) _) fun u =>
      bindEq (store_flat (h.cr c _ hc) _) fun v => rfl

theorem Part.step2_ok (h : PartOk P ch A R) :
    StepOk2 P.n ch 256 (fun a _ => A.y a) (fun _ b => A.y b) (rowU2 A) (rowV2 A) P.enc420 := by
  intro src0 src1 x0 o cx ux hb0 hb1 hl0 hl1
  obtain ⟨c0, e0, hc0⟩ := h.load src0 x0 hb0 hl0
  obtain ⟨c1, e1, hc1⟩ := h.load src1 x0 hb1 hl1
  rw [Part.enc420, e0, Outcome.bind_ok, e1, Outcome.bind_ok]
  exact bindEq (store_flat (h.luma c0 _ hc0) _) fun y0 => bindEq (store_flat (h.luma c1 _ hc1) _) fun y1 =>
    bindEq (store_flat (h.cbRows c0 _ c1 _ hc0 hc1) _) fun u =>
      bindEq (store_flat (h.crRows c0 _ c1 _ hc0 hc1) _) fun v => rfl

theorem Part.store2 (h : PartOk P ch A R) {o : NVOrder} {cb cr : Reg} {f g : Nat → Nat} {ux : Nat}
    (hf : ∀ i, i < P.n → cb i = f i) (hg : ∀ i, i < P.n → cr i = g i) (l : Buf) :
    (store P.n (P.inter (inOrder o cb cr).1 (inOrder o cb cr).2).1 ux l >>= fun uv =>
      store P.n (P.inter (inOrder o cb cr).1 (inOrder o cb cr).2).2 (ux + P.n) uv)
      = put l ux ((List.range P.n).flatMap fun j => orderUV o (f j) (g j)) := by
  unfold store
  rw [put_put _ _ _ _ _ (by rw [bytes_length]), h.inter2, inOrder_pairs hf hg]

theorem Part.store1 (h : PartOk P ch A R) {o : NVOrder} {cb cr : Reg} {f g : Nat → Nat} {ux : Nat}
    (hf : ∀ i, i < P.n / 2 → cb i = f i) (hg : ∀ i, i < P.n / 2 → cr i = g i) (l : Buf) :
    store P.n (P.inter (inOrder o cb cr).1 (inOrder o cb cr).2).1 ux l
      = put l ux ((List.range (P.n / 2)).flatMap fun j => orderUV o (f j) (g j)) := by
  unfold store
  rw [h.inter1, inOrder_pairs hf hg]

theorem Part.stepNv_ok (h : PartOk P ch A R) (o : NVOrder) (s : Sampling) :
    StepNv o P.n s ch A.y (rowU A s) (rowV A s) (P.encNv o s) := by
  intro src x0 d cx ux hb hl
  obtain ⟨c, e, hc⟩ := h.load src x0 hb hl
  have he := h.even
  have hcs : ceil2 P.n = P.n / 2 := by unfold ceil2; omega
  rw [Part.encNv, e, Outcome.bind_ok]
  refine bindEq (store_flat (h.luma c _ hc) _) fun y => ?_
  cases s
  · simp only [chromaStep, hcs]
    exact bindEq (Part.store1 h (h.cbPairs c _ hc) (h.crPairs c _ hc) _) fun uv => rfl
  · simp only [chromaStep, hcs]
    exact bindEq (Part.store1 h (h.cbPairs c _ hc) (h.crPairs c _ hc) _) fun uv => rfl
  · simp only [chromaStep]
    refine (bind_assoc' _ _ _).symm.trans ?_
    exact bindEq (Part.store2 h (h.cb c _ hc) (h.cr c _ hc) _) fun uv => rfl

theorem Part.stepNv2_ok (h : PartOk P ch A R) (o : NVOrder) :
    StepNv2 o P.n ch A.y (rowU2 A) (rowV2 A) (P.encNv420 o) := by
  intro src0 src1 x0 d cx ux hb0 hb1 hl0 hl1
  obtain ⟨c0, e0, hc0⟩ := h.load src0 x0 hb0 hl0
  obtain ⟨c1, e1, hc1⟩ := h.load src1 x0 hb1 hl1
  rw [Part.encNv420, e0, Outcome.bind_ok, e1, Outcome.bind_ok]
  exact bindEq (store_flat (h.luma c0 _ hc0) _) fun y0 => bindEq (store_flat (h.luma c1 _ hc1) _) fun y1 =>
    bindEq (Part.store1 h (h.cbRows c0 _ c1 _ hc0 hc1) (h.crRows c0 _ c1 _ hc0 hc1) _) fun uv => rfl

/-! ## The rows -/

variable {w : Nat}

theorem chromaDone_all {hd : Nat} (h : 0 < hd) (hw : 0 < w) : chromaDone hd w = (w - 1) / hd + 1 := by
  unfold chromaDone
  rw [show w + (hd - 1) = w - 1 + hd by omega, Nat.add_div_right _ h]

theorem Part.rowEncoder_ok (h : PartOk P ch A R) (s : Sampling) (hw : 0 < w) :
    (P.rowEncoder s ch.count w).Ok 256 ch.count w (hdiv s) (vecRel (valsFun A s)) := by
  intro y u v rgba hB ly lu lv hr
  obtain ⟨ux, e⟩ := valRow_ok (Part.step_ok h s) (rowU_local A s) (rowV_local A s) h.even h.pos
    (by omega) hw hB hr (o := (y, u, v)) ly lu lv
  have hcd := chromaDone_all (hdiv_pos s) hw
  refine ⟨_, _, _, w, (by rw [Part.rowEncoder, Part.encRow, e]; rfl), ?_, ?_, ?_⟩
  · exact painted_done (w := w) (cn := 1) Nat.one_pos (fun _ => rfl) (by omega) (Nat.le_refl _) (.inr rfl)
      fun x hx => rfl
  · refine painted_rel (w := w) (fun _ => rfl) (by dsimp only; omega) fun c hc => ?_
    exact rowU_block (chromaDone_le (hdiv_pos s) hw hc) hw
  · refine painted_rel (w := w) (fun _ => rfl) (by dsimp only; omega) fun c hc => ?_
    exact rowV_block (chromaDone_le (hdiv_pos s) hw hc) hw

theorem Part.rowEncoder420_ok (h : PartOk P ch A R) (hw : 0 < w) :
    (P.rowEncoder420 ch.count w).Ok 256 ch.count w (vecRel (valsFun A .yuv420)) := by
  intro y0 y1 u v rgba0 rgba1 hB0 hB1 ly0 ly1 lu lv hr0 hr1
  obtain ⟨ux, e⟩ := valRow420_ok (Part.step2_ok h) (rowU2_local A) (rowV2_local A) h.even h.pos
    (by omega) hw hB0 hB1 hr0 hr1 (o := (y0, y1, u, v)) ly0 ly1 lu lv
  have hcd := chromaDone_all (show 0 < 2 by omega) hw
  refine ⟨_, _, _, _, w, (by rw [Part.rowEncoder420, Part.encRow420, e]; rfl), ?_, ?_, ?_, ?_⟩
  · exact painted_done (w := w) (cn := 1) Nat.one_pos (fun _ => rfl) (by omega) (Nat.le_refl _) (.inr rfl)
      fun x hx => rfl
  · exact painted_done (w := w) (cn := 1) Nat.one_pos (fun _ => rfl) (by omega) (Nat.le_refl _) (.inr rfl)
      fun x hx => rfl
  · refine painted_rel (w := w) (fun _ => rfl) (by dsimp only; omega) fun c hc => ?_
    exact rowU2_block (by omega) hw
  · refine painted_rel (w := w) (fun _ => rfl) (by dsimp only; omega) fun c hc => ?_
    exact rowV2_block (by omega) hw

theorem Part.rowEncoderNv_ok (h : PartOk P ch A R) (o : NVOrder) (s : Sampling) (hw : 0 < w) :
    (P.rowEncoderNv o s ch.count w).Ok 256 ch.count w (hdiv s) o.uPos o.vPos
      (vecRel (valsFun A s)) := by
  intro y uv rgba hB ly lu hr
  have hst := Part.stepNv_ok h o s
  obtain ⟨cx, c, h1, h2, h3, h4⟩ := nvEncLoop (step := P.n) (ustep := chromaStep s P.n) (hd := hdiv s)
    h.pos (chromaStep_hdiv s h.even)
    (st := nvSt (hdiv s) (valL ch A.y rgba) (valP o ch (rowU A s) (rowV A s) w rgba) (y, uv))
    (body := fun cx ux d => P.encNv o s rgba (cx * ch.count) d cx ux)
    (fun cx ux hux hlt => stepNv_step hst (rowU_local A s) (rowV_local A s) h.even h.pos hB hr ly lu
      hux hlt) hw
  rw [nvSt_zero (hdiv_pos s)] at h1
  obtain ⟨ux', h5⟩ := stepNvTail_ok hst (rowU_local A s) (rowV_local A s) h.even hB hr
    (d := (y, uv)) ly lu h2 h3 h4
  have hcd := chromaDone_all (hdiv_pos s) hw
  refine ⟨_, _, w, (by rw [Part.rowEncoderNv, Part.encRowNv, h1, Outcome.bind_ok, h5]; rfl), ?_, ?_⟩
  · exact painted_done (w := w) (cn := 1) Nat.one_pos (fun _ => rfl) (by omega) (Nat.le_refl _)
      (.inr rfl) fun x hx => rfl
  · refine painted_relN (by omega) (fun _ => orderUV_length) (by dsimp only; omega) fun c hc => ?_
    have hc' := chromaDone_le (hdiv_pos s) hw hc
    simp only [valP, orderUV_u, orderUV_v, vecRel, valsFun]
    exact ⟨rowU_block hc' hw, rowV_block hc' hw⟩

theorem Part.rowEncoderNv420_ok (h : PartOk P ch A R) (o : NVOrder) (hw : 0 < w) :
    (P.rowEncoderNv420 o ch.count w).Ok 256 ch.count w o.uPos o.vPos
      (vecRel (valsFun A .yuv420)) := by
  intro y0 y1 uv rgba0 rgba1 hB0 hB1 ly0 ly1 lu hr0 hr1
  have hst := Part.stepNv2_ok h o
  have he := h.even
  obtain ⟨cx, c, h1, h2, h3, h4⟩ := nvEncLoop (step := P.n) (ustep := P.n / 2) (hd := 2)
    h.pos (by omega)
    (st := nvSt2 (valL ch A.y rgba0) (valL ch A.y rgba1) (valP2 o ch (rowU2 A) (rowV2 A) w rgba0 rgba1)
      (y0, y1, uv))
    (body := fun cx ux d => P.encNv420 o rgba0 rgba1 (cx * ch.count) d cx ux)
    (fun cx ux hux hlt => stepNv2_step hst (rowU2_local A) (rowV2_local A) h.even hB0 hB1 hr0 hr1 ly0
      ly1 lu hux hlt) hw
  rw [nvSt2_zero, show P.n / 2 * 2 = P.n by omega] at h1
  obtain ⟨ux', h5⟩ := stepNvTail420_ok P hst (rowU2_local A) (rowV2_local A) h.even h.uvBuf hB0 hB1 hr0
    hr1 (d := (y0, y1, uv)) ly0 ly1 lu h2 h3 h4
  have hcd := chromaDone_all (show 0 < 2 by omega) hw
  refine ⟨_, _, _, w, (by rw [Part.rowEncoderNv420, Part.encRowNv420, h1, Outcome.bind_ok, h5]; rfl),
    ?_, ?_, ?_⟩
  · exact painted_done (w := w) (cn := 1) Nat.one_pos (fun _ => rfl) (by omega) (Nat.le_refl _)
      (.inr rfl) fun x hx => rfl
  · exact painted_done (w := w) (cn := 1) Nat.one_pos (fun _ => rfl) (by omega) (Nat.le_refl _)
      (.inr rfl) fun x hx => rfl
  · refine painted_relN (by omega) (fun _ => orderUV_length) (by dsimp only; omega) fun c hc => ?_
    simp only [valP2, orderUV_u, orderUV_v, vecRel, valsFun]
    exact ⟨rowU2_block (by omega) hw, rowV2_block (by omega) hw⟩
end

/-! ## Every row is finished -/

section
variable {C : Type} (P : Part C)

theorem Part.nvTail420_cx {cn w : Nat} {f : Buf → Buf → Planes3 → Outcome Planes3}
    {rgba0 rgba1 : Buf} {d : Planes3} {cx ux : Nat} {r : Planes3 × Nat × Nat}
    (h : P.nvTail420 cn w f rgba0 rgba1 d cx ux = .ok r) (hc : cx ≤ w) : r.2.1 = w := by
  unfold Part.nvTail420 at h
  split at h
  · by_cases hn : P.n < w - cx
    · simp only [if_pos hn] at h; cases h
    · simp only [if_neg hn] at h
      obtain ⟨_, _, h⟩ := bind_eq_ok h
      obtain ⟨_, _, h⟩ := bind_eq_ok h
      obtain ⟨_, _, h⟩ := bind_eq_ok h
      obtain ⟨_, _, h⟩ := bind_eq_ok h
      obtain ⟨_, _, h⟩ := bind_eq_ok h
      obtain ⟨_, _, h⟩ := bind_eq_ok h
      cases h
      show cx + (w - cx) = w
      omega
  · cases h
    show cx = w
    omega

theorem Part.rowEncoder_finishes (s : Sampling) (cn w : Nat) : Finishes (P.rowEncoder s cn w) w := by
  intro y u v rgba r h
  obtain ⟨q, hq, e⟩ := bind_eq_ok h
  cases e
  obtain ⟨q1, h1, h⟩ := bind_eq_ok hq
  exact encTail_cx h (vwhile_le h1 (Nat.zero_le _))
theorem Part.rowEncoder420_finishes (cn w : Nat) : Finishes2 (P.rowEncoder420 cn w) w := by
  intro y0 y1 u v rgba0 rgba1 r h
  obtain ⟨q, hq, e⟩ := bind_eq_ok h
  cases e
  obtain ⟨q1, h1, h⟩ := bind_eq_ok hq
  exact encTail420_cx h (vwhile_le h1 (Nat.zero_le _))
theorem Part.rowEncoderNv_finishes (o : NVOrder) (s : Sampling) (cn w : Nat) :
    FinishesNv (P.rowEncoderNv o s cn w) w := by
  intro y uv rgba r h
  obtain ⟨q, hq, e⟩ := bind_eq_ok h
  cases e
  obtain ⟨q1, h1, h⟩ := bind_eq_ok hq
  exact nvEncTail_cx h (vwhile_le h1 (Nat.zero_le _))
theorem Part.rowEncoderNv420_finishes (o : NVOrder) (cn w : Nat) :
    FinishesNv2 (P.rowEncoderNv420 o cn w) w := by
  intro y0 y1 uv rgba0 rgba1 r h
  obtain ⟨q, hq, e⟩ := bind_eq_ok h
  cases e
  obtain ⟨q1, h1, h⟩ := bind_eq_ok hq
  exact P.nvTail420_cx h (vwhile_le h1 (Nat.zero_le _))
end

end Verif.X86
