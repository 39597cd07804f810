import Verif.Lemmas.X86EncPlanar
import Verif.Model.X86DeepEncode
/-!
# Row encoders with any values

The steps, tails and rows of `Lemmas/X86EncBodies.lean` and `Lemmas/X86EncPlanar.lean` for a step that
stores the values `L`, `U`, `V` of its pixels, whatever these are.
-/
namespace Verif.X86
open Spec

/-- A chroma value depends on the pixels of its block only. -/
def Local1 (s : Sampling) (U : (Nat → Buf) → Nat → Nat) : Prop :=
  ∀ p q c d, (∀ i, i < hdiv s → p (hdiv s * c + i) = q (hdiv s * d + i)) → U p c = U q d
/-- The same for two rows. -/
def Local2 (U : (Nat → Buf) → (Nat → Buf) → Nat → Nat) : Prop :=
  ∀ p q p' q' c d, (∀ i, i < 2 → p (2 * c + i) = p' (2 * d + i)) →
    (∀ i, i < 2 → q (2 * c + i) = q' (2 * d + i)) → U p q c = U p' q' d

/-- A step of `n` pixels stores `L`, `U` and `V` of its pixels. -/
def StepOk (n : Nat) (s : Sampling) (ch : Channels) (B : Nat) (L : Buf → Nat)
    (U V : (Nat → Buf) → Nat → Nat) (f : Buf → Nat → Planes → Nat → Nat → Outcome Planes) : Prop :=
  ∀ (src : Buf) (x0 : Nat) (o : Planes) (cx ux : Nat), (∀ b ∈ src, b < B) →
    (x0 + n) * ch.count ≤ src.length →
    f src (x0 * ch.count) o cx ux = (do
      let y ← put o.1 cx ((List.range n).flatMap fun j => [L (rowPx src ch.count (x0 + j))])
      let u ← put o.2.1 ux ((List.range (chromaStep s n)).flatMap fun c =>
        [U (fun x => rowPx src ch.count (x0 + x)) c])
      let v ← put o.2.2 ux ((List.range (chromaStep s n)).flatMap fun c =>
        [V (fun x => rowPx src ch.count (x0 + x)) c])
      return (y, u, v))

/-- A step of `n` pixels of two rows; luma of either row may depend on both. -/
def StepOk2 (n : Nat) (ch : Channels) (B : Nat) (L0 L1 : Buf → Buf → Nat)
    (U V : (Nat → Buf) → (Nat → Buf) → Nat → Nat)
    (f : Buf → Buf → Nat → Planes4 → Nat → Nat → Outcome Planes4) : Prop :=
  ∀ (src0 src1 : Buf) (x0 : Nat) (o : Planes4) (cx ux : Nat), (∀ b ∈ src0, b < B) →
    (∀ b ∈ src1, b < B) → (x0 + n) * ch.count ≤ src0.length → (x0 + n) * ch.count ≤ src1.length →
    f src0 src1 (x0 * ch.count) o cx ux = (do
      let y0 ← put o.1 cx ((List.range n).flatMap fun j =>
        [L0 (rowPx src0 ch.count (x0 + j)) (rowPx src1 ch.count (x0 + j))])
      let y1 ← put o.2.1 cx ((List.range n).flatMap fun j =>
        [L1 (rowPx src0 ch.count (x0 + j)) (rowPx src1 ch.count (x0 + j))])
      let u ← put o.2.2.1 ux ((List.range (n / 2)).flatMap fun c =>
        [U (fun x => rowPx src0 ch.count (x0 + x)) (fun x => rowPx src1 ch.count (x0 + x)) c])
      let v ← put o.2.2.2 ux ((List.range (n / 2)).flatMap fun c =>
        [V (fun x => rowPx src0 ch.count (x0 + x)) (fun x => rowPx src1 ch.count (x0 + x)) c])
      return (y0, y1, u, v))

/-- Luma samples of a row. -/
abbrev valL (ch : Channels) (L : Buf → Nat) (rgba : Buf) (x : Nat) : Buf := [L (rowPx rgba ch.count x)]
/-- Chroma samples of a row. -/
abbrev valC (ch : Channels) (U : (Nat → Buf) → Nat → Nat) (w : Nat) (rgba : Buf) (c : Nat) : Buf :=
  [U (extPx w ch.count rgba) c]
/-- Luma samples of one of two rows. -/
abbrev valL2 (ch : Channels) (L : Buf → Buf → Nat) (rgba0 rgba1 : Buf) (x : Nat) : Buf :=
  [L (rowPx rgba0 ch.count x) (rowPx rgba1 ch.count x)]
/-- Chroma samples of two rows. -/
abbrev valC2 (ch : Channels) (U : (Nat → Buf) → (Nat → Buf) → Nat → Nat) (w : Nat)
    (rgba0 rgba1 : Buf) (c : Nat) : Buf := [U (extPx w ch.count rgba0) (extPx w ch.count rgba1) c]

variable {n : Nat} {s : Sampling} {ch : Channels} {B : Nat} {L : Buf → Nat}
  {U V : (Nat → Buf) → Nat → Nat}

theorem valC_step {rgba : Buf} {w cx ux : Nat} (hux : ux * hdiv s = cx) (hn : n % 2 = 0)
    (hlt : cx + n ≤ w) {c : Nat} (hc : c < chromaStep s n) {U : (Nat → Buf) → Nat → Nat} (hU : Local1 s U) :
    [U (fun x => rowPx rgba ch.count (cx + x)) c] = valC ch U w rgba (ux + c) := by
  have h2 := chromaStep_hdiv s hn
  refine congrArg (fun v => [v]) (hU _ _ _ _ fun i hi => ?_)
  have h3 : (c + 1) * hdiv s ≤ chromaStep s n * hdiv s := Nat.mul_le_mul_right _ hc
  have e1 : hdiv s * (ux + c) + i = cx + (hdiv s * c + i) := by rw [← hux]; ring
  have e2 : (c + 1) * hdiv s = hdiv s * c + hdiv s := by ring
  rw [e1, extPx_lt (by omega)]

/-- One step of the loop. -/
theorem val_step {f : Buf → Nat → Planes → Nat → Nat → Outcome Planes}
    (hf : StepOk n s ch B L U V f) (hU : Local1 s U) (hV : Local1 s V) (hn : n % 2 = 0) (h0 : 0 < n) {w : Nat} {rgba : Buf}
    (hB : ∀ b ∈ rgba, b < B) (hr : w * ch.count ≤ rgba.length) {o : Planes} (ly : w ≤ o.1.length)
    (lu : (w - 1) / hdiv s + 1 ≤ o.2.1.length) (lv : (w - 1) / hdiv s + 1 ≤ o.2.2.length)
    {cx ux : Nat} (hux : ux * hdiv s = cx) (hlt : cx + n < w) :
    f rgba (cx * ch.count)
        (encSt (hdiv s) (valL ch L rgba) (valC ch U w rgba) (valC ch V w rgba) o cx) cx ux
      = .ok (encSt (hdiv s) (valL ch L rgba) (valC ch U w rgba) (valC ch V w rgba) o
          (cx + n)) := by
  have hm := count_mono ch (show cx + n ≤ w by omega)
  have d1 : chromaDone (hdiv s) cx = ux := by rw [← hux]; exact chromaDone_mul (hdiv_pos s)
  have d2 : chromaDone (hdiv s) (cx + n) = ux + chromaStep s n := by
    rw [← hux]; exact chromaDone_step hn
  rw [hf rgba cx _ cx ux hB (by omega)]
  simp only [encSt, d1, d2]
  rw [painted_put1 (fun _ => rfl) (by omega) (fun j _ => rfl), Outcome.bind_ok,
    painted_put1 (fun _ => rfl) (chroma_room hux hn (by omega) lu h0)
      (fun j hj => valC_step hux hn (by omega) hj hU), Outcome.bind_ok,
    painted_put1 (fun _ => rfl) (chroma_room hux hn (by omega) lv h0)
      (fun j hj => valC_step hux hn (by omega) hj hV), Outcome.bind_ok]
  rfl

theorem valC_tail {sb rgba : Buf} {w cx ux : Nat} (hux : ux * hdiv s = cx) (hlt : cx < w)
    (hp : ∀ j, (j < w - cx ∨ (s != .yuv444) = true ∧ j = w - cx ∧ (w - cx) % 2 = 1) →
        rowPx sb ch.count j = extPx w ch.count rgba (cx + j)) {c : Nat}
    (hc : c < chromaStep s (w - cx)) {U : (Nat → Buf) → Nat → Nat} (hU : Local1 s U) :
    [U (fun x => rowPx sb ch.count (0 + x)) c] = valC ch U w rgba (ux + c) := by
  refine congrArg (fun v => [v]) (hU _ _ _ _ fun i hi => ?_)
  have e1 : hdiv s * (ux + c) + i = cx + (hdiv s * c + i) := by rw [← hux]; ring
  rw [e1, ← hp, Nat.zero_add]
  cases s <;> simp only [hdiv, chromaStep, ceil2] at * <;> first | omega | (simp; omega)

/-- The last pixels of a row. -/
theorem valTail_ok (hB0 : 0 < B) {f : Buf → Nat → Planes → Nat → Nat → Outcome Planes}
    (hf : StepOk n s ch B L U V f) (hU : Local1 s U) (hV : Local1 s V) (hn : n % 2 = 0) {w : Nat} {rgba : Buf}
    (hB : ∀ b ∈ rgba, b < B) (hr : w * ch.count ≤ rgba.length) {o : Planes} (ly : w ≤ o.1.length)
    (lu : (w - 1) / hdiv s + 1 ≤ o.2.1.length) (lv : (w - 1) / hdiv s + 1 ≤ o.2.2.length)
    {cx ux : Nat} (hux : ux * hdiv s = cx) (hlt : cx < w) (hle : w ≤ cx + n) :
    ∃ ux', encTail n s ch.count w (fun sb b => f sb 0 b 0 0) rgba
        (encSt (hdiv s) (valL ch L rgba) (valC ch U w rgba) (valC ch V w rgba) o cx) cx ux
      = .ok (encSt (hdiv s) (valL ch L rgba) (valC ch U w rgba) (valC ch V w rgba) o w,
          w, ux') := by
  obtain ⟨sb, es, ls, sB, sp⟩ := tailSrc_bnd hB0 (n := n) (cn := ch.count) (w := w) (count_le ch) hn
    (s != .yuv444) hB hr hlt hle
  have d1 : chromaDone (hdiv s) cx = ux := by rw [← hux]; exact chromaDone_mul (hdiv_pos s)
  have d2 : chromaDone (hdiv s) w = ux + chromaStep s (w - cx) := by
    rw [← hux]; exact chromaDone_tail (by omega)
  have hcs : chromaStep s n ≤ n := by cases s <;> simp only [chromaStep, ceil2] <;> omega
  have hct : chromaStep s (w - cx) ≤ chromaStep s n := by
    cases s <;> simp only [chromaStep, ceil2] <;> omega
  have hb := hf sb 0 (List.replicate n 0, List.replicate n 0, List.replicate n 0) 0 0 sB
    (by rw [ls, Nat.zero_add]; exact Nat.mul_le_mul_left _ (count_le ch))
  obtain ⟨by', ey, cy⟩ := buf_copyOut (N := n) (L := n) (cn := 1)
    (f := fun j => [L (rowPx sb ch.count (0 + j))]) (by omega) (fun _ => rfl)
  obtain ⟨bu, eu, cu⟩ := buf_copyOut (N := chromaStep s n) (L := n) (cn := 1)
    (f := fun c => [U (fun x => rowPx sb ch.count (0 + x)) c]) (by omega) (fun _ => rfl)
  obtain ⟨bv, ev, cv⟩ := buf_copyOut (N := chromaStep s n) (L := n) (cn := 1)
    (f := fun c => [V (fun x => rowPx sb ch.count (0 + x)) c]) (by omega) (fun _ => rfl)
  simp only [Nat.zero_mul, ey, eu, ev, Outcome.bind_ok] at hb
  simp only [Nat.mul_one] at cy cu cv
  unfold encTail
  rw [if_pos hlt]
  simp only [if_neg (show ¬ n < w - cx by omega), es, Outcome.bind_ok, hb, Outcome.pure_eq]
  rw [cy _ _ _ (by omega), cu _ _ _ hct, cv _ _ _ hct]
  simp only [encSt, d1, d2]
  rw [painted_put1 (fun _ => rfl) (by omega) (fun j hj => by
      rw [Nat.zero_add, sp j (.inl hj), extPx_lt (by omega)]), Outcome.bind_ok,
    painted_put1 (fun _ => rfl) (by rw [← hux] at *; exact chroma_tail rfl hlt lu)
      (fun j hj => valC_tail hux hlt sp hj hU), Outcome.bind_ok,
    painted_put1 (fun _ => rfl) (by rw [← hux] at *; exact chroma_tail rfl hlt lv)
      (fun j hj => valC_tail hux hlt sp hj hV), Outcome.bind_ok]
  refine ⟨ux + chromaStep s (w - cx), ?_⟩
  rw [show cx + (w - cx) = w by omega]

/-! ## Two rows -/

variable {L0 L1 : Buf → Buf → Nat} {U V : (Nat → Buf) → (Nat → Buf) → Nat → Nat}

theorem valC2_step {rgba0 rgba1 : Buf} {w cx ux : Nat} (hux : ux * 2 = cx) (hn : n % 2 = 0)
    (hlt : cx + n ≤ w) {c : Nat} (hc : c < n / 2) {U : (Nat → Buf) → (Nat → Buf) → Nat → Nat} (hU : Local2 U) :
    [U (fun x => rowPx rgba0 ch.count (cx + x)) (fun x => rowPx rgba1 ch.count (cx + x)) c]
      = valC2 ch U w rgba0 rgba1 (ux + c) := by
  have e1 : ∀ i, 2 * (ux + c) + i = cx + (2 * c + i) := fun i => by omega
  refine congrArg (fun v => [v]) (hU _ _ _ _ _ _ ?_ ?_)
  · intro i hi
    rw [e1, extPx_lt (by omega)]
  · intro i hi
    rw [e1, extPx_lt (by omega)]

theorem valC2_tail {sb0 sb1 rgba0 rgba1 : Buf} {w cx ux : Nat} (hux : ux * 2 = cx) (hlt : cx < w)
    (hp0 : ∀ j, (j < w - cx ∨ true = true ∧ j = w - cx ∧ (w - cx) % 2 = 1) →
        rowPx sb0 ch.count j = extPx w ch.count rgba0 (cx + j))
    (hp1 : ∀ j, (j < w - cx ∨ true = true ∧ j = w - cx ∧ (w - cx) % 2 = 1) →
        rowPx sb1 ch.count j = extPx w ch.count rgba1 (cx + j)) {c : Nat}
    (hc : c < ceil2 (w - cx)) {U : (Nat → Buf) → (Nat → Buf) → Nat → Nat} (hU : Local2 U) :
    [U (fun x => rowPx sb0 ch.count (0 + x)) (fun x => rowPx sb1 ch.count (0 + x)) c]
      = valC2 ch U w rgba0 rgba1 (ux + c) := by
  unfold ceil2 at hc
  have e1 : ∀ i, 2 * (ux + c) + i = cx + (2 * c + i) := fun i => by omega
  refine congrArg (fun v => [v]) (hU _ _ _ _ _ _ ?_ ?_)
  · intro i hi
    rw [e1, ← hp0 _ (by simp; omega), Nat.zero_add]
  · intro i hi
    rw [e1, ← hp1 _ (by simp; omega), Nat.zero_add]

/-- One step of the loop over two rows. -/
theorem val2_step {f : Buf → Buf → Nat → Planes4 → Nat → Nat → Outcome Planes4}
    (hf : StepOk2 n ch B L0 L1 U V f) (hU : Local2 U) (hV : Local2 V) (hn : n % 2 = 0) {w : Nat} {rgba0 rgba1 : Buf}
    (hB0 : ∀ b ∈ rgba0, b < B) (hB1 : ∀ b ∈ rgba1, b < B)
    (hr0 : w * ch.count ≤ rgba0.length) (hr1 : w * ch.count ≤ rgba1.length) {o : Planes4}
    (ly0 : w ≤ o.1.length) (ly1 : w ≤ o.2.1.length)
    (lu : (w - 1) / 2 + 1 ≤ o.2.2.1.length) (lv : (w - 1) / 2 + 1 ≤ o.2.2.2.length)
    {cx ux : Nat} (hux : ux * 2 = cx) (hlt : cx + n < w) :
    f rgba0 rgba1 (cx * ch.count)
        (encSt2 (valL2 ch L0 rgba0 rgba1) (valL2 ch L1 rgba0 rgba1) (valC2 ch U w rgba0 rgba1)
          (valC2 ch V w rgba0 rgba1) o cx) cx ux
      = .ok (encSt2 (valL2 ch L0 rgba0 rgba1) (valL2 ch L1 rgba0 rgba1) (valC2 ch U w rgba0 rgba1)
          (valC2 ch V w rgba0 rgba1) o (cx + n)) := by
  have hm := count_mono ch (show cx + n ≤ w by omega)
  have d1 : chromaDone 2 cx = ux := by unfold chromaDone; omega
  have d2 : chromaDone 2 (cx + n) = ux + n / 2 := by unfold chromaDone; omega
  rw [hf rgba0 rgba1 cx _ cx ux hB0 hB1 (by omega) (by omega)]
  simp only [encSt2, d1, d2]
  rw [painted_put1 (fun _ => rfl) (by omega) (fun j _ => rfl), Outcome.bind_ok,
    painted_put1 (fun _ => rfl) (by omega) (fun j _ => rfl), Outcome.bind_ok,
    painted_put1 (fun _ => rfl) (by omega) (fun j hj => valC2_step hux hn (by omega) hj hU),
    Outcome.bind_ok,
    painted_put1 (fun _ => rfl) (by omega) (fun j hj => valC2_step hux hn (by omega) hj hV),
    Outcome.bind_ok]
  rfl

/-- The last pixels of two rows. -/
theorem valTail420_ok (hB : 0 < B) {f : Buf → Buf → Nat → Planes4 → Nat → Nat → Outcome Planes4}
    (hf : StepOk2 n ch B L0 L1 U V f) (hU : Local2 U) (hV : Local2 V) (hn : n % 2 = 0) {w : Nat} {rgba0 rgba1 : Buf}
    (hB0 : ∀ b ∈ rgba0, b < B) (hB1 : ∀ b ∈ rgba1, b < B)
    (hr0 : w * ch.count ≤ rgba0.length) (hr1 : w * ch.count ≤ rgba1.length) {o : Planes4}
    (ly0 : w ≤ o.1.length) (ly1 : w ≤ o.2.1.length)
    (lu : (w - 1) / 2 + 1 ≤ o.2.2.1.length) (lv : (w - 1) / 2 + 1 ≤ o.2.2.2.length)
    {cx ux : Nat} (hux : ux * 2 = cx) (hlt : cx < w) (hle : w ≤ cx + n) :
    ∃ ux', encTail420 n ch.count w (fun s0 s1 b => f s0 s1 0 b 0 0) rgba0 rgba1
        (encSt2 (valL2 ch L0 rgba0 rgba1) (valL2 ch L1 rgba0 rgba1) (valC2 ch U w rgba0 rgba1)
          (valC2 ch V w rgba0 rgba1) o cx) cx ux
      = .ok (encSt2 (valL2 ch L0 rgba0 rgba1) (valL2 ch L1 rgba0 rgba1) (valC2 ch U w rgba0 rgba1)
          (valC2 ch V w rgba0 rgba1) o w, w, ux') := by
  obtain ⟨s0, es0, ls0, sB0, sp0⟩ := tailSrc_bnd hB (n := n) (cn := ch.count) (w := w) (count_le ch) hn
    true hB0 hr0 hlt hle
  obtain ⟨s1, es1, ls1, sB1, sp1⟩ := tailSrc_bnd hB (n := n) (cn := ch.count) (w := w) (count_le ch) hn
    true hB1 hr1 hlt hle
  have d1 : chromaDone 2 cx = ux := by unfold chromaDone; omega
  have d2 : chromaDone 2 w = ux + ceil2 (w - cx) := by unfold chromaDone ceil2; omega
  have hct : ceil2 (w - cx) ≤ n / 2 := by unfold ceil2; omega
  have hcl : ux + ceil2 (w - cx) ≤ (w - 1) / 2 + 1 := by unfold ceil2; omega
  have hb := hf s0 s1 0 (List.replicate n 0, List.replicate n 0, List.replicate n 0, List.replicate n 0)
    0 0 sB0 sB1 (by rw [ls0, Nat.zero_add]; exact Nat.mul_le_mul_left _ (count_le ch))
    (by rw [ls1, Nat.zero_add]; exact Nat.mul_le_mul_left _ (count_le ch))
  obtain ⟨b0, ey0, cy0⟩ := buf_copyOut (N := n) (L := n) (cn := 1)
    (f := fun j => [L0 (rowPx s0 ch.count (0 + j)) (rowPx s1 ch.count (0 + j))]) (by omega) (fun _ => rfl)
  obtain ⟨b1, ey1, cy1⟩ := buf_copyOut (N := n) (L := n) (cn := 1)
    (f := fun j => [L1 (rowPx s0 ch.count (0 + j)) (rowPx s1 ch.count (0 + j))]) (by omega) (fun _ => rfl)
  obtain ⟨bu, eu, cu⟩ := buf_copyOut (N := n / 2) (L := n) (cn := 1)
    (f := fun c => [U (fun x => rowPx s0 ch.count (0 + x))
      (fun x => rowPx s1 ch.count (0 + x)) c]) (by omega) (fun _ => rfl)
  obtain ⟨bv, ev, cv⟩ := buf_copyOut (N := n / 2) (L := n) (cn := 1)
    (f := fun c => [V (fun x => rowPx s0 ch.count (0 + x))
      (fun x => rowPx s1 ch.count (0 + x)) c]) (by omega) (fun _ => rfl)
  simp only [Nat.zero_mul, ey0, ey1, eu, ev, Outcome.bind_ok] at hb
  simp only [Nat.mul_one] at cy0 cy1 cu cv
  unfold encTail420
  rw [if_pos hlt]
  simp only [if_neg (show ¬ n < w - cx by omega), es0, es1, Outcome.bind_ok, hb, Outcome.pure_eq]
  rw [cy0 _ _ _ (by omega), cy1 _ _ _ (by omega), cu _ _ _ hct, cv _ _ _ hct]
  simp only [encSt2, d1, d2]
  rw [painted_put1 (fun _ => rfl) (by omega) (fun j hj => by
      rw [Nat.zero_add, sp0 j (.inl hj), sp1 j (.inl hj), extPx_lt (by omega), extPx_lt (by omega)]), Outcome.bind_ok,
    painted_put1 (fun _ => rfl) (by omega) (fun j hj => by
      rw [Nat.zero_add, sp0 j (.inl hj), sp1 j (.inl hj), extPx_lt (by omega), extPx_lt (by omega)]), Outcome.bind_ok,
    painted_put1 (fun _ => rfl) (by omega)
      (fun j hj => valC2_tail hux hlt sp0 sp1 hj hU), Outcome.bind_ok,
    painted_put1 (fun _ => rfl) (by omega)
      (fun j hj => valC2_tail hux hlt sp0 sp1 hj hV), Outcome.bind_ok]
  refine ⟨ux + ceil2 (w - cx), ?_⟩
  rw [show cx + (w - cx) = w by omega]

/-! ## The rows -/

/-- A row encoder made of such a step. -/
theorem valRow_ok {U V : (Nat → Buf) → Nat → Nat}
    {f : Buf → Nat → Planes → Nat → Nat → Outcome Planes} (hf : StepOk n s ch B L U V f)
    (hU : Local1 s U) (hV : Local1 s V) (hn : n % 2 = 0) (h0 : 0 < n) (hB0 : 0 < B) {w : Nat}
    (hw : 0 < w) {rgba : Buf} (hB : ∀ b ∈ rgba, b < B) (hr : w * ch.count ≤ rgba.length) {o : Planes}
    (ly : w ≤ o.1.length) (lu : (w - 1) / hdiv s + 1 ≤ o.2.1.length)
    (lv : (w - 1) / hdiv s + 1 ≤ o.2.2.length) :
    ∃ ux, (do
      let r ← vwhile n (chromaStep s n) w (fun cx ux o => f rgba (cx * ch.count) o cx ux) 0 0 o
      encTail n s ch.count w (fun sb b => f sb 0 b 0 0) rgba r.1 r.2.1 r.2.2)
      = .ok (encSt (hdiv s) (valL ch L rgba) (valC ch U w rgba) (valC ch V w rgba) o w, w, ux) := by
  obtain ⟨cx, ux, h1, h2, h3, h4⟩ := encLoop (step := n) (ustep := chromaStep s n) (hd := hdiv s)
    h0 (chromaStep_hdiv s hn)
    (st := encSt (hdiv s) (valL ch L rgba) (valC ch U w rgba) (valC ch V w rgba) o)
    (body := fun cx ux o => f rgba (cx * ch.count) o cx ux) (cx0 := 0) (ux0 := 0) (Nat.zero_mul _)
    (fun cx ux hux hlt => val_step hf hU hV hn h0 hB hr ly lu lv hux hlt) hw
  rw [encSt_zero (hdiv_pos s)] at h1
  obtain ⟨ux', h5⟩ := valTail_ok hB0 hf hU hV hn hB hr ly lu lv h2 h3 h4
  refine ⟨ux', ?_⟩
  rw [h1, Outcome.bind_ok]
  exact h5

/-- A two-row encoder made of such a step. -/
theorem valRow420_ok {f : Buf → Buf → Nat → Planes4 → Nat → Nat → Outcome Planes4}
    (hf : StepOk2 n ch B L0 L1 U V f) (hU : Local2 U) (hV : Local2 V) (hn : n % 2 = 0) (h0 : 0 < n)
    (hB : 0 < B) {w : Nat} (hw : 0 < w) {rgba0 rgba1 : Buf} (hB0 : ∀ b ∈ rgba0, b < B)
    (hB1 : ∀ b ∈ rgba1, b < B) (hr0 : w * ch.count ≤ rgba0.length) (hr1 : w * ch.count ≤ rgba1.length)
    {o : Planes4} (ly0 : w ≤ o.1.length) (ly1 : w ≤ o.2.1.length)
    (lu : (w - 1) / 2 + 1 ≤ o.2.2.1.length) (lv : (w - 1) / 2 + 1 ≤ o.2.2.2.length) :
    ∃ ux, (do
      let r ← vwhile n (n / 2) w (fun cx ux o => f rgba0 rgba1 (cx * ch.count) o cx ux) 0 0 o
      encTail420 n ch.count w (fun s0 s1 b => f s0 s1 0 b 0 0) rgba0 rgba1 r.1 r.2.1 r.2.2)
      = .ok (encSt2 (valL2 ch L0 rgba0 rgba1) (valL2 ch L1 rgba0 rgba1) (valC2 ch U w rgba0 rgba1)
          (valC2 ch V w rgba0 rgba1) o w, w, ux) := by
  obtain ⟨cx, ux, h1, h2, h3, h4⟩ := encLoop (step := n) (ustep := n / 2) (hd := 2) h0 (by omega)
    (st := encSt2 (valL2 ch L0 rgba0 rgba1) (valL2 ch L1 rgba0 rgba1) (valC2 ch U w rgba0 rgba1)
      (valC2 ch V w rgba0 rgba1) o)
    (body := fun cx ux o => f rgba0 rgba1 (cx * ch.count) o cx ux) (cx0 := 0) (ux0 := 0) rfl
    (fun cx ux hux hlt => val2_step hf hU hV hn hB0 hB1 hr0 hr1 ly0 ly1 lu lv hux hlt) hw
  rw [encSt2_zero] at h1
  obtain ⟨ux', h5⟩ := valTail420_ok hB hf hU hV hn hB0 hB1 hr0 hr1 ly0 ly1 lu lv h2 h3 h4
  refine ⟨ux', ?_⟩
  rw [h1, Outcome.bind_ok]
  exact h5

end Verif.X86
