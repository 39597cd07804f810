import Verif.Lemmas.X86EncBodies
/-! # The planar x86 row encoders write the whole row -/
namespace Verif.X86
open Spec

/-- Three planes after the first `cx` pixels of a row. -/
def encSt (hd : Nat) (L U V : Nat → Buf) (o : Planes) (cx : Nat) : Planes :=
  (painted 1 L cx o.1, painted 1 U (chromaDone hd cx) o.2.1, painted 1 V (chromaDone hd cx) o.2.2)

/-- Four planes after the first `cx` pixels of two rows. -/
def encSt2 (L0 L1 U V : Nat → Buf) (o : Planes4) (cx : Nat) : Planes4 :=
  (painted 1 L0 cx o.1, painted 1 L1 cx o.2.1, painted 1 U (chromaDone 2 cx) o.2.2.1,
    painted 1 V (chromaDone 2 cx) o.2.2.2)

theorem encSt_zero {hd : Nat} (h : 0 < hd) (L U V : Nat → Buf) (o : Planes) :
    encSt hd L U V o 0 = o := by
  have e : chromaDone hd 0 = 0 := by
    unfold chromaDone; exact Nat.div_eq_of_lt (by omega)
  simp only [encSt, e, painted_zero]

theorem encSt2_zero (L0 L1 U V : Nat → Buf) (o : Planes4) : encSt2 L0 L1 U V o 0 = o := by
  have e : chromaDone 2 0 = 0 := rfl
  simp only [encSt2, e, painted_zero]

theorem chromaDone_mul {hd ux : Nat} (h : 0 < hd) : chromaDone hd (ux * hd) = ux := by
  unfold chromaDone
  rw [Nat.add_comm, Nat.add_mul_div_right _ _ h, Nat.div_eq_of_lt (by omega), Nat.zero_add]

theorem chromaDone_step {s : Sampling} {ux n : Nat} (h : n % 2 = 0) :
    chromaDone (hdiv s) (ux * hdiv s + n) = ux + chromaStep s n := by
  cases s <;> simp only [chromaDone, hdiv, chromaStep, ceil2] <;> omega

theorem chromaDone_tail {s : Sampling} {ux w : Nat} (h : ux * hdiv s < w) :
    chromaDone (hdiv s) w = ux + chromaStep s (w - ux * hdiv s) := by
  cases s <;> simp only [chromaDone, hdiv, chromaStep, ceil2] at * <;> omega

variable {n : Nat} {s : Sampling} {ch : Channels} {bl bc : Int} {kl ku kv : Int × Int × Int}

/-- Luma samples of a row. -/
abbrev rowL (ch : Channels) (bl : Int) (kl : Int × Int × Int) (rgba : Buf) (x : Nat) : Buf :=
  [lumaVec ch bl kl (rowPx rgba ch.count x)]
/-- Chroma samples of a row. -/
abbrev rowC (s : Sampling) (ch : Channels) (bc : Int) (k : Int × Int × Int) (w : Nat) (rgba : Buf)
    (c : Nat) : Buf := [chroma1 s ch bc k (extPx w ch.count rgba) c]
/-- Chroma samples of two rows. -/
abbrev rowC2 (ch : Channels) (bc : Int) (k : Int × Int × Int) (w : Nat) (rgba0 rgba1 : Buf)
    (c : Nat) : Buf := [chroma2 ch bc k (extPx w ch.count rgba0) (extPx w ch.count rgba1) c]

theorem count_mono {a b : Nat} (ch : Channels) (h : a ≤ b) : a * ch.count ≤ b * ch.count :=
  Nat.mul_le_mul_right _ h

theorem rowC_step {rgba : Buf} {w cx ux : Nat} (hux : ux * hdiv s = cx) (hn : n % 2 = 0)
    (hlt : cx + n ≤ w) {c : Nat} (hc : c < chromaStep s n) (k : Int × Int × Int) :
    [chroma1 s ch bc k (fun x => rowPx rgba ch.count (cx + x)) c] = rowC s ch bc k w rgba (ux + c) := by
  have h2 := chromaStep_hdiv s hn
  rw [rowC, chroma1_congr (q := extPx w ch.count rgba) (d := ux + c)]
  intro i hi
  have h3 : (c + 1) * hdiv s ≤ chromaStep s n * hdiv s := Nat.mul_le_mul_right _ hc
  have e1 : hdiv s * (ux + c) + i = cx + (hdiv s * c + i) := by rw [← hux]; ring
  have e2 : (c + 1) * hdiv s = hdiv s * c + hdiv s := by ring
  rw [e1, extPx_lt (by omega)]

/-- One step of the loop. -/
theorem body_step {f : Buf → Nat → Planes → Nat → Nat → Outcome Planes}
    (hf : BodyOk n s ch bl bc kl ku kv f) (hn : n % 2 = 0) (h0 : 0 < n) {w : Nat} {rgba : Buf}
    (hB : ∀ b ∈ rgba, b < 256) (hr : w * ch.count ≤ rgba.length) {o : Planes} (ly : w ≤ o.1.length)
    (lu : (w - 1) / hdiv s + 1 ≤ o.2.1.length) (lv : (w - 1) / hdiv s + 1 ≤ o.2.2.length)
    {cx ux : Nat} (hux : ux * hdiv s = cx) (hlt : cx + n < w) :
    f rgba (cx * ch.count)
        (encSt (hdiv s) (rowL ch bl kl rgba) (rowC s ch bc ku w rgba) (rowC s ch bc kv w rgba) o cx) cx ux
      = .ok (encSt (hdiv s) (rowL ch bl kl rgba) (rowC s ch bc ku w rgba) (rowC s ch bc kv w rgba) o
          (cx + n)) := by
  have hm := count_mono ch (show cx + n ≤ w by omega)
  have d1 : chromaDone (hdiv s) cx = ux := by rw [← hux]; exact chromaDone_mul (hdiv_pos s)
  have d2 : chromaDone (hdiv s) (cx + n) = ux + chromaStep s n := by
    rw [← hux]; exact chromaDone_step hn
  rw [hf rgba cx _ cx ux hB (by omega)]
  simp only [encSt, d1, d2]
  rw [painted_put1 (fun _ => rfl) (by omega) (fun j _ => rfl), Outcome.bind_ok,
    painted_put1 (fun _ => rfl) (chroma_room hux hn (by omega) lu h0)
      (fun j hj => rowC_step hux hn (by omega) hj ku), Outcome.bind_ok,
    painted_put1 (fun _ => rfl) (chroma_room hux hn (by omega) lv h0)
      (fun j hj => rowC_step hux hn (by omega) hj kv), Outcome.bind_ok]
  rfl

theorem rowC_tail {sb rgba : Buf} {w cx ux : Nat} (hux : ux * hdiv s = cx) (hlt : cx < w)
    (hp : ∀ j, (j < w - cx ∨ (s != .yuv444) = true ∧ j = w - cx ∧ (w - cx) % 2 = 1) →
        rowPx sb ch.count j = extPx w ch.count rgba (cx + j)) {c : Nat}
    (hc : c < chromaStep s (w - cx)) (k : Int × Int × Int) :
    [chroma1 s ch bc k (fun x => rowPx sb ch.count (0 + x)) c] = rowC s ch bc k w rgba (ux + c) := by
  rw [rowC, chroma1_congr (q := extPx w ch.count rgba) (d := ux + c)]
  intro i hi
  have e1 : hdiv s * (ux + c) + i = cx + (hdiv s * c + i) := by rw [← hux]; ring
  rw [e1, ← hp, Nat.zero_add]
  cases s <;> simp only [hdiv, chromaStep, ceil2] at * <;> first | omega | (simp; omega)

/-- The last pixels of a row. -/
theorem encTail_ok {f : Buf → Nat → Planes → Nat → Nat → Outcome Planes}
    (hf : BodyOk n s ch bl bc kl ku kv f) (hn : n % 2 = 0) {w : Nat} {rgba : Buf}
    (hB : ∀ b ∈ rgba, b < 256) (hr : w * ch.count ≤ rgba.length) {o : Planes} (ly : w ≤ o.1.length)
    (lu : (w - 1) / hdiv s + 1 ≤ o.2.1.length) (lv : (w - 1) / hdiv s + 1 ≤ o.2.2.length)
    {cx ux : Nat} (hux : ux * hdiv s = cx) (hlt : cx < w) (hle : w ≤ cx + n) :
    ∃ ux', encTail n s ch.count w (fun sb b => f sb 0 b 0 0) rgba
        (encSt (hdiv s) (rowL ch bl kl rgba) (rowC s ch bc ku w rgba) (rowC s ch bc kv w rgba) o cx) cx ux
      = .ok (encSt (hdiv s) (rowL ch bl kl rgba) (rowC s ch bc ku w rgba) (rowC s ch bc kv w rgba) o w,
          w, ux') := by
  obtain ⟨sb, es, ls, sB, sp⟩ := tailSrc_ok (n := n) (cn := ch.count) (w := w) (count_le ch) hn
    (s != .yuv444) hB hr hlt hle
  have d1 : chromaDone (hdiv s) cx = ux := by rw [← hux]; exact chromaDone_mul (hdiv_pos s)
  have d2 : chromaDone (hdiv s) w = ux + chromaStep s (w - cx) := by
    rw [← hux]; exact chromaDone_tail (by omega)
  have hcs : chromaStep s n ≤ n := by cases s <;> simp only [chromaStep, ceil2] <;> omega
  have hct : chromaStep s (w - cx) ≤ chromaStep s n := by
    cases s <;> simp only [chromaStep, ceil2] <;> omega
  have hb := hf sb 0 (List.replicate n 0, List.replicate n 0, List.replicate n 0) 0 0 sB
    (by rw [ls, Nat.zero_add]; exact Nat.mul_le_mul_left _ (count_le ch))
  obtain ⟨by', ey, cy⟩ := buf_copyOut (N := n) (L := n) (cn := 1)
    (f := fun j => [lumaVec ch bl kl (rowPx sb ch.count (0 + j))]) (by omega) (fun _ => rfl)
  obtain ⟨bu, eu, cu⟩ := buf_copyOut (N := chromaStep s n) (L := n) (cn := 1)
    (f := fun c => [chroma1 s ch bc ku (fun x => rowPx sb ch.count (0 + x)) c]) (by omega) (fun _ => rfl)
  obtain ⟨bv, ev, cv⟩ := buf_copyOut (N := chromaStep s n) (L := n) (cn := 1)
    (f := fun c => [chroma1 s ch bc kv (fun x => rowPx sb ch.count (0 + x)) c]) (by omega) (fun _ => rfl)
  simp only [Nat.zero_mul, ey, eu, ev, Outcome.bind_ok] at hb
  simp only [Nat.mul_one] at cy cu cv
  unfold encTail
  rw [if_pos hlt]
  simp only [if_neg (show ¬ n < w - cx by omega), es, Outcome.bind_ok, hb, Outcome.pure_eq]
  rw [cy _ _ _ (by omega), cu _ _ _ hct, cv _ _ _ hct]
  simp only [encSt, d1, d2]
  rw [painted_put1 (fun _ => rfl) (by omega) (fun j hj => by
      rw [Nat.zero_add, sp j (.inl hj), extPx_lt (by omega)]), Outcome.bind_ok,
    painted_put1 (fun _ => rfl) (by rw [← hux] at *; exact chroma_tail rfl hlt lu)
      (fun j hj => rowC_tail hux hlt sp hj ku), Outcome.bind_ok,
    painted_put1 (fun _ => rfl) (by rw [← hux] at *; exact chroma_tail rfl hlt lv)
      (fun j hj => rowC_tail hux hlt sp hj kv), Outcome.bind_ok]
  refine ⟨ux + chromaStep s (w - cx), ?_⟩
  rw [show cx + (w - cx) = w by omega]

/-! ## Two rows -/

theorem rowC2_step {rgba0 rgba1 : Buf} {w cx ux : Nat} (hux : ux * 2 = cx) (hn : n % 2 = 0)
    (hlt : cx + n ≤ w) {c : Nat} (hc : c < n / 2) (k : Int × Int × Int) :
    [chroma2 ch bc k (fun x => rowPx rgba0 ch.count (cx + x)) (fun x => rowPx rgba1 ch.count (cx + x)) c]
      = rowC2 ch bc k w rgba0 rgba1 (ux + c) := by
  have e1 : ∀ i, 2 * (ux + c) + i = cx + (2 * c + i) := fun i => by omega
  rw [rowC2, chroma2_congr (p' := extPx w ch.count rgba0) (q' := extPx w ch.count rgba1) (d := ux + c)]
  · intro i hi
    rw [e1, extPx_lt (by omega)]
  · intro i hi
    rw [e1, extPx_lt (by omega)]

theorem rowC2_tail {sb0 sb1 rgba0 rgba1 : Buf} {w cx ux : Nat} (hux : ux * 2 = cx) (hlt : cx < w)
    (hp0 : ∀ j, (j < w - cx ∨ true = true ∧ j = w - cx ∧ (w - cx) % 2 = 1) →
        rowPx sb0 ch.count j = extPx w ch.count rgba0 (cx + j))
    (hp1 : ∀ j, (j < w - cx ∨ true = true ∧ j = w - cx ∧ (w - cx) % 2 = 1) →
        rowPx sb1 ch.count j = extPx w ch.count rgba1 (cx + j)) {c : Nat}
    (hc : c < ceil2 (w - cx)) (k : Int × Int × Int) :
    [chroma2 ch bc k (fun x => rowPx sb0 ch.count (0 + x)) (fun x => rowPx sb1 ch.count (0 + x)) c]
      = rowC2 ch bc k w rgba0 rgba1 (ux + c) := by
  unfold ceil2 at hc
  have e1 : ∀ i, 2 * (ux + c) + i = cx + (2 * c + i) := fun i => by omega
  rw [rowC2, chroma2_congr (p' := extPx w ch.count rgba0) (q' := extPx w ch.count rgba1) (d := ux + c)]
  · intro i hi
    rw [e1, ← hp0 _ (by simp; omega), Nat.zero_add]
  · intro i hi
    rw [e1, ← hp1 _ (by simp; omega), Nat.zero_add]

/-- One step of the loop over two rows. -/
theorem body2_step {f : Buf → Buf → Nat → Planes4 → Nat → Nat → Outcome Planes4}
    (hf : BodyOk2 n ch bl bc kl ku kv f) (hn : n % 2 = 0) {w : Nat} {rgba0 rgba1 : Buf}
    (hB0 : ∀ b ∈ rgba0, b < 256) (hB1 : ∀ b ∈ rgba1, b < 256)
    (hr0 : w * ch.count ≤ rgba0.length) (hr1 : w * ch.count ≤ rgba1.length) {o : Planes4}
    (ly0 : w ≤ o.1.length) (ly1 : w ≤ o.2.1.length)
    (lu : (w - 1) / 2 + 1 ≤ o.2.2.1.length) (lv : (w - 1) / 2 + 1 ≤ o.2.2.2.length)
    {cx ux : Nat} (hux : ux * 2 = cx) (hlt : cx + n < w) :
    f rgba0 rgba1 (cx * ch.count)
        (encSt2 (rowL ch bl kl rgba0) (rowL ch bl kl rgba1) (rowC2 ch bc ku w rgba0 rgba1)
          (rowC2 ch bc kv w rgba0 rgba1) o cx) cx ux
      = .ok (encSt2 (rowL ch bl kl rgba0) (rowL ch bl kl rgba1) (rowC2 ch bc ku w rgba0 rgba1)
          (rowC2 ch bc kv w rgba0 rgba1) o (cx + n)) := by
  have hm := count_mono ch (show cx + n ≤ w by omega)
  have d1 : chromaDone 2 cx = ux := by unfold chromaDone; omega
  have d2 : chromaDone 2 (cx + n) = ux + n / 2 := by unfold chromaDone; omega
  rw [hf rgba0 rgba1 cx _ cx ux hB0 hB1 (by omega) (by omega)]
  simp only [encSt2, d1, d2]
  rw [painted_put1 (fun _ => rfl) (by omega) (fun j _ => rfl), Outcome.bind_ok,
    painted_put1 (fun _ => rfl) (by omega) (fun j _ => rfl), Outcome.bind_ok,
    painted_put1 (fun _ => rfl) (by omega) (fun j hj => rowC2_step hux hn (by omega) hj ku),
    Outcome.bind_ok,
    painted_put1 (fun _ => rfl) (by omega) (fun j hj => rowC2_step hux hn (by omega) hj kv),
    Outcome.bind_ok]
  rfl

/-- The last pixels of two rows. -/
theorem encTail420_ok {f : Buf → Buf → Nat → Planes4 → Nat → Nat → Outcome Planes4}
    (hf : BodyOk2 n ch bl bc kl ku kv f) (hn : n % 2 = 0) {w : Nat} {rgba0 rgba1 : Buf}
    (hB0 : ∀ b ∈ rgba0, b < 256) (hB1 : ∀ b ∈ rgba1, b < 256)
    (hr0 : w * ch.count ≤ rgba0.length) (hr1 : w * ch.count ≤ rgba1.length) {o : Planes4}
    (ly0 : w ≤ o.1.length) (ly1 : w ≤ o.2.1.length)
    (lu : (w - 1) / 2 + 1 ≤ o.2.2.1.length) (lv : (w - 1) / 2 + 1 ≤ o.2.2.2.length)
    {cx ux : Nat} (hux : ux * 2 = cx) (hlt : cx < w) (hle : w ≤ cx + n) :
    ∃ ux', encTail420 n ch.count w (fun s0 s1 b => f s0 s1 0 b 0 0) rgba0 rgba1
        (encSt2 (rowL ch bl kl rgba0) (rowL ch bl kl rgba1) (rowC2 ch bc ku w rgba0 rgba1)
          (rowC2 ch bc kv w rgba0 rgba1) o cx) cx ux
      = .ok (encSt2 (rowL ch bl kl rgba0) (rowL ch bl kl rgba1) (rowC2 ch bc ku w rgba0 rgba1)
          (rowC2 ch bc kv w rgba0 rgba1) o w, w, ux') := by
  obtain ⟨s0, es0, ls0, sB0, sp0⟩ := tailSrc_ok (n := n) (cn := ch.count) (w := w) (count_le ch) hn
    true hB0 hr0 hlt hle
  obtain ⟨s1, es1, ls1, sB1, sp1⟩ := tailSrc_ok (n := n) (cn := ch.count) (w := w) (count_le ch) hn
    true hB1 hr1 hlt hle
  have d1 : chromaDone 2 cx = ux := by unfold chromaDone; omega
  have d2 : chromaDone 2 w = ux + ceil2 (w - cx) := by unfold chromaDone ceil2; omega
  have hct : ceil2 (w - cx) ≤ n / 2 := by unfold ceil2; omega
  have hcl : ux + ceil2 (w - cx) ≤ (w - 1) / 2 + 1 := by unfold ceil2; omega
  have hb := hf s0 s1 0 (List.replicate n 0, List.replicate n 0, List.replicate n 0, List.replicate n 0)
    0 0 sB0 sB1 (by rw [ls0, Nat.zero_add]; exact Nat.mul_le_mul_left _ (count_le ch))
    (by rw [ls1, Nat.zero_add]; exact Nat.mul_le_mul_left _ (count_le ch))
  obtain ⟨b0, ey0, cy0⟩ := buf_copyOut (N := n) (L := n) (cn := 1)
    (f := fun j => [lumaVec ch bl kl (rowPx s0 ch.count (0 + j))]) (by omega) (fun _ => rfl)
  obtain ⟨b1, ey1, cy1⟩ := buf_copyOut (N := n) (L := n) (cn := 1)
    (f := fun j => [lumaVec ch bl kl (rowPx s1 ch.count (0 + j))]) (by omega) (fun _ => rfl)
  obtain ⟨bu, eu, cu⟩ := buf_copyOut (N := n / 2) (L := n) (cn := 1)
    (f := fun c => [chroma2 ch bc ku (fun x => rowPx s0 ch.count (0 + x))
      (fun x => rowPx s1 ch.count (0 + x)) c]) (by omega) (fun _ => rfl)
  obtain ⟨bv, ev, cv⟩ := buf_copyOut (N := n / 2) (L := n) (cn := 1)
    (f := fun c => [chroma2 ch bc kv (fun x => rowPx s0 ch.count (0 + x))
      (fun x => rowPx s1 ch.count (0 + x)) c]) (by omega) (fun _ => rfl)
  simp only [Nat.zero_mul, ey0, ey1, eu, ev, Outcome.bind_ok] at hb
  simp only [Nat.mul_one] at cy0 cy1 cu cv
  unfold encTail420
  rw [if_pos hlt]
  simp only [if_neg (show ¬ n < w - cx by omega), es0, es1, Outcome.bind_ok, hb, Outcome.pure_eq]
  rw [cy0 _ _ _ (by omega), cy1 _ _ _ (by omega), cu _ _ _ hct, cv _ _ _ hct]
  simp only [encSt2, d1, d2]
  rw [painted_put1 (fun _ => rfl) (by omega) (fun j hj => by
      rw [Nat.zero_add, sp0 j (.inl hj), extPx_lt (by omega)]), Outcome.bind_ok,
    painted_put1 (fun _ => rfl) (by omega) (fun j hj => by
      rw [Nat.zero_add, sp1 j (.inl hj), extPx_lt (by omega)]), Outcome.bind_ok,
    painted_put1 (fun _ => rfl) (by omega)
      (fun j hj => rowC2_tail hux hlt sp0 sp1 hj ku), Outcome.bind_ok,
    painted_put1 (fun _ => rfl) (by omega)
      (fun j hj => rowC2_tail hux hlt sp0 sp1 hj kv), Outcome.bind_ok]
  refine ⟨ux + ceil2 (w - cx), ?_⟩
  rw [show cx + (w - cx) = w by omega]

/-! ## The row encoders -/

variable {rg : ChromaRange} {t : FwdCoef}

/-- The planes after a whole row. -/
abbrev rowDone (s : Sampling) (ch : Channels) (rg : ChromaRange) (t : FwdCoef) (w : Nat) (rgba : Buf)
    (o : Planes) (cx : Nat) : Planes :=
  encSt (hdiv s) (rowL ch (biasLuma rg) (kLuma t) rgba) (rowC s ch (biasChroma rg) (kCb t) w rgba)
    (rowC s ch (biasChroma rg) (kCr t) w rgba) o cx
/-- The planes after two whole rows. -/
abbrev rowDone2 (ch : Channels) (rg : ChromaRange) (t : FwdCoef) (w : Nat) (rgba0 rgba1 : Buf)
    (o : Planes4) (cx : Nat) : Planes4 :=
  encSt2 (rowL ch (biasLuma rg) (kLuma t) rgba0) (rowL ch (biasLuma rg) (kLuma t) rgba1)
    (rowC2 ch (biasChroma rg) (kCb t) w rgba0 rgba1) (rowC2 ch (biasChroma rg) (kCr t) w rgba0 rgba1) o cx

theorem avx2EncRow_ok (hf : FwdOk rg t) (s : Sampling) {w : Nat} (hw : 0 < w) {rgba : Buf}
    (hB : ∀ b ∈ rgba, b < 256) (hr : w * ch.count ≤ rgba.length) {o : Planes} (ly : w ≤ o.1.length)
    (lu : (w - 1) / hdiv s + 1 ≤ o.2.1.length) (lv : (w - 1) / hdiv s + 1 ≤ o.2.2.length) :
    ∃ ux, avx2EncRow s ch rg t w rgba o 0 0 = .ok (rowDone s ch rg t w rgba o w, w, ux) := by
  obtain ⟨cx, ux, h1, h2, h3, h4⟩ := encLoop (step := 32) (ustep := chromaStep s 32) (hd := hdiv s)
    (by omega) (chromaStep_hdiv s rfl) (st := rowDone s ch rg t w rgba o)
    (body := fun cx ux o => avx2Enc s ch rg t rgba (cx * ch.count) o cx ux) (cx0 := 0) (ux0 := 0)
    (Nat.zero_mul _)
    (fun cx ux hux hlt => body_step (avx2Enc_body hf s) rfl (by omega) hB hr ly lu lv hux hlt) hw
  rw [rowDone, encSt_zero (hdiv_pos s)] at h1
  obtain ⟨ux', h5⟩ := encTail_ok (avx2Enc_body hf s) rfl hB hr ly lu lv h2 h3 h4
  refine ⟨ux', ?_⟩
  rw [avx2EncRow, h1, Outcome.bind_ok]
  exact h5

theorem sseEncRow_ok (hf : FwdOk rg t) (s : Sampling) {w : Nat} (hw : 0 < w) {rgba : Buf}
    (hB : ∀ b ∈ rgba, b < 256) (hr : w * ch.count ≤ rgba.length) {o : Planes} (ly : w ≤ o.1.length)
    (lu : (w - 1) / hdiv s + 1 ≤ o.2.1.length) (lv : (w - 1) / hdiv s + 1 ≤ o.2.2.length) :
    ∃ ux, sseEncRow s ch rg t w rgba o 0 0 = .ok (rowDone s ch rg t w rgba o w, w, ux) := by
  obtain ⟨cx, ux, h1, h2, h3, h4⟩ := encLoop (step := 16) (ustep := chromaStep s 16) (hd := hdiv s)
    (by omega) (chromaStep_hdiv s rfl) (st := rowDone s ch rg t w rgba o)
    (body := fun cx ux o => sseEnc s ch rg t rgba (cx * ch.count) o cx ux) (cx0 := 0) (ux0 := 0)
    (Nat.zero_mul _)
    (fun cx ux hux hlt => body_step (sseEnc_body hf s) rfl (by omega) hB hr ly lu lv hux hlt) hw
  rw [rowDone, encSt_zero (hdiv_pos s)] at h1
  obtain ⟨cx2, ux2, g1, g2, g3, g4⟩ := encLoop (step := 8) (ustep := chromaStep s 8) (hd := hdiv s)
    (by omega) (chromaStep_hdiv s rfl) (st := rowDone s ch rg t w rgba o)
    (body := fun cx ux o => sseEncHalf s ch rg t rgba (cx * ch.count) o cx ux) h2
    (fun cx ux hux hlt => body_step (sseEncHalf_body hf s) rfl (by omega) hB hr ly lu lv hux hlt) h3
  obtain ⟨ux', h5⟩ := encTail_ok (sseEncHalf_body hf s) rfl hB hr ly lu lv g2 g3 g4
  refine ⟨ux', ?_⟩
  rw [sseEncRow, h1, Outcome.bind_ok]
  simp only []
  rw [g1, Outcome.bind_ok]
  exact h5

theorem avx2EncRow420_ok (hf : FwdOk rg t) {w : Nat} (hw : 0 < w) {rgba0 rgba1 : Buf}
    (hB0 : ∀ b ∈ rgba0, b < 256) (hB1 : ∀ b ∈ rgba1, b < 256)
    (hr0 : w * ch.count ≤ rgba0.length) (hr1 : w * ch.count ≤ rgba1.length) {o : Planes4}
    (ly0 : w ≤ o.1.length) (ly1 : w ≤ o.2.1.length)
    (lu : (w - 1) / 2 + 1 ≤ o.2.2.1.length) (lv : (w - 1) / 2 + 1 ≤ o.2.2.2.length) :
    ∃ ux, avx2EncRow420 ch rg t w rgba0 rgba1 o 0 0
      = .ok (rowDone2 ch rg t w rgba0 rgba1 o w, w, ux) := by
  obtain ⟨cx, ux, h1, h2, h3, h4⟩ := encLoop (step := 32) (ustep := 16) (hd := 2)
    (by omega) rfl (st := rowDone2 ch rg t w rgba0 rgba1 o)
    (body := fun cx ux o => avx2Enc420 ch rg t rgba0 rgba1 (cx * ch.count) o cx ux) (cx0 := 0)
    (ux0 := 0) rfl
    (fun cx ux hux hlt => body2_step (avx2Enc420_body hf) rfl hB0 hB1 hr0 hr1 ly0 ly1 lu lv hux hlt) hw
  rw [rowDone2, encSt2_zero] at h1
  obtain ⟨ux', h5⟩ := encTail420_ok (avx2Enc420_body hf) rfl hB0 hB1 hr0 hr1 ly0 ly1 lu lv h2 h3 h4
  refine ⟨ux', ?_⟩
  rw [avx2EncRow420, h1, Outcome.bind_ok]
  exact h5

theorem sseEncRow420_ok (hf : FwdOk rg t) {w : Nat} (hw : 0 < w) {rgba0 rgba1 : Buf}
    (hB0 : ∀ b ∈ rgba0, b < 256) (hB1 : ∀ b ∈ rgba1, b < 256)
    (hr0 : w * ch.count ≤ rgba0.length) (hr1 : w * ch.count ≤ rgba1.length) {o : Planes4}
    (ly0 : w ≤ o.1.length) (ly1 : w ≤ o.2.1.length)
    (lu : (w - 1) / 2 + 1 ≤ o.2.2.1.length) (lv : (w - 1) / 2 + 1 ≤ o.2.2.2.length) :
    ∃ ux, sseEncRow420 ch rg t w rgba0 rgba1 o 0 0
      = .ok (rowDone2 ch rg t w rgba0 rgba1 o w, w, ux) := by
  obtain ⟨cx, ux, h1, h2, h3, h4⟩ := encLoop (step := 16) (ustep := 8) (hd := 2)
    (by omega) rfl (st := rowDone2 ch rg t w rgba0 rgba1 o)
    (body := fun cx ux o => sseEnc420 ch rg t rgba0 rgba1 (cx * ch.count) o cx ux) (cx0 := 0)
    (ux0 := 0) rfl
    (fun cx ux hux hlt => body2_step (sseEnc420_body hf) rfl hB0 hB1 hr0 hr1 ly0 ly1 lu lv hux hlt) hw
  rw [rowDone2, encSt2_zero] at h1
  obtain ⟨cx2, ux2, g1, g2, g3, g4⟩ := encLoop (step := 8) (ustep := 4) (hd := 2)
    (by omega) rfl (st := rowDone2 ch rg t w rgba0 rgba1 o)
    (body := fun cx ux o => sseEnc420Half ch rg t rgba0 rgba1 (cx * ch.count) o cx ux) h2
    (fun cx ux hux hlt =>
      body2_step (sseEnc420Half_body hf) rfl hB0 hB1 hr0 hr1 ly0 ly1 lu lv hux hlt) h3
  obtain ⟨ux', h5⟩ := encTail420_ok (sseEnc420Half_body hf) rfl hB0 hB1 hr0 hr1 ly0 ly1 lu lv g2 g3 g4
  refine ⟨ux', ?_⟩
  rw [sseEncRow420, h1, Outcome.bind_ok]
  simp only []
  rw [g1, Outcome.bind_ok]
  exact h5

end Verif.X86
