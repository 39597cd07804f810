import Verif.Model.X86NvEncode
import Verif.Lemmas.X86EncPlanar
import Verif.Lemmas.NvEncodeRows
/-! # The semi-planar x86 row encoders: steps and rows -/
namespace Verif.X86
open Spec

/-! ## Interleaved stores -/

theorem avx2Interleave2_bytes (a b : Reg) :
    bytes 32 (avx2Interleave2 a b).1 ++ bytes 32 (avx2Interleave2 a b).2
      = (List.range 32).flatMap fun j => [a j, b j] := by
  rfl
theorem avx2Interleave2_low (a b : Reg) :
    bytes 32 (avx2Interleave2 a b).1 = (List.range 16).flatMap fun j => [a j, b j] := by
  rfl
theorem sseInterleave2_bytes (a b : Reg) :
    bytes 16 (sseInterleave2 a b).1 ++ bytes 16 (sseInterleave2 a b).2
      = (List.range 16).flatMap fun j => [a j, b j] := by
  rfl
theorem sseInterleave2_low (a b : Reg) :
    bytes 16 (sseInterleave2 a b).1 = (List.range 8).flatMap fun j => [a j, b j] := by
  rfl

theorem inOrder_pairs {o : NVOrder} {cb cr : Reg} {f g : Nat → Nat} {n : Nat}
    (hf : ∀ i, i < n → cb i = f i) (hg : ∀ i, i < n → cr i = g i) :
    ((List.range n).flatMap fun j => [(inOrder o cb cr).1 j, (inOrder o cb cr).2 j])
      = (List.range n).flatMap fun j => orderUV o (f j) (g j) := by
  refine range_flatMap_congr fun j hj => ?_
  cases o
  · show [cb j, cr j] = [f j, g j]
    rw [hf j hj, hg j hj]
  · show [cr j, cb j] = [g j, f j]
    rw [hf j hj, hg j hj]

section
variable {o : NVOrder} {cb cr : Reg} {f g : Nat → Nat} {ux : Nat}

theorem avx2_store2 (hf : ∀ i, i < 32 → cb i = f i) (hg : ∀ i, i < 32 → cr i = g i) (l : Buf) :
    (store 32 (avx2Interleave2 (inOrder o cb cr).1 (inOrder o cb cr).2).1 ux l >>= fun uv =>
      store 32 (avx2Interleave2 (inOrder o cb cr).1 (inOrder o cb cr).2).2 (ux + 32) uv)
      = put l ux ((List.range 32).flatMap fun j => orderUV o (f j) (g j)) := by
  unfold store
  rw [put_put _ _ _ _ _ (by rw [bytes_length]), avx2Interleave2_bytes, inOrder_pairs hf hg]

theorem avx2_store1 (hf : ∀ i, i < 16 → cb i = f i) (hg : ∀ i, i < 16 → cr i = g i) (l : Buf) :
    store 32 (avx2Interleave2 (inOrder o cb cr).1 (inOrder o cb cr).2).1 ux l
      = put l ux ((List.range 16).flatMap fun j => orderUV o (f j) (g j)) := by
  unfold store
  rw [avx2Interleave2_low, inOrder_pairs hf hg]

theorem sse_store2 (hf : ∀ i, i < 16 → cb i = f i) (hg : ∀ i, i < 16 → cr i = g i) (l : Buf) :
    (store 16 (sseInterleave2 (inOrder o cb cr).1 (inOrder o cb cr).2).1 ux l >>= fun uv =>
      store 16 (sseInterleave2 (inOrder o cb cr).1 (inOrder o cb cr).2).2 (ux + 16) uv)
      = put l ux ((List.range 16).flatMap fun j => orderUV o (f j) (g j)) := by
  unfold store
  rw [put_put _ _ _ _ _ (by rw [bytes_length]), sseInterleave2_bytes, inOrder_pairs hf hg]

theorem sse_store1 (hf : ∀ i, i < 8 → cb i = f i) (hg : ∀ i, i < 8 → cr i = g i) (l : Buf) :
    store 16 (sseInterleave2 (inOrder o cb cr).1 (inOrder o cb cr).2).1 ux l
      = put l ux ((List.range 8).flatMap fun j => orderUV o (f j) (g j)) := by
  unfold store
  rw [sseInterleave2_low, inOrder_pairs hf hg]
end

/-! ## Steps -/

/-- A step of `n` pixels computes the luma values and chroma pairs of its pixels. -/
def BodyNv (o : NVOrder) (n : Nat) (s : Sampling) (ch : Channels) (bl bc : Int)
    (kl ku kv : Int × Int × Int) (f : Buf → Nat → Planes2 → Nat → Nat → Outcome Planes2) : Prop :=
  ∀ (src : Buf) (x0 : Nat) (d : Planes2) (cx ux : Nat), (∀ b ∈ src, b < 256) →
    (x0 + n) * ch.count ≤ src.length →
    f src (x0 * ch.count) d cx ux = (do
      let y ← put d.1 cx ((List.range n).flatMap fun j => [lumaVec ch bl kl (rowPx src ch.count (x0 + j))])
      let uv ← put d.2 ux ((List.range (chromaStep s n)).flatMap fun c =>
        orderUV o (chroma1 s ch bc ku (fun x => rowPx src ch.count (x0 + x)) c)
          (chroma1 s ch bc kv (fun x => rowPx src ch.count (x0 + x)) c))
      return (y, uv))

/-- A step of `n` pixels of two rows. -/
def BodyNv2 (o : NVOrder) (n : Nat) (ch : Channels) (bl bc : Int) (kl ku kv : Int × Int × Int)
    (f : Buf → Buf → Nat → Planes3 → Nat → Nat → Outcome Planes3) : Prop :=
  ∀ (src0 src1 : Buf) (x0 : Nat) (d : Planes3) (cx ux : Nat), (∀ b ∈ src0, b < 256) →
    (∀ b ∈ src1, b < 256) → (x0 + n) * ch.count ≤ src0.length → (x0 + n) * ch.count ≤ src1.length →
    f src0 src1 (x0 * ch.count) d cx ux = (do
      let y0 ← put d.1 cx ((List.range n).flatMap fun j => [lumaVec ch bl kl (rowPx src0 ch.count (x0 + j))])
      let y1 ← put d.2.1 cx ((List.range n).flatMap fun j => [lumaVec ch bl kl (rowPx src1 ch.count (x0 + j))])
      let uv ← put d.2.2 ux ((List.range (n / 2)).flatMap fun c =>
        orderUV o (chroma2 ch bc ku (fun x => rowPx src0 ch.count (x0 + x)) (fun x => rowPx src1 ch.count (x0 + x)) c)
          (chroma2 ch bc kv (fun x => rowPx src0 ch.count (x0 + x)) (fun x => rowPx src1 ch.count (x0 + x)) c))
      return (y0, y1, uv))

variable {rg : ChromaRange} {t : FwdCoef} {ch : Channels}

theorem avx2NvEnc_body (o : NVOrder) (hf : FwdOk rg t) (s : Sampling) :
    BodyNv o 32 s ch (biasLuma rg) (biasChroma rg) (kLuma t) (kCb t) (kCr t) (avx2NvEnc o s ch rg t) := by
  intro src x0 d cx ux hb hl
  obtain ⟨c, e, hp⟩ := avx2Load_at ch hl
  have hc := hp.chans hb
  rw [avx2NvEnc, e, Outcome.bind_ok]
  refine bindEq (store_flat (fun i hi => dotBytes_at hf.y (n := 32) rfl hc hi) _) fun y => ?_
  have sub : ∀ s, s ≠ .yuv444 → ∀ k, DotOk (biasChroma rg) k → ∀ i, i < 16 →
      avx2Pairs (biasChroma rg) k c i
        = chroma1 s ch (biasChroma rg) k (fun x => rowPx src ch.count (x0 + x)) i := by
    intro s hs k hk i hi
    rw [avx2Pairs_at hk hc hi]
    simp only [chroma1, chWord_sub hs]
  cases s
  · exact bindEq (avx2_store1 (sub .yuv420 (by decide) _ hf.u) (sub .yuv420 (by decide) _ hf.v) _)
      fun uv => rfl
  · exact bindEq (avx2_store1 (sub .yuv422 (by decide) _ hf.u) (sub .yuv422 (by decide) _ hf.v) _)
      fun uv => rfl
  · refine (bind_assoc' _ _ _).symm.trans ?_
    exact bindEq (avx2_store2 (fun i hi => dotBytes_at hf.u (n := 32) rfl hc hi)
      (fun i hi => dotBytes_at hf.v (n := 32) rfl hc hi) _) fun uv => rfl

theorem sseNvEnc_body (o : NVOrder) (hf : FwdOk rg t) (s : Sampling) :
    BodyNv o 16 s ch (biasLuma rg) (biasChroma rg) (kLuma t) (kCb t) (kCr t) (sseNvEnc o s ch rg t) := by
  intro src x0 d cx ux hb hl
  obtain ⟨c, e, hp⟩ := sseLoad_at ch hl
  have hc := hp.chans hb
  rw [sseNvEnc, e, Outcome.bind_ok]
  refine bindEq (store_flat (fun i hi => dotBytes_at hf.y (n := 16) rfl hc hi) _) fun y => ?_
  have sub : ∀ s, s ≠ .yuv444 → ∀ k, DotOk (biasChroma rg) k → ∀ i, i < 8 →
      ssePairs (biasChroma rg) k c i
        = chroma1 s ch (biasChroma rg) k (fun x => rowPx src ch.count (x0 + x)) i := by
    intro s hs k hk i hi
    rw [ssePairs_at hk (Nat.le_refl 16) hc (by omega)]
    simp only [chroma1, chWord_sub hs]
  cases s
  · exact bindEq (sse_store1 (sub .yuv420 (by decide) _ hf.u) (sub .yuv420 (by decide) _ hf.v) _)
      fun uv => rfl
  · exact bindEq (sse_store1 (sub .yuv422 (by decide) _ hf.u) (sub .yuv422 (by decide) _ hf.v) _)
      fun uv => rfl
  · refine (bind_assoc' _ _ _).symm.trans ?_
    exact bindEq (sse_store2 (fun i hi => dotBytes_at hf.u (n := 16) rfl hc hi)
      (fun i hi => dotBytes_at hf.v (n := 16) rfl hc hi) _) fun uv => rfl

theorem avx2NvEnc420_body (o : NVOrder) (hf : FwdOk rg t) :
    BodyNv2 o 32 ch (biasLuma rg) (biasChroma rg) (kLuma t) (kCb t) (kCr t) (avx2NvEnc420 o ch rg t) := by
  intro src0 src1 x0 d cx ux hb0 hb1 hl0 hl1
  obtain ⟨c0, e0, hp0⟩ := avx2Load_at ch hl0
  obtain ⟨c1, e1, hp1⟩ := avx2Load_at ch hl1
  have hc0 := hp0.chans hb0
  have hc1 := hp1.chans hb1
  have ha := hc0.avg hc1
  rw [avx2NvEnc420, e0, Outcome.bind_ok, e1, Outcome.bind_ok]
  refine bindEq (store_flat (fun i hi => dotBytes_at hf.y (n := 32) rfl hc0 hi) _) fun y0 => ?_
  exact bindEq (store_flat (fun i hi => dotBytes_at hf.y (n := 32) rfl hc1 hi) _) fun y1 =>
    bindEq (avx2_store1 (fun i hi => avx2Pairs_at hf.u ha hi) (fun i hi => avx2Pairs_at hf.v ha hi) _)
      fun uv => rfl

theorem sseNvEnc420_body (o : NVOrder) (hf : FwdOk rg t) :
    BodyNv2 o 16 ch (biasLuma rg) (biasChroma rg) (kLuma t) (kCb t) (kCr t) (sseNvEnc420 o ch rg t) := by
  intro src0 src1 x0 d cx ux hb0 hb1 hl0 hl1
  obtain ⟨c0, e0, hp0⟩ := sseLoad_at ch hl0
  obtain ⟨c1, e1, hp1⟩ := sseLoad_at ch hl1
  have hc0 := hp0.chans hb0
  have hc1 := hp1.chans hb1
  have ha := hc0.avg hc1
  rw [sseNvEnc420, e0, Outcome.bind_ok]
  refine bindEq (store_flat (fun i hi => dotBytes_at hf.y (n := 16) rfl hc0 hi) _) fun y0 => ?_
  rw [e1, Outcome.bind_ok]
  exact bindEq (store_flat (fun i hi => dotBytes_at hf.y (n := 16) rfl hc1 hi) _) fun y1 =>
    bindEq (sse_store1 (fun i hi => ssePairs_at hf.u (Nat.le_refl 16) ha (by omega))
      (fun i hi => ssePairs_at hf.v (Nat.le_refl 16) ha (by omega)) _) fun uv => rfl

/-! ## Rows -/

/-- A vector loop whose chroma index advances two for every chroma sample. -/
theorem nvEncLoop {σ : Type} {step ustep width hd : Nat} (hs : 0 < step) (hus : ustep * hd = step)
    {st : Nat → σ} {body : Nat → Nat → σ → Outcome σ}
    (hbody : ∀ cx c, c * hd = cx → cx + step < width →
      body cx (c * 2) (st cx) = .ok (st (cx + step))) (hw : 0 < width) :
    ∃ cx c, vwhile step (ustep * 2) width body 0 0 (st 0) = .ok (st cx, cx, c * 2) ∧
      c * hd = cx ∧ cx < width ∧ width ≤ cx + step := by
  obtain ⟨s, cx, ux, h1, ⟨h2, ⟨c, rfl, h3⟩, h4⟩, h5⟩ := vwhile_ok (width := width) (ustep := ustep * 2)
    hs (body := body) (P := fun cx ux s => s = st cx ∧ (∃ c, ux = c * 2 ∧ c * hd = cx) ∧ cx < width)
    (by
      rintro cx ux s ⟨rfl, ⟨c, rfl, g1⟩, g2⟩ hlt
      refine ⟨_, hbody cx c g1 hlt, rfl, ⟨c + ustep, by rw [Nat.add_mul], ?_⟩, hlt⟩
      rw [Nat.add_mul, g1, hus])
    (cx := 0) (ux := 0) (s := st 0) ⟨rfl, ⟨0, by rw [Nat.zero_mul], Nat.zero_mul _⟩, hw⟩
  subst h2
  exact ⟨cx, c, h1, h3, h4, h5⟩

theorem painted_put2 {pix : Nat → Buf} (hp : ∀ j, (pix j).length = 2) {c n : Nat} {row : Buf}
    (h : (c + n) * 2 ≤ row.length) {f : Nat → Buf} (hf : ∀ j, j < n → f j = pix (c + j)) :
    put (painted 2 pix c row) (c * 2) ((List.range n).flatMap f) = .ok (painted 2 pix (c + n) row) := by
  rw [range_flatMap_congr hf]
  exact painted_put (cn := 2) hp h

/-- Chroma pairs of a row. -/
abbrev rowP (o : NVOrder) (s : Sampling) (ch : Channels) (bc : Int) (ku kv : Int × Int × Int) (w : Nat)
    (rgba : Buf) (c : Nat) : Buf :=
  orderUV o (chroma1 s ch bc ku (extPx w ch.count rgba) c) (chroma1 s ch bc kv (extPx w ch.count rgba) c)
/-- Chroma pairs of two rows. -/
abbrev rowP2 (o : NVOrder) (ch : Channels) (bc : Int) (ku kv : Int × Int × Int) (w : Nat)
    (rgba0 rgba1 : Buf) (c : Nat) : Buf :=
  orderUV o (chroma2 ch bc ku (extPx w ch.count rgba0) (extPx w ch.count rgba1) c)
    (chroma2 ch bc kv (extPx w ch.count rgba0) (extPx w ch.count rgba1) c)

/-- Two planes after the first `cx` pixels of a row. -/
def nvSt (hd : Nat) (L P : Nat → Buf) (d : Planes2) (cx : Nat) : Planes2 :=
  (painted 1 L cx d.1, painted 2 P (chromaDone hd cx) d.2)
/-- Three planes after the first `cx` pixels of two rows. -/
def nvSt2 (L0 L1 P : Nat → Buf) (d : Planes3) (cx : Nat) : Planes3 :=
  (painted 1 L0 cx d.1, painted 1 L1 cx d.2.1, painted 2 P (chromaDone 2 cx) d.2.2)

theorem nvSt_zero {hd : Nat} (h : 0 < hd) (L P : Nat → Buf) (d : Planes2) : nvSt hd L P d 0 = d := by
  have e : chromaDone hd 0 = 0 := by
    unfold chromaDone; exact Nat.div_eq_of_lt (by omega)
  simp only [nvSt, e, painted_zero]
theorem nvSt2_zero (L0 L1 P : Nat → Buf) (d : Planes3) : nvSt2 L0 L1 P d 0 = d := by
  have e : chromaDone 2 0 = 0 := rfl
  simp only [nvSt2, e, painted_zero]

theorem list_one_inj {a b : Nat} (h : [a] = [b]) : a = b := by injection h

variable {o : NVOrder} {n : Nat} {s : Sampling} {bl bc : Int} {kl ku kv : Int × Int × Int}

theorem bodyNv_step {f : Buf → Nat → Planes2 → Nat → Nat → Outcome Planes2}
    (hf : BodyNv o n s ch bl bc kl ku kv f) (hn : n % 2 = 0) (h0 : 0 < n) {w : Nat} {rgba : Buf}
    (hB : ∀ b ∈ rgba, b < 256) (hr : w * ch.count ≤ rgba.length) {d : Planes2} (ly : w ≤ d.1.length)
    (lu : 2 * ((w - 1) / hdiv s + 1) ≤ d.2.length) {cx c : Nat} (hux : c * hdiv s = cx)
    (hlt : cx + n < w) :
    f rgba (cx * ch.count) (nvSt (hdiv s) (rowL ch bl kl rgba) (rowP o s ch bc ku kv w rgba) d cx) cx
        (c * 2)
      = .ok (nvSt (hdiv s) (rowL ch bl kl rgba) (rowP o s ch bc ku kv w rgba) d (cx + n)) := by
  have hm := count_mono ch (show cx + n ≤ w by omega)
  have d1 : chromaDone (hdiv s) cx = c := by rw [← hux]; exact chromaDone_mul (hdiv_pos s)
  have d2 : chromaDone (hdiv s) (cx + n) = c + chromaStep s n := by
    rw [← hux]; exact chromaDone_step hn
  have hroom := chroma_room hux hn (show cx + n ≤ w by omega) (Nat.le_refl ((w - 1) / hdiv s + 1)) h0
  rw [hf rgba cx _ cx (c * 2) hB (by omega)]
  simp only [nvSt, d1, d2]
  rw [painted_put1 (fun _ => rfl) (by omega) (fun j _ => rfl), Outcome.bind_ok,
    painted_put2 (fun _ => orderUV_length) (by omega) (fun j hj => by
      rw [list_one_inj (rowC_step hux hn (show cx + n ≤ w by omega) hj ku),
        list_one_inj (rowC_step hux hn (show cx + n ≤ w by omega) hj kv)]), Outcome.bind_ok]
  rfl

theorem nvEncTail_ok {f : Buf → Nat → Planes2 → Nat → Nat → Outcome Planes2}
    (hf : BodyNv o n s ch bl bc kl ku kv f) (hn : n % 2 = 0) {w : Nat} {rgba : Buf}
    (hB : ∀ b ∈ rgba, b < 256) (hr : w * ch.count ≤ rgba.length) {d : Planes2} (ly : w ≤ d.1.length)
    (lu : 2 * ((w - 1) / hdiv s + 1) ≤ d.2.length) {cx c : Nat} (hux : c * hdiv s = cx) (hlt : cx < w)
    (hle : w ≤ cx + n) :
    ∃ ux', nvEncTail n s ch.count w (fun sb b => f sb 0 b 0 0) rgba
        (nvSt (hdiv s) (rowL ch bl kl rgba) (rowP o s ch bc ku kv w rgba) d cx) cx (c * 2)
      = .ok (nvSt (hdiv s) (rowL ch bl kl rgba) (rowP o s ch bc ku kv w rgba) d w, w, ux') := by
  obtain ⟨sb, es, ls, sB, sp⟩ := tailSrc_ok (n := n) (cn := ch.count) (w := w) (count_le ch) hn
    (s != .yuv444) hB hr hlt hle
  have d1 : chromaDone (hdiv s) cx = c := by rw [← hux]; exact chromaDone_mul (hdiv_pos s)
  have d2 : chromaDone (hdiv s) w = c + chromaStep s (w - cx) := by
    rw [← hux]; exact chromaDone_tail (by omega)
  have hcs : chromaStep s n ≤ n := by cases s <;> simp only [chromaStep, ceil2] <;> omega
  have hct : chromaStep s (w - cx) ≤ chromaStep s n := by
    cases s <;> simp only [chromaStep, ceil2] <;> omega
  have hroom := chroma_tail hux hlt (Nat.le_refl ((w - 1) / hdiv s + 1))
  have hb := hf sb 0 (List.replicate n 0, List.replicate (n * 2) 0) 0 0 sB
    (by rw [ls, Nat.zero_add]; exact Nat.mul_le_mul_left _ (count_le ch))
  obtain ⟨by', ey, cy⟩ := buf_copyOut (N := n) (L := n) (cn := 1)
    (f := fun j => [lumaVec ch bl kl (rowPx sb ch.count (0 + j))]) (by omega) (fun _ => rfl)
  obtain ⟨bu, eu, cu⟩ := buf_copyOut (N := chromaStep s n) (L := n * 2) (cn := 2)
    (f := fun c => orderUV o (chroma1 s ch bc ku (fun x => rowPx sb ch.count (0 + x)) c)
      (chroma1 s ch bc kv (fun x => rowPx sb ch.count (0 + x)) c)) (by omega)
    (fun _ => orderUV_length)
  simp only [Nat.zero_mul, ey, eu, Outcome.bind_ok] at hb
  simp only [Nat.mul_one] at cy
  unfold nvEncTail
  rw [if_pos hlt]
  simp only [if_neg (show ¬ n < w - cx by omega), es, Outcome.bind_ok, hb, Outcome.pure_eq]
  rw [cy _ _ _ (by omega), cu _ _ _ hct]
  simp only [nvSt, d1, d2]
  rw [painted_put1 (fun _ => rfl) (by omega) (fun j hj => by
      rw [Nat.zero_add, sp j (.inl hj), extPx_lt (by omega)]), Outcome.bind_ok,
    painted_put2 (fun _ => orderUV_length) (by omega) (fun j hj => by
      rw [list_one_inj (rowC_tail hux hlt sp hj ku), list_one_inj (rowC_tail hux hlt sp hj kv)]),
    Outcome.bind_ok]
  refine ⟨c * 2 + chromaStep s (w - cx) * 2, ?_⟩
  rw [show cx + (w - cx) = w by omega]

theorem bodyNv2_step {f : Buf → Buf → Nat → Planes3 → Nat → Nat → Outcome Planes3}
    (hf : BodyNv2 o n ch bl bc kl ku kv f) (hn : n % 2 = 0) {w : Nat} {rgba0 rgba1 : Buf}
    (hB0 : ∀ b ∈ rgba0, b < 256) (hB1 : ∀ b ∈ rgba1, b < 256)
    (hr0 : w * ch.count ≤ rgba0.length) (hr1 : w * ch.count ≤ rgba1.length) {d : Planes3}
    (ly0 : w ≤ d.1.length) (ly1 : w ≤ d.2.1.length) (lu : 2 * ((w - 1) / 2 + 1) ≤ d.2.2.length)
    {cx c : Nat} (hux : c * 2 = cx) (hlt : cx + n < w) :
    f rgba0 rgba1 (cx * ch.count)
        (nvSt2 (rowL ch bl kl rgba0) (rowL ch bl kl rgba1) (rowP2 o ch bc ku kv w rgba0 rgba1) d cx) cx
        (c * 2)
      = .ok (nvSt2 (rowL ch bl kl rgba0) (rowL ch bl kl rgba1) (rowP2 o ch bc ku kv w rgba0 rgba1) d
          (cx + n)) := by
  have hm := count_mono ch (show cx + n ≤ w by omega)
  have d1 : chromaDone 2 cx = c := by unfold chromaDone; omega
  have d2 : chromaDone 2 (cx + n) = c + n / 2 := by unfold chromaDone; omega
  rw [hf rgba0 rgba1 cx _ cx (c * 2) hB0 hB1 (by omega) (by omega)]
  simp only [nvSt2, d1, d2]
  rw [painted_put1 (fun _ => rfl) (by omega) (fun j _ => rfl), Outcome.bind_ok,
    painted_put1 (fun _ => rfl) (by omega) (fun j _ => rfl), Outcome.bind_ok,
    painted_put2 (fun _ => orderUV_length) (by omega) (fun j hj => by
      rw [list_one_inj (rowC2_step hux hn (show cx + n ≤ w by omega) hj ku),
        list_one_inj (rowC2_step hux hn (show cx + n ≤ w by omega) hj kv)]), Outcome.bind_ok]
  rfl

theorem nvEncTail420_ok {f : Buf → Buf → Nat → Planes3 → Nat → Nat → Outcome Planes3}
    (hf : BodyNv2 o n ch bl bc kl ku kv f) (hn : n % 2 = 0) {w : Nat} {rgba0 rgba1 : Buf}
    (hB0 : ∀ b ∈ rgba0, b < 256) (hB1 : ∀ b ∈ rgba1, b < 256)
    (hr0 : w * ch.count ≤ rgba0.length) (hr1 : w * ch.count ≤ rgba1.length) {d : Planes3}
    (ly0 : w ≤ d.1.length) (ly1 : w ≤ d.2.1.length) (lu : 2 * ((w - 1) / 2 + 1) ≤ d.2.2.length)
    {cx c : Nat} (hux : c * 2 = cx) (hlt : cx < w) (hle : w ≤ cx + n) :
    ∃ ux', nvEncTail420 n ch.count w (fun s0 s1 b => f s0 s1 0 b 0 0) rgba0 rgba1
        (nvSt2 (rowL ch bl kl rgba0) (rowL ch bl kl rgba1) (rowP2 o ch bc ku kv w rgba0 rgba1) d cx) cx
        (c * 2)
      = .ok (nvSt2 (rowL ch bl kl rgba0) (rowL ch bl kl rgba1) (rowP2 o ch bc ku kv w rgba0 rgba1) d w,
          w, ux') := by
  obtain ⟨s0, es0, ls0, sB0, sp0⟩ := tailSrc_ok (n := n) (cn := ch.count) (w := w) (count_le ch) hn
    true hB0 hr0 hlt hle
  obtain ⟨s1, es1, ls1, sB1, sp1⟩ := tailSrc_ok (n := n) (cn := ch.count) (w := w) (count_le ch) hn
    true hB1 hr1 hlt hle
  have d1 : chromaDone 2 cx = c := by unfold chromaDone; omega
  have d2 : chromaDone 2 w = c + ceil2 (w - cx) := by unfold chromaDone ceil2; omega
  have hct : ceil2 (w - cx) ≤ n / 2 := by unfold ceil2; omega
  have hcl : c + ceil2 (w - cx) ≤ (w - 1) / 2 + 1 := by unfold ceil2; omega
  have hb := hf s0 s1 0 (List.replicate n 0, List.replicate n 0, List.replicate (n * 2) 0)
    0 0 sB0 sB1 (by rw [ls0, Nat.zero_add]; exact Nat.mul_le_mul_left _ (count_le ch))
    (by rw [ls1, Nat.zero_add]; exact Nat.mul_le_mul_left _ (count_le ch))
  obtain ⟨b0, ey0, cy0⟩ := buf_copyOut (N := n) (L := n) (cn := 1)
    (f := fun j => [lumaVec ch bl kl (rowPx s0 ch.count (0 + j))]) (by omega) (fun _ => rfl)
  obtain ⟨b1, ey1, cy1⟩ := buf_copyOut (N := n) (L := n) (cn := 1)
    (f := fun j => [lumaVec ch bl kl (rowPx s1 ch.count (0 + j))]) (by omega) (fun _ => rfl)
  obtain ⟨bu, eu, cu⟩ := buf_copyOut (N := n / 2) (L := n * 2) (cn := 2)
    (f := fun c => orderUV o
      (chroma2 ch bc ku (fun x => rowPx s0 ch.count (0 + x)) (fun x => rowPx s1 ch.count (0 + x)) c)
      (chroma2 ch bc kv (fun x => rowPx s0 ch.count (0 + x)) (fun x => rowPx s1 ch.count (0 + x)) c))
    (by omega) (fun _ => orderUV_length)
  simp only [Nat.zero_mul, ey0, ey1, eu, Outcome.bind_ok] at hb
  simp only [Nat.mul_one] at cy0 cy1
  unfold nvEncTail420
  rw [if_pos hlt]
  simp only [if_neg (show ¬ n < w - cx by omega), es0, es1, Outcome.bind_ok, hb, Outcome.pure_eq]
  rw [cy0 _ _ _ (by omega), cy1 _ _ _ (by omega), cu _ _ _ hct]
  simp only [nvSt2, d1, d2]
  rw [painted_put1 (fun _ => rfl) (by omega) (fun j hj => by
      rw [Nat.zero_add, sp0 j (.inl hj), extPx_lt (by omega)]), Outcome.bind_ok,
    painted_put1 (fun _ => rfl) (by omega) (fun j hj => by
      rw [Nat.zero_add, sp1 j (.inl hj), extPx_lt (by omega)]), Outcome.bind_ok,
    painted_put2 (fun _ => orderUV_length) (by omega) (fun j hj => by
      rw [list_one_inj (rowC2_tail hux hlt sp0 sp1 hj ku),
        list_one_inj (rowC2_tail hux hlt sp0 sp1 hj kv)]),
    Outcome.bind_ok]
  refine ⟨c * 2 + ceil2 (w - cx) * 2, ?_⟩
  rw [show cx + (w - cx) = w by omega]

/-! ## The row encoders -/

/-- The planes after a whole row. -/
abbrev nvRowDone (o : NVOrder) (s : Sampling) (ch : Channels) (rg : ChromaRange) (t : FwdCoef) (w : Nat)
    (rgba : Buf) (d : Planes2) (cx : Nat) : Planes2 :=
  nvSt (hdiv s) (rowL ch (biasLuma rg) (kLuma t) rgba)
    (rowP o s ch (biasChroma rg) (kCb t) (kCr t) w rgba) d cx
/-- The planes after two whole rows. -/
abbrev nvRowDone2 (o : NVOrder) (ch : Channels) (rg : ChromaRange) (t : FwdCoef) (w : Nat)
    (rgba0 rgba1 : Buf) (d : Planes3) (cx : Nat) : Planes3 :=
  nvSt2 (rowL ch (biasLuma rg) (kLuma t) rgba0) (rowL ch (biasLuma rg) (kLuma t) rgba1)
    (rowP2 o ch (biasChroma rg) (kCb t) (kCr t) w rgba0 rgba1) d cx

section
variable {w : Nat} {rgba rgba0 rgba1 : Buf}

theorem avx2NvEncRow_ok (o : NVOrder) (hf : FwdOk rg t) (s : Sampling) (hw : 0 < w)
    (hB : ∀ b ∈ rgba, b < 256) (hr : w * ch.count ≤ rgba.length) {d : Planes2} (ly : w ≤ d.1.length)
    (lu : 2 * ((w - 1) / hdiv s + 1) ≤ d.2.length) :
    ∃ ux, avx2NvEncRow o s ch rg t w rgba d 0 0 = .ok (nvRowDone o s ch rg t w rgba d w, w, ux) := by
  obtain ⟨cx, c, h1, h2, h3, h4⟩ := nvEncLoop (step := 32) (ustep := chromaStep s 32) (hd := hdiv s)
    (by omega) (chromaStep_hdiv s rfl) (st := nvRowDone o s ch rg t w rgba d)
    (body := fun cx ux d => avx2NvEnc o s ch rg t rgba (cx * ch.count) d cx ux)
    (fun cx ux hux hlt => bodyNv_step (avx2NvEnc_body o hf s) rfl (by omega) hB hr ly lu hux hlt) hw
  rw [nvRowDone, nvSt_zero (hdiv_pos s)] at h1
  obtain ⟨ux', h5⟩ := nvEncTail_ok (avx2NvEnc_body o hf s) rfl hB hr ly lu h2 h3 h4
  refine ⟨ux', ?_⟩
  rw [avx2NvEncRow, h1, Outcome.bind_ok]
  exact h5

theorem sseNvEncRow_ok (o : NVOrder) (hf : FwdOk rg t) (s : Sampling) (hw : 0 < w)
    (hB : ∀ b ∈ rgba, b < 256) (hr : w * ch.count ≤ rgba.length) {d : Planes2} (ly : w ≤ d.1.length)
    (lu : 2 * ((w - 1) / hdiv s + 1) ≤ d.2.length) :
    ∃ ux, sseNvEncRow o s ch rg t w rgba d 0 0 = .ok (nvRowDone o s ch rg t w rgba d w, w, ux) := by
  obtain ⟨cx, c, h1, h2, h3, h4⟩ := nvEncLoop (step := 16) (ustep := chromaStep s 16) (hd := hdiv s)
    (by omega) (chromaStep_hdiv s rfl) (st := nvRowDone o s ch rg t w rgba d)
    (body := fun cx ux d => sseNvEnc o s ch rg t rgba (cx * ch.count) d cx ux)
    (fun cx ux hux hlt => bodyNv_step (sseNvEnc_body o hf s) rfl (by omega) hB hr ly lu hux hlt) hw
  rw [nvRowDone, nvSt_zero (hdiv_pos s)] at h1
  obtain ⟨ux', h5⟩ := nvEncTail_ok (sseNvEnc_body o hf s) rfl hB hr ly lu h2 h3 h4
  refine ⟨ux', ?_⟩
  rw [sseNvEncRow, h1, Outcome.bind_ok]
  exact h5

theorem avx2NvEncRow420_ok (o : NVOrder) (hf : FwdOk rg t) (hw : 0 < w)
    (hB0 : ∀ b ∈ rgba0, b < 256) (hB1 : ∀ b ∈ rgba1, b < 256)
    (hr0 : w * ch.count ≤ rgba0.length) (hr1 : w * ch.count ≤ rgba1.length) {d : Planes3}
    (ly0 : w ≤ d.1.length) (ly1 : w ≤ d.2.1.length) (lu : 2 * ((w - 1) / 2 + 1) ≤ d.2.2.length) :
    ∃ ux, avx2NvEncRow420 o ch rg t w rgba0 rgba1 d 0 0
      = .ok (nvRowDone2 o ch rg t w rgba0 rgba1 d w, w, ux) := by
  obtain ⟨cx, c, h1, h2, h3, h4⟩ := nvEncLoop (step := 32) (ustep := 16) (hd := 2)
    (by omega) rfl (st := nvRowDone2 o ch rg t w rgba0 rgba1 d)
    (body := fun cx ux d => avx2NvEnc420 o ch rg t rgba0 rgba1 (cx * ch.count) d cx ux)
    (fun cx ux hux hlt =>
      bodyNv2_step (avx2NvEnc420_body o hf) rfl hB0 hB1 hr0 hr1 ly0 ly1 lu hux hlt) hw
  rw [nvRowDone2, nvSt2_zero] at h1
  obtain ⟨ux', h5⟩ := nvEncTail420_ok (avx2NvEnc420_body o hf) rfl hB0 hB1 hr0 hr1 ly0 ly1 lu h2 h3 h4
  refine ⟨ux', ?_⟩
  rw [avx2NvEncRow420, h1, Outcome.bind_ok]
  exact h5

theorem sseNvEncRow420_ok (o : NVOrder) (hf : FwdOk rg t) (hw : 0 < w)
    (hB0 : ∀ b ∈ rgba0, b < 256) (hB1 : ∀ b ∈ rgba1, b < 256)
    (hr0 : w * ch.count ≤ rgba0.length) (hr1 : w * ch.count ≤ rgba1.length) {d : Planes3}
    (ly0 : w ≤ d.1.length) (ly1 : w ≤ d.2.1.length) (lu : 2 * ((w - 1) / 2 + 1) ≤ d.2.2.length) :
    ∃ ux, sseNvEncRow420 o ch rg t w rgba0 rgba1 d 0 0
      = .ok (nvRowDone2 o ch rg t w rgba0 rgba1 d w, w, ux) := by
  obtain ⟨cx, c, h1, h2, h3, h4⟩ := nvEncLoop (step := 16) (ustep := 8) (hd := 2)
    (by omega) rfl (st := nvRowDone2 o ch rg t w rgba0 rgba1 d)
    (body := fun cx ux d => sseNvEnc420 o ch rg t rgba0 rgba1 (cx * ch.count) d cx ux)
    (fun cx ux hux hlt =>
      bodyNv2_step (sseNvEnc420_body o hf) rfl hB0 hB1 hr0 hr1 ly0 ly1 lu hux hlt) hw
  rw [nvRowDone2, nvSt2_zero] at h1
  obtain ⟨ux', h5⟩ := nvEncTail420_ok (sseNvEnc420_body o hf) rfl hB0 hB1 hr0 hr1 ly0 ly1 lu h2 h3 h4
  refine ⟨ux', ?_⟩
  rw [sseNvEncRow420, h1, Outcome.bind_ok]
  exact h5
end

end Verif.X86
