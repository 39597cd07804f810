import Verif.Model.X86Shuffle
import Verif.Spec.Shuffle
import Verif.Lemmas.X86Gray
/-! # The x86 kernels of the channel shuffles -/
namespace Verif.X86
open Spec

/-- The pixel in the other layout. -/
def shufPix (sc dc : Channels) (p : Buf) : Buf :=
  layout dc (red sc p) (green sc p) (blue sc p) (alphaOr 255 sc p)

theorem shufPix_length (sc dc : Channels) (p : Buf) : (shufPix sc dc p).length = dc.count :=
  layout_length' ..

/-! ## Loads -/

/-- The registers hold the components of the `n` pixels from `x0` on; alpha too. -/
def PixAt4 (ch : Channels) (c : Reg × Reg × Reg × Reg) (n : Nat) (l : Buf) (x0 : Nat) : Prop :=
  ∀ i, i < n → c.1 i = red ch (rowPx l ch.count (x0 + i)) ∧
    c.2.1 i = green ch (rowPx l ch.count (x0 + i)) ∧ c.2.2.1 i = blue ch (rowPx l ch.count (x0 + i)) ∧
    c.2.2.2 i = alphaOr 255 ch (rowPx l ch.count (x0 + i))

theorem avx2DeRgba_a (a b c d : Reg) {i : Nat} (h : i < 32) :
    (avx2DeRgba a b c d).2.2.2 i = cat 32 [a, b, c, d] (4 * i + 3) := by
  interval_cases i <;> rfl

theorem sseDeRgba_a (a b c d : Reg) {i : Nat} (h : i < 16) :
    (sseDeRgba a b c d).2.2.2 i = cat 16 [a, b, c, d] (4 * i + 3) := by
  interval_cases i <;> rfl

theorem rowPx_getD' {l : Buf} {cn x k d : Nat} (hk : k < cn) (h : x * cn + k < l.length) :
    (rowPx l cn x).getD k d = l.getD (x * cn + k) 0 := by
  simp only [rowPx, pixelAt, List.getD_eq_getElem?_getD, List.getElem?_take, hk, if_true,
    List.getElem?_drop]
  rw [show 0 * 0 + x * cn + k = x * cn + k by omega, List.getElem?_eq_getElem h]
  rfl

theorem pixAt4_of {ch : Channels} {c : Reg × Reg × Reg × Reg} {n : Nat} {l : Buf} {x0 : Nat}
    (hl : (x0 + n) * ch.count ≤ l.length)
    (h : PixAt ch (c.1, c.2.1, c.2.2.1) n l x0)
    (ha : ∀ i, i < n → match ch with
      | .rgb | .bgr => c.2.2.2 i = 255
      | .rgba | .bgra => c.2.2.2 i = l.getD (x0 * 4 + (4 * i + 3)) 0) :
    PixAt4 ch c n l x0 := by
  intro i hi
  obtain ⟨h1, h2, h3⟩ := h i hi
  refine ⟨h1, h2, h3, ?_⟩
  have := ha i hi
  cases ch <;> simp only [Channels.count] at this hl ⊢
  · exact this
  · rw [this, alphaOr, rowPx_getD' (by omega) (by omega)]; congr 1; omega
  · rw [this, alphaOr, rowPx_getD' (by omega) (by omega)]; congr 1; omega
  · exact this

theorem avx2Load4_at (ch : Channels) {l : Buf} {x0 : Nat} (h : (x0 + 32) * ch.count ≤ l.length) :
    ∃ c, avx2Load4 ch l (x0 * ch.count) = .ok c ∧ PixAt4 ch c 32 l x0 := by
  obtain ⟨c, e, hp⟩ := avx2Load_at ch h
  have h0 := h
  unfold avx2Load at e
  unfold avx2Load4
  cases ch
  all_goals
    simp only [Channels.count] at h e hp ⊢
    rw [load_ld (by omega), Outcome.bind_ok, load_ld (by omega), Outcome.bind_ok,
      load_ld (by omega), Outcome.bind_ok] at e ⊢
  · cases e
    exact ⟨_, rfl, pixAt4_of h0 hp fun i _ => rfl⟩
  · rw [load_ld (by omega), Outcome.bind_ok] at e ⊢
    cases e
    refine ⟨_, rfl, pixAt4_of h0 hp fun i hi => ?_⟩
    rw [avx2DeRgba_a _ _ _ _ hi]
    exact cat4 (n := 32) (by omega)
  · rw [load_ld (by omega), Outcome.bind_ok] at e ⊢
    cases e
    refine ⟨_, rfl, pixAt4_of h0 hp fun i hi => ?_⟩
    rw [avx2DeRgba_a _ _ _ _ hi]
    exact cat4 (n := 32) (by omega)
  · cases e
    exact ⟨_, rfl, pixAt4_of h0 hp fun i _ => rfl⟩

theorem sseLoad4_at (ch : Channels) {l : Buf} {x0 : Nat} (h : (x0 + 16) * ch.count ≤ l.length) :
    ∃ c, sseLoad4 ch l (x0 * ch.count) = .ok c ∧ PixAt4 ch c 16 l x0 := by
  obtain ⟨c, e, hp⟩ := sseLoad_at ch h
  have h0 := h
  unfold sseLoad at e
  unfold sseLoad4
  cases ch
  all_goals
    simp only [Channels.count] at h e hp ⊢
    rw [load_ld (by omega), Outcome.bind_ok, load_ld (by omega), Outcome.bind_ok,
      load_ld (by omega), Outcome.bind_ok] at e ⊢
  · cases e
    exact ⟨_, rfl, pixAt4_of h0 hp fun i _ => rfl⟩
  · rw [load_ld (by omega), Outcome.bind_ok] at e ⊢
    cases e
    refine ⟨_, rfl, pixAt4_of h0 hp fun i hi => ?_⟩
    rw [sseDeRgba_a _ _ _ _ hi]
    exact cat4 (n := 16) (by omega)
  · rw [load_ld (by omega), Outcome.bind_ok] at e ⊢
    cases e
    refine ⟨_, rfl, pixAt4_of h0 hp fun i hi => ?_⟩
    rw [sseDeRgba_a _ _ _ _ hi]
    exact cat4 (n := 16) (by omega)
  · cases e
    exact ⟨_, rfl, pixAt4_of h0 hp fun i _ => rfl⟩

theorem catHalf8_4 {l : Buf} {p i : Nat} (h : i < 32) :
    cat 16 [ld 16 l p, ld 16 l (p + 16), zero, zero] i = l.getD (p + i) 0 := by
  apply cat_cons (Nat.le_refl 16) (fun h => h)
  intro h1
  exact cat_cons (by decide) (fun _ => by omega) (fun _ => by omega)

theorem sseLoadHalf4_at (ch : Channels) {l : Buf} {x0 : Nat} (h : (x0 + 8) * ch.count ≤ l.length) :
    ∃ c, sseLoadHalf4 ch l (x0 * ch.count) = .ok c ∧ PixAt4 ch c 8 l x0 := by
  obtain ⟨c, e, hp⟩ := sseLoadHalf_at ch h
  have h0 := h
  unfold sseLoadHalf at e
  unfold sseLoadHalf4
  cases ch
  all_goals
    simp only [Channels.count] at h e hp ⊢
    rw [load_ld (by omega), Outcome.bind_ok, load_ld (by omega), Outcome.bind_ok] at e ⊢
  · cases e
    exact ⟨_, rfl, pixAt4_of h0 hp fun i _ => rfl⟩
  · cases e
    refine ⟨_, rfl, pixAt4_of h0 hp fun i hi => ?_⟩
    rw [sseDeRgba_a _ _ _ _ (by omega)]
    exact catHalf8_4 (by omega)
  · cases e
    refine ⟨_, rfl, pixAt4_of h0 hp fun i hi => ?_⟩
    rw [sseDeRgba_a _ _ _ _ (by omega)]
    exact catHalf8_4 (by omega)
  · cases e
    exact ⟨_, rfl, pixAt4_of h0 hp fun i _ => rfl⟩

/-! ## Steps -/

/-- A step shuffles the `n` pixels from `x0` on to byte `q`. -/
def ShufOk (n : Nat) (sc dc : Channels) (f : Buf → Nat → Nat → Buf → Outcome Buf) : Prop :=
  ∀ (src : Buf) (x0 q : Nat) (row : Buf), (x0 + n) * sc.count ≤ src.length →
    f src (x0 * sc.count) q row
      = put row q ((List.range n).flatMap fun j => shufPix sc dc (rowPx src sc.count (x0 + j)))

theorem pixels_shuf {sc dc : Channels} {c : Reg × Reg × Reg × Reg} {n : Nat} {l : Buf} {x0 : Nat}
    (h : PixAt4 sc c n l x0) : pixels dc n c.1 c.2.1 c.2.2.1 c.2.2.2
      = (List.range n).flatMap fun j => shufPix sc dc (rowPx l sc.count (x0 + j)) :=
  range_flatMap_congr fun j hj => by
    obtain ⟨h1, h2, h3, h4⟩ := h j hj
    rw [h1, h2, h3, h4]; rfl

theorem avx2Shuf_ok (sc dc : Channels) : ShufOk 32 sc dc (avx2Shuf sc dc) := by
  intro src x0 q row hl
  obtain ⟨c, e, hp⟩ := avx2Load4_at sc hl
  rw [avx2Shuf, e, Outcome.bind_ok, avx2Store_eq, pixels_shuf hp]

theorem sseShuf_ok (sc dc : Channels) : ShufOk 16 sc dc (sseShuf sc dc) := by
  intro src x0 q row hl
  obtain ⟨c, e, hp⟩ := sseLoad4_at sc hl
  rw [sseShuf, e, Outcome.bind_ok, sseStore_eq, pixels_shuf hp]

theorem sseShufHalf_ok (sc dc : Channels) : ShufOk 8 sc dc (sseShufHalf sc dc) := by
  intro src x0 q row hl
  obtain ⟨c, e, hp⟩ := sseLoadHalf4_at sc hl
  rw [sseShufHalf, e, Outcome.bind_ok, sseStoreHalf_eq, pixels_shuf hp]

/-- Both layouts have four channels and differ. -/
def Swap (sc dc : Channels) : Prop := (sc = .rgba ∧ dc = .bgra) ∨ (sc = .bgra ∧ dc = .rgba)

theorem swap_bytes (a : Reg) {n : Nat} (hn : n = 2 ∨ n = 4 ∨ n = 8) :
    bytes (n * 4) (shuffle8 a (setr8 (swapTable ++ swapTable)))
      = (List.range n).flatMap fun j => [a (4 * j + 2), a (4 * j + 1), a (4 * j), a (4 * j + 3)] := by
  rcases hn with rfl | rfl | rfl <;> rfl

theorem swap_bytes_ld {sc dc : Channels} (h : Swap sc dc) {n : Nat} (hn : n = 2 ∨ n = 4 ∨ n = 8)
    {src : Buf} {x0 : Nat} (hl : (x0 + n) * 4 ≤ src.length) :
    bytes (n * 4) (shuffle8 (ld (n * 4) src (x0 * 4)) (setr8 (qTable sc dc ++ qTable sc dc)))
      = (List.range n).flatMap fun j => shufPix sc dc (rowPx src sc.count (x0 + j)) := by
  have ht : qTable sc dc = swapTable := by rcases h with ⟨rfl, rfl⟩ | ⟨rfl, rfl⟩ <;> rfl
  have hc : sc.count = 4 := by rcases h with ⟨rfl, rfl⟩ | ⟨rfl, rfl⟩ <;> rfl
  rw [ht, swap_bytes _ hn, hc]
  refine range_flatMap_congr fun j hj => ?_
  have key : ∀ k d, k < 4 → (rowPx src 4 (x0 + j)).getD k d = ld (n * 4) src (x0 * 4) (4 * j + k) := by
    intro k d hk
    rw [rowPx_getD' hk (by omega), ld_at (by omega)]; congr 1; omega
  have k0 := key 0 0 (by omega)
  rcases h with ⟨rfl, rfl⟩ | ⟨rfl, rfl⟩ <;>
    simp only [shufPix, layout, red, green, blue, alphaOr, k0, key _ _ (show 1 < 4 by omega),
      key _ _ (show 2 < 4 by omega), key _ _ (show 3 < 4 by omega), Nat.add_zero]

theorem qStep_ok {sc dc : Channels} (h : Swap sc dc) {n : Nat} (hn : n = 2 ∨ n = 4 ∨ n = 8) :
    ShufOk n sc dc (qStep (n * 4) (qTable sc dc)) := by
  have hc : sc.count = 4 := by rcases h with ⟨rfl, rfl⟩ | ⟨rfl, rfl⟩ <;> rfl
  intro src x0 q row hl
  rw [hc] at hl
  have := swap_bytes_ld h hn hl
  rw [qStep, hc, load_ld (by omega), Outcome.bind_ok, store, this, hc]

theorem qStep4_ok {sc dc : Channels} (h : Swap sc dc) {n : Nat} (hn : n = 2 ∨ n = 4 ∨ n = 8) :
    ShufOk (n * 4) sc dc (qStep4 (n * 4) (qTable sc dc)) := by
  have hc : sc.count = 4 := by rcases h with ⟨rfl, rfl⟩ | ⟨rfl, rfl⟩ <;> rfl
  have hd : dc.count = 4 := by rcases h with ⟨rfl, rfl⟩ | ⟨rfl, rfl⟩ <;> rfl
  intro src x0 q row hl
  rw [hc] at hl
  have e : ∀ k, x0 * 4 + k * (n * 4) = (x0 + k * n) * 4 := by intro k; ring
  have e0 := swap_bytes_ld h hn (src := src) (x0 := x0) (by omega)
  have e1 := swap_bytes_ld h hn (src := src) (x0 := x0 + n) (by omega)
  have e2 := swap_bytes_ld h hn (src := src) (x0 := x0 + 2 * n) (by omega)
  have e3 := swap_bytes_ld h hn (src := src) (x0 := x0 + 3 * n) (by omega)
  have f1 : x0 * 4 + n * 4 = (x0 + n) * 4 := by ring
  rw [qStep4, hc, e 2, e 3, f1, load_ld (by omega), Outcome.bind_ok, load_ld (by omega),
    Outcome.bind_ok, load_ld (by omega), Outcome.bind_ok, load_ld (by omega), Outcome.bind_ok]
  simp only [store]
  rw [e0, e1, e2, e3, hc]
  have sp : ((List.range (n * 4)).flatMap fun j => shufPix sc dc (rowPx src 4 (x0 + j)))
      = (((List.range n).flatMap fun j => shufPix sc dc (rowPx src 4 (x0 + j)))
        ++ ((List.range n).flatMap fun j => shufPix sc dc (rowPx src 4 (x0 + n + j)))
        ++ ((List.range n).flatMap fun j => shufPix sc dc (rowPx src 4 (x0 + 2 * n + j))))
        ++ ((List.range n).flatMap fun j => shufPix sc dc (rowPx src 4 (x0 + 3 * n + j))) := by
    rw [show n * 4 = n + n + n + n by ring, range_add_flatMap, range_add_flatMap, range_add_flatMap]
    simp only [Nat.add_assoc, show 2 * n = n + n by ring, show 3 * n = n + (n + n) by ring]
  have len : ∀ (f : Nat → Nat), ((List.range n).flatMap fun j =>
      shufPix sc dc (rowPx src 4 (f j))).length = n * 4 :=
    fun f => by rw [flatMap_length fun _ _ => shufPix_length .., hd]
  rw [sp, ← put_put _ _ (q + 3 * (n * 4)) _ _ (by simp only [List.length_append, len]; ring),
    ← put_put _ _ (q + 2 * (n * 4)) _ _ (by simp only [List.length_append, len]; ring),
    ← put_put _ _ (q + n * 4) _ _ (by simp only [len]), bind_assoc', bind_assoc']

/-! ## Rows -/

theorem chunkGo_ok {sc dc : Channels} {n : Nat} {f : Buf → Nat → Nat → Buf → Outcome Buf}
    (hf : ShufOk n sc dc f) {src row : Buf} {w : Nat} (hl : w * sc.count ≤ src.length)
    (hr : w * dc.count ≤ row.length) : ∀ k x, x + k * n ≤ w →
    chunkGo (n * sc.count) (n * dc.count) (f src) k (x * sc.count) (x * dc.count)
        (painted dc.count (fun x => shufPix sc dc (rowPx src sc.count x)) x row)
      = .ok (painted dc.count (fun x => shufPix sc dc (rowPx src sc.count x)) (x + k * n) row)
  | 0, x, _ => by rw [chunkGo]; simp
  | k + 1, x, h => by
    rw [Nat.add_mul, Nat.one_mul] at h
    rw [chunkGo, hf _ _ _ _ (Nat.le_trans (Nat.mul_le_mul_right _ (by omega)) hl),
      painted_put (pix := fun x => shufPix sc dc (rowPx src sc.count x)) (fun _ => shufPix_length ..)
        (Nat.le_trans (Nat.mul_le_mul_right _ (by omega)) hr),
      Outcome.bind_ok, ← Nat.add_mul, ← Nat.add_mul, chunkGo_ok hf hl hr k (x + n) (by omega)]
    congr 2; ring

theorem rem_div {w x n cn len : Nat} (hcn : 0 < cn) (hl : len = w * cn) :
    (len - x * cn) / (n * cn) = (w - x) / n := by
  rw [hl, ← Nat.sub_mul, Nat.mul_div_mul_right _ _ hcn]

theorem chunkLoop_ok {sc dc : Channels} {n : Nat} (hn : 0 < n)
    {f : Buf → Nat → Nat → Buf → Outcome Buf}
    (hf : ShufOk n sc dc f) {src row : Buf} {w : Nat} (hl : src.length = w * sc.count)
    (hr : row.length = w * dc.count) {x : Nat} (hx : x ≤ w) :
    ∃ x', chunkLoop (n * sc.count) (n * dc.count) (f src) src.length
        (painted dc.count (fun x => shufPix sc dc (rowPx src sc.count x)) x row,
          x * sc.count, x * dc.count)
      = .ok (painted dc.count (fun x => shufPix sc dc (rowPx src sc.count x)) x' row,
          x' * sc.count, x' * dc.count) ∧ x' ≤ w ∧ w < x' + n := by
  have hd : ((painted dc.count (fun x => shufPix sc dc (rowPx src sc.count x)) x row).length
      - x * dc.count) / (n * dc.count) = (w - x) / n :=
    rem_div (count_pos dc) (by
      rw [painted_length (fun _ => shufPix_length ..) (by rw [hr]; exact Nat.mul_le_mul_right _ hx), hr])
  have hm := Nat.div_mul_le_self (w - x) n
  have hlt := Nat.lt_div_mul_add (a := w - x) hn
  refine ⟨x + (w - x) / n * n, ?_, by omega, by omega⟩
  simp only [chunkLoop, hd, rem_div (count_pos sc) hl, Nat.min_self]
  rw [chunkGo_ok hf (Nat.le_of_eq hl.symm) (Nat.le_of_eq hr.symm) _ _ (by omega), Outcome.bind_ok]
  simp only [Nat.add_mul, Nat.mul_assoc]
  rfl

theorem chunkTail_ok {sc dc : Channels} {n N lim : Nat} {f : Buf → Nat → Nat → Buf → Outcome Buf}
    (hf : ShufOk n sc dc f) {src row : Buf} {w : Nat} (hl : src.length = w * sc.count)
    (hr : row.length = w * dc.count) {x : Nat} (hx : x ≤ w) (hx' : w < x + n)
    (hN : n * sc.count ≤ N) (hN' : n * dc.count ≤ N) (hlim : n * sc.count ≤ lim)
    (hlim' : n * dc.count ≤ lim) :
    chunkTail N lim (fun sb db => f sb 0 0 db) src
        (painted dc.count (fun x => shufPix sc dc (rowPx src sc.count x)) x row,
          x * sc.count, x * dc.count)
      = .ok (painted dc.count (fun x => shufPix sc dc (rowPx src sc.count x)) w row) := by
  have hps := count_pos sc
  have hpd := count_pos dc
  have hpl : (painted dc.count (fun x => shufPix sc dc (rowPx src sc.count x)) x row).length
      = w * dc.count := by
    rw [painted_length (fun _ => shufPix_length ..) (by rw [hr]; exact Nat.mul_le_mul_right _ hx), hr]
  unfold chunkTail
  simp only [hpl, hl, ← Nat.sub_mul]
  by_cases hc : x = w
  · subst hc
    rw [if_neg (by simp)]
  · have h1 : (w - x) * sc.count < n * sc.count := Nat.mul_lt_mul_of_pos_right (by omega) hps
    have h2 : (w - x) * dc.count < n * dc.count := Nat.mul_lt_mul_of_pos_right (by omega) hpd
    rw [if_pos ⟨Nat.mul_ne_zero (by omega) (by omega), Nat.mul_ne_zero (by omega) (by omega)⟩,
      if_neg (by omega), if_neg (by omega)]
    have e1 : x * sc.count + (w - x) * sc.count = w * sc.count := by
      rw [← Nat.add_mul]; congr 1; omega
    obtain ⟨sb, es, ls, s1, s2⟩ := copyIn_ok (src := src) (dst := List.replicate N 0)
      (p := x * sc.count) (n := (w - x) * sc.count) (by omega) (by rw [List.length_replicate]; omega)
    rw [List.length_replicate] at ls
    have e2 := hf sb 0 0 (List.replicate N 0) (by rw [Nat.zero_add]; omega)
    rw [Nat.zero_mul] at e2
    obtain ⟨b, e3, e4⟩ := buf_copyOut (N := n) (L := N) (cn := dc.count) hN'
      (f := fun j => shufPix sc dc (rowPx sb sc.count (0 + j))) (fun _ => shufPix_length ..)
    rw [es, Outcome.bind_ok, e2, e3, Outcome.bind_ok, e4 _ _ _ (by omega)]
    have e5 : ((List.range (w - x)).flatMap fun j => shufPix sc dc (rowPx sb sc.count (0 + j)))
        = (List.range (w - x)).flatMap fun j => shufPix sc dc (rowPx src sc.count (x + j)) := by
      refine range_flatMap_congr fun j hj => ?_
      rw [Nat.zero_add, rowPx_copy (a := src) (b := sb) (n := w - x) (x0 := x) (by omega) (by omega)
        s1 hj]
    rw [e5, painted_put (pix := fun x => shufPix sc dc (rowPx src sc.count x))
      (fun _ => shufPix_length ..) (by rw [Nat.add_sub_cancel' hx, hr]), Nat.add_sub_cancel' hx]

variable {sc dc : Channels} {src row : Buf} {w : Nat}

theorem avx2ShufRow_ok (hl : src.length = w * sc.count) (hr : row.length = w * dc.count) :
    avx2ShufRow sc dc src row
      = .ok (painted dc.count (fun x => shufPix sc dc (rowPx src sc.count x)) w row) := by
  obtain ⟨x, e, h1, h2⟩ := chunkLoop_ok (by decide) (avx2Shuf_ok sc dc) hl hr (Nat.zero_le w)
  rw [painted_zero, Nat.zero_mul, Nat.zero_mul] at e
  rw [avx2ShufRow, e, Outcome.bind_ok]
  have := count_le sc
  have := count_le dc
  exact chunkTail_ok (avx2Shuf_ok sc dc) hl hr h1 h2 (by omega) (by omega) (by omega) (by omega)

theorem sseShufRow_ok (hl : src.length = w * sc.count) (hr : row.length = w * dc.count) :
    sseShufRow sc dc src row
      = .ok (painted dc.count (fun x => shufPix sc dc (rowPx src sc.count x)) w row) := by
  obtain ⟨x, e, h1, -⟩ := chunkLoop_ok (by decide) (sseShuf_ok sc dc) hl hr (Nat.zero_le w)
  obtain ⟨x', e', h1', h2'⟩ := chunkLoop_ok (by decide) (sseShufHalf_ok sc dc) hl hr h1
  rw [painted_zero, Nat.zero_mul, Nat.zero_mul] at e
  rw [sseShufRow, e, Outcome.bind_ok, e', Outcome.bind_ok]
  have := count_le sc
  have := count_le dc
  exact chunkTail_ok (sseShufHalf_ok sc dc) hl hr h1' h2' (by omega) (by omega) (by omega) (by omega)

theorem avx2QRow_ok (h : Swap sc dc) (hl : src.length = w * sc.count) (hr : row.length = w * dc.count) :
    avx2QRow sc dc src row
      = .ok (painted dc.count (fun x => shufPix sc dc (rowPx src sc.count x)) w row) := by
  have hc : sc.count = 4 := by rcases h with ⟨rfl, rfl⟩ | ⟨rfl, rfl⟩ <;> rfl
  have hd : dc.count = 4 := by rcases h with ⟨rfl, rfl⟩ | ⟨rfl, rfl⟩ <;> rfl
  have s1 := qStep4_ok h (n := 8) (.inr (.inr rfl))
  have s2 := qStep_ok h (n := 8) (.inr (.inr rfl))
  obtain ⟨x, e, h1, -⟩ := chunkLoop_ok (by decide) s1 hl hr (Nat.zero_le w)
  obtain ⟨x', e', h1', h2'⟩ := chunkLoop_ok (by decide) s2 hl hr h1
  have e'' := chunkTail_ok (N := 32) (lim := 32) s2 hl hr h1' h2' (by omega) (by omega) (by omega)
    (by omega)
  rw [painted_zero, Nat.zero_mul, Nat.zero_mul] at e
  simp only [hc, hd] at e e' e'' ⊢
  rw [avx2QRow, e, Outcome.bind_ok, e', Outcome.bind_ok, e'']

theorem sseQRow_ok (h : Swap sc dc) (hl : src.length = w * sc.count) (hr : row.length = w * dc.count) :
    sseQRow sc dc src row
      = .ok (painted dc.count (fun x => shufPix sc dc (rowPx src sc.count x)) w row) := by
  have hc : sc.count = 4 := by rcases h with ⟨rfl, rfl⟩ | ⟨rfl, rfl⟩ <;> rfl
  have hd : dc.count = 4 := by rcases h with ⟨rfl, rfl⟩ | ⟨rfl, rfl⟩ <;> rfl
  have s1 := qStep4_ok h (n := 4) (.inr (.inl rfl))
  have s2 := qStep_ok h (n := 4) (.inr (.inl rfl))
  have s3 := qStep_ok h (n := 2) (.inl rfl)
  obtain ⟨x, e, h1, -⟩ := chunkLoop_ok (by decide) s1 hl hr (Nat.zero_le w)
  obtain ⟨x', e', h1', -⟩ := chunkLoop_ok (by decide) s2 hl hr h1
  obtain ⟨x3, e3, h3, h4⟩ := chunkLoop_ok (by decide) s3 hl hr h1'
  have e'' := chunkTail_ok (N := 16) (lim := 16) s3 hl hr h3 h4 (by omega) (by omega) (by omega)
    (by omega)
  rw [painted_zero, Nat.zero_mul, Nat.zero_mul] at e
  simp only [hc, hd] at e e' e3 e'' ⊢
  rw [sseQRow, e, Outcome.bind_ok, e', Outcome.bind_ok, e3, Outcome.bind_ok, e'']

theorem shuffleHandler_fills (cpu : Cpu) (hne : sc ≠ dc) {s : Src}
    (hs : s.cn = sc.count) (hcut : s.cut = true) :
    (shuffleHandler cpu sc dc w).FillsLen (w * dc.count) 256 w dc.count [s]
      (fun px => shufPix sc dc (px.getD 0 []))
      (fun _ px p => p = shufPix sc dc (px.getD 0 [])) := by
  intro rows row h1 h2 h2' h3 h4
  obtain ⟨src, rfl⟩ := rows_one h1
  have hl := h2' s src (by simp) hcut
  rw [hs] at hl
  have hsw : (sc.count = 4 ∧ dc.count = 4) → Swap sc dc := by
    unfold Swap
    revert hne
    cases sc <;> cases dc <;> simp [Channels.count]
  have fin : shuffleHandler cpu sc dc w [src] row
        = .ok (painted dc.count (fun x => shufPix sc dc (rowPx src sc.count x)) w row, w) →
      ∃ row' cx, shuffleHandler cpu sc dc w [src] row = .ok (row', cx) ∧
        RowDone dc.count w 1 (fun x p => p = shufPix sc dc ((Verif.pixels [s] [src] x).getD 0 []))
          row row' cx ∧
        ∀ x, cx ≤ x → x < w → shufPix sc dc ((Verif.pixels [s] [src] x).getD 0 [])
          = shufPix sc dc ((Verif.pixels [s] [src] x).getD 0 []) := by
    intro e
    refine ⟨_, w, e, painted_done (count_pos dc) (fun _ => shufPix_length ..) h3 (le_refl _) (.inr rfl)
      fun x hx => ?_, fun _ _ _ => rfl⟩
    show _ = shufPix _ _ _
    rw [rowPx_eq]
    simp only [Verif.pixels, List.zipWith_cons_cons, List.getD_cons_zero, hs]
  cases cpu with
  | avx2 =>
    refine fin ?_
    simp only [shuffleHandler, List.getD_cons_zero]
    split
    · next h => rw [avx2QRow_ok (hsw h) hl h4]; rfl
    · rw [avx2ShufRow_ok hl h4]; rfl
  | sse41 =>
    refine fin ?_
    simp only [shuffleHandler, List.getD_cons_zero]
    split
    · next h => rw [sseQRow_ok (hsw h) hl h4]; rfl
    · rw [sseShufRow_ok hl h4]; rfl
  | plain =>
    obtain ⟨row', cx, e, hd⟩ := noMap_ok (B := 256) (R := fun _ _ => False) [src] row h1 h2 h3
    exact ⟨row', cx, e, rowDone_imp hd fun _ _ _ h => h.elim, fun _ _ _ => rfl⟩

end Verif.X86
