import Verif.Model.NeonEncode
import Verif.Spec.NeonEncode
import Verif.Lemmas.X86Fast
import Verif.Lemmas.X86EncArith
import Verif.Lemmas.Neon
/-! # The steps of the encoders with NEON -/
namespace Verif.Neon
open X86 Spec

/-! ## Loads -/

theorem loadRgb_at (n : Nat) (ch : Channels) {l : Buf} {x0 : Nat} (hb : ∀ b ∈ l, b < 256)
    (hl : (x0 + n) * ch.count ≤ l.length) :
    ∃ c, loadRgb n ch l (x0 * ch.count) = .ok c ∧ HoldsPx ch n c fun j => rowPx l ch.count (x0 + j) := by
  have lt : ∀ i, l.getD i 0 < 256 := fun i => by
    rw [List.getD_eq_getElem?_getD]
    cases h : l[i]? with
    | none => simp
    | some v => simpa using hb v (List.mem_of_getElem? h)
  have hl' : x0 * ch.count + n * ch.count ≤ l.length := by rw [← Nat.add_mul]; exact hl
  have e4 : ∀ j k, x0 * 4 + (4 * j + k) = (x0 + j) * 4 + k := fun j k => by omega
  have e3 : ∀ j k, x0 * 3 + (3 * j + k) = (x0 + j) * 3 + k := fun j k => by omega
  have at4 : ∀ j k, j < n → k < 4 →
      ld (n * 4) l (x0 * 4) (4 * j + k) = (rowPx l 4 (x0 + j)).getD k 0 := fun j k hj hk => by
    rw [ld_at (by omega), rowPx_getD hk, e4]
  have at3 : ∀ j k, j < n → k < 3 →
      ld (n * 3) l (x0 * 3) (3 * j + k) = (rowPx l 3 (x0 + j)).getD k 0 := fun j k hj hk => by
    rw [ld_at (by omega), rowPx_getD hk, e3]
  have lt4 : ∀ j k, k < 4 → (rowPx l 4 (x0 + j)).getD k 0 < 256 := fun j k hk => by
    rw [rowPx_getD hk]; exact lt _
  have lt3 : ∀ j k, k < 3 → (rowPx l 3 (x0 + j)).getD k 0 < 256 := fun j k hk => by
    rw [rowPx_getD hk]; exact lt _
  cases ch <;> simp only [Channels.count] at hl' ⊢ <;>
    simp only [loadRgb, Channels.count, load_ld hl', Outcome.bind_ok] <;>
    refine ⟨_, rfl, fun j hj => ?_⟩ <;> simp only [red, green, blue]
  case rgb => exact ⟨⟨at3 j 0 hj (by omega), lt3 j 0 (by omega)⟩, ⟨at3 j 1 hj (by omega), lt3 j 1 (by omega)⟩,
    at3 j 2 hj (by omega), lt3 j 2 (by omega)⟩
  case bgr => exact ⟨⟨at3 j 2 hj (by omega), lt3 j 2 (by omega)⟩, ⟨at3 j 1 hj (by omega), lt3 j 1 (by omega)⟩,
    at3 j 0 hj (by omega), lt3 j 0 (by omega)⟩
  case rgba => exact ⟨⟨at4 j 0 hj (by omega), lt4 j 0 (by omega)⟩, ⟨at4 j 1 hj (by omega), lt4 j 1 (by omega)⟩,
    at4 j 2 hj (by omega), lt4 j 2 (by omega)⟩
  case bgra => exact ⟨⟨at4 j 2 hj (by omega), lt4 j 2 (by omega)⟩, ⟨at4 j 1 hj (by omega), lt4 j 1 (by omega)⟩,
    at4 j 0 hj (by omega), lt4 j 0 (by omega)⟩

theorem bytes_zip {r f g : Reg} (m : Nat) (h : ∀ j, j < m → r (2 * j) = f j ∧ r (2 * j + 1) = g j) :
    bytes (2 * m) r = (List.range m).flatMap fun j => [f j, g j] := by
  induction m with
  | zero => rfl
  | succ m ih =>
    have e := h m (by omega)
    unfold bytes at *
    rw [show 2 * (m + 1) = 2 * m + 1 + 1 by omega, List.range_succ, List.range_succ, List.range_succ,
      List.map_append, List.map_append, List.flatMap_append, ih fun j hj => h j (by omega)]
    simp only [List.map_cons, List.map_nil, List.flatMap_cons, List.flatMap_nil, e.1, e.2,
      List.append_assoc, List.cons_append, List.nil_append]

/-! ## From the arithmetic to the step -/

/-- The arithmetic of a step of `n` pixels computes `L`, `U` and `V` of the means of the components. -/
structure ArithOk (n : Nat) (a : Arith) (L U V : Nat → Nat → Nat → Nat) (one : Nat → Nat)
    (two : Nat → Nat → Nat) (four : Nat → Nat → Nat → Nat → Nat) : Prop where
  luma : ∀ c R G B, Chans c n R G B → ∀ i, i < n → a.luma c i = L (one (R i)) (one (G i)) (one (B i))
  cb : ∀ c R G B, Chans c n R G B → ∀ i, i < n → a.cb c i = U (one (R i)) (one (G i)) (one (B i))
  cr : ∀ c R G B, Chans c n R G B → ∀ i, i < n → a.cr c i = V (one (R i)) (one (G i)) (one (B i))
  cbPairs : ∀ c R G B, Chans c n R G B → ∀ i, i < n / 2 → a.cbPairs c i
    = U (two (R (2 * i)) (R (2 * i + 1))) (two (G (2 * i)) (G (2 * i + 1))) (two (B (2 * i)) (B (2 * i + 1)))
  crPairs : ∀ c R G B, Chans c n R G B → ∀ i, i < n / 2 → a.crPairs c i
    = V (two (R (2 * i)) (R (2 * i + 1))) (two (G (2 * i)) (G (2 * i + 1))) (two (B (2 * i)) (B (2 * i + 1)))
  cbRows : ∀ c R G B d R' G' B', Chans c n R G B → Chans d n R' G' B' → ∀ i, i < n / 2 → a.cbRows c d i
    = U (four (R (2 * i)) (R (2 * i + 1)) (R' (2 * i)) (R' (2 * i + 1)))
        (four (G (2 * i)) (G (2 * i + 1)) (G' (2 * i)) (G' (2 * i + 1)))
        (four (B (2 * i)) (B (2 * i + 1)) (B' (2 * i)) (B' (2 * i + 1)))
  crRows : ∀ c R G B d R' G' B', Chans c n R G B → Chans d n R' G' B' → ∀ i, i < n / 2 → a.crRows c d i
    = V (four (R (2 * i)) (R (2 * i + 1)) (R' (2 * i)) (R' (2 * i + 1)))
        (four (G (2 * i)) (G (2 * i + 1)) (G' (2 * i)) (G' (2 * i + 1)))
        (four (B (2 * i)) (B (2 * i + 1)) (B' (2 * i)) (B' (2 * i + 1)))

/-- The channels of one row that hold the components of `n` pixels. -/
def Holds1 (ch : Channels) (n : Nat) (c : Rgb × Option Rgb) (p : Nat → Buf) : Prop :=
  HoldsPx ch n c.1 p ∧ c.2 = none

theorem part_ok {n : Nat} {a : Arith} {L U V : Nat → Nat → Nat → Nat} {one : Nat → Nat}
    {two : Nat → Nat → Nat} {four : Nat → Nat → Nat → Nat → Nat}
    (h : ArithOk n a L U V one two four) (ch : Channels) (he : n % 2 = 0) (h0 : 0 < n) :
    PartOk (part n ch a) ch (meanVals ch L U V one two four) (Holds1 ch n) where
  even := he
  pos := h0
  uvBuf := by simp only [part]; omega
  load src x0 hb hl := by
    obtain ⟨c, e, hc⟩ := loadRgb_at n ch (l := src) (x0 := x0) hb hl
    refine ⟨(c, none), ?_, hc, rfl⟩
    simp only [part, e, Outcome.bind_ok]
    rfl
  luma c p hc i hi := h.luma _ _ _ _ hc.1 i hi
  cb c p hc i hi := h.cb _ _ _ _ hc.1 i hi
  cr c p hc i hi := h.cr _ _ _ _ hc.1 i hi
  cbPairs c p hc i hi := by
    obtain ⟨c, o⟩ := c
    obtain ⟨hc, rfl⟩ := hc
    exact h.cbPairs _ _ _ _ hc i hi
  crPairs c p hc i hi := by
    obtain ⟨c, o⟩ := c
    obtain ⟨hc, rfl⟩ := hc
    exact h.crPairs _ _ _ _ hc i hi
  cbRows c p d q hc hd i hi := h.cbRows _ _ _ _ _ _ _ _ hc.1 hd.1 i hi
  crRows c p d q hc hd i hi := h.crRows _ _ _ _ _ _ _ _ hc.1 hd.1 i hi
  inter1 a b := by
    obtain ⟨m, rfl⟩ : ∃ m, n = 2 * m := ⟨n / 2, by omega⟩
    simp only [part, show 2 * m / 2 = m by omega]
    exact bytes_zip m fun j hj => by
      simp only [zip1]
      exact ⟨by rw [if_pos (by omega), show 2 * j / 2 = j by omega],
        by rw [if_neg (by omega), show (2 * j + 1) / 2 = j by omega]⟩
  inter2 a b := by
    obtain ⟨m, rfl⟩ : ∃ m, n = 2 * m := ⟨n / 2, by omega⟩
    simp only [part]
    rw [bytes_zip (f := a) (g := b) m fun j hj => by
      simp only [zip1]
      exact ⟨by rw [if_pos (by omega), show 2 * j / 2 = j by omega],
        by rw [if_neg (by omega), show (2 * j + 1) / 2 = j by omega]⟩,
      bytes_zip (f := fun j => a (m + j)) (g := fun j => b (m + j)) m fun j hj => by
        simp only [zip2, show 2 * m / 2 = m by omega]
        exact ⟨by rw [if_pos (by omega), show 2 * j / 2 = j by omega],
          by rw [if_neg (by omega), show (2 * j + 1) / 2 = j by omega]⟩,
      show 2 * m = m + m by omega, List.range_add, List.flatMap_append, List.flatMap_map]

/-! ## Lanes -/

/-- `dot` computes `f` of what the lanes hold. -/
def DotAt (Ln : Reg → Nat → Nat → Prop) (M : Nat) (dot : Rgb → Reg) (f : Nat → Nat → Nat → Nat) : Prop :=
  ∀ c j r g b, j < 8 → r ≤ M → g ≤ M → b ≤ M → Ln c.1 j r → Ln c.2.1 j g → Ln c.2.2 j b → dot c j = f r g b

/-- Lane `j` of words. -/
def Word (a : Reg) (j x : Nat) : Prop := s16 a j = x
/-- Lane `j` of bytes. -/
def Byte (a : Reg) (j x : Nat) : Prop := a j = x

section
variable {Ln : Reg → Nat → Nat → Prop} {M : Nat} {f : Nat → Nat → Nat → Nat}

theorem bytes16_at {w : Nat → Reg → Reg} {one : Nat → Nat} {dlo dhi : Rgb → Reg}
    (hw : ∀ o a k x, a (o + k) = x → x < 256 → Ln (w o a) k (one x)) (h1 : ∀ x, x < 256 → one x ≤ M)
    (hlo : DotAt Ln M dlo f) (hhi : DotAt Ln M dhi f) (c R G B) (hc : Chans c 16 R G B) (i) (hi : i < 16) :
    bytes16 w dlo dhi c i = f (one (R i)) (one (G i)) (one (B i)) := by
  obtain ⟨⟨r, lr⟩, ⟨g, lg⟩, b, lb⟩ := hc i hi
  unfold bytes16 combine each
  by_cases h : i < 8
  · rw [if_pos h]
    exact hlo _ i _ _ _ h (h1 _ lr) (h1 _ lg) (h1 _ lb) (hw _ _ _ _ (by rw [Nat.zero_add]; exact r) lr)
      (hw _ _ _ _ (by rw [Nat.zero_add]; exact g) lg) (hw _ _ _ _ (by rw [Nat.zero_add]; exact b) lb)
  · rw [if_neg h]
    have e : 8 + (i - 8) = i := by omega
    exact hhi _ (i - 8) _ _ _ (by omega) (h1 _ lr) (h1 _ lg) (h1 _ lb) (hw _ _ _ _ (by rw [e]; exact r) lr)
      (hw _ _ _ _ (by rw [e]; exact g) lg) (hw _ _ _ _ (by rw [e]; exact b) lb)

theorem bytes8_at {w : Reg → Reg} {one : Nat → Nat} {dot : Rgb → Reg}
    (hw : ∀ a k x, a k = x → x < 256 → Ln (w a) k (one x)) (h1 : ∀ x, x < 256 → one x ≤ M)
    (hd : DotAt Ln M dot f) (c R G B) (hc : Chans c 8 R G B) (i) (hi : i < 8) :
    dot (each w c) i = f (one (R i)) (one (G i)) (one (B i)) := by
  obtain ⟨⟨r, lr⟩, ⟨g, lg⟩, b, lb⟩ := hc i hi
  exact hd _ i _ _ _ hi (h1 _ lr) (h1 _ lg) (h1 _ lb) (hw _ _ _ r lr) (hw _ _ _ g lg) (hw _ _ _ b lb)

theorem pairs_at {n : Nat} (hn : n ≤ 16) {p : Reg → Reg} {two : Nat → Nat → Nat} {dot : Rgb → Reg}
    (hp : ∀ a k x y, a (2 * k) = x → a (2 * k + 1) = y → x < 256 → y < 256 → Ln (p a) k (two x y))
    (h2 : ∀ x y, x < 256 → y < 256 → two x y ≤ M)
    (hd : DotAt Ln M dot f) (c R G B) (hc : Chans c n R G B) (i) (hi : i < n / 2) :
    dot (each p c) i = f (two (R (2 * i)) (R (2 * i + 1))) (two (G (2 * i)) (G (2 * i + 1)))
      (two (B (2 * i)) (B (2 * i + 1))) := by
  obtain ⟨⟨r, lr⟩, ⟨g, lg⟩, b, lb⟩ := hc (2 * i) (by omega)
  obtain ⟨⟨r', lr'⟩, ⟨g', lg'⟩, b', lb'⟩ := hc (2 * i + 1) (by omega)
  exact hd _ i _ _ _ (by omega) (h2 _ _ lr lr') (h2 _ _ lg lg') (h2 _ _ lb lb') (hp _ _ _ _ r r' lr lr')
    (hp _ _ _ _ g g' lg lg') (hp _ _ _ _ b b' lb lb')

theorem rows_at {n : Nat} (hn : n ≤ 16) {p : Reg → Reg → Reg} {four : Nat → Nat → Nat → Nat → Nat}
    {dot : Rgb → Reg}
    (hp : ∀ a a' k x y x' y', a (2 * k) = x → a (2 * k + 1) = y → a' (2 * k) = x' → a' (2 * k + 1) = y' →
      x < 256 → y < 256 → x' < 256 → y' < 256 → Ln (p a a') k (four x y x' y'))
    (h4 : ∀ x y x' y', x < 256 → y < 256 → x' < 256 → y' < 256 → four x y x' y' ≤ M)
    (hd : DotAt Ln M dot f) (c R G B d R' G' B') (hc : Chans c n R G B) (hc' : Chans d n R' G' B') (i)
    (hi : i < n / 2) :
    dot (each2 p c d) i = f (four (R (2 * i)) (R (2 * i + 1)) (R' (2 * i)) (R' (2 * i + 1)))
        (four (G (2 * i)) (G (2 * i + 1)) (G' (2 * i)) (G' (2 * i + 1)))
        (four (B (2 * i)) (B (2 * i + 1)) (B' (2 * i)) (B' (2 * i + 1))) := by
  obtain ⟨⟨r, lr⟩, ⟨g, lg⟩, b, lb⟩ := hc (2 * i) (by omega)
  obtain ⟨⟨r', lr'⟩, ⟨g', lg'⟩, b', lb'⟩ := hc (2 * i + 1) (by omega)
  obtain ⟨⟨s, ls⟩, ⟨t, lt⟩, u, lu⟩ := hc' (2 * i) (by omega)
  obtain ⟨⟨s', ls'⟩, ⟨t', lt'⟩, u', lu'⟩ := hc' (2 * i + 1) (by omega)
  exact hd _ i _ _ _ (by omega) (h4 _ _ _ _ lr lr' ls ls') (h4 _ _ _ _ lg lg' lt lt')
    (h4 _ _ _ _ lb lb' lu lu') (hp _ _ _ _ _ _ _ r r' s s' lr lr' ls ls')
    (hp _ _ _ _ _ _ _ g g' t t' lg lg' lt lt') (hp _ _ _ _ _ _ _ b b' u u' lb lb' lu lu')

theorem DotAt.perm {p : Rgb → Rgb} {dot : Rgb → Reg} {g : Nat → Nat → Nat → Nat}
    (h : ∀ c j r g' b, j < 8 → r ≤ M → g' ≤ M → b ≤ M → Ln c.1 j r → Ln c.2.1 j g' → Ln c.2.2 j b →
      dot (p c) j = g r g' b) : DotAt Ln M (fun c => dot (p c)) g := h
end

/-! ## Words of pixels -/

theorem word_of_nat {f : Nat → Nat} {k : Nat} (h : f k ≤ 32767) :
    Word (mk16 fun k => ((f k : Nat) : Int)) k (f k) := by
  rw [Word, s16_mk16, asI16_id] <;> omega

theorem w16_of_nat {f : Nat → Nat} {k : Nat} (h : f k < 65536) :
    w16 (mk16 fun k => ((f k : Nat) : Int)) k = f k := by
  rw [w16_mk16, asU16_nat h]

theorem wide0_at (o : Nat) (a : Reg) (k x : Nat) (h : a (o + k) = x) (hx : x < 256) :
    Word (wide 0 o a) k x := by
  have := word_of_nat (f := fun k => a (o + k) * 2 ^ 0) (k := k) (by omega)
  rw [wide]
  convert this using 1
  omega
theorem wide4_at (o : Nat) (a : Reg) (k x : Nat) (h : a (o + k) = x) (hx : x < 256) :
    Word (wide 4 o a) k (16 * x) := by
  have := word_of_nat (f := fun k => a (o + k) * 2 ^ 4) (k := k) (by omega)
  rw [wide]
  convert this using 1
  omega
theorem paddl_at {a : Reg} {k x y : Nat} (h : a (2 * k) = x) (h' : a (2 * k + 1) = y) (hx : x < 256)
    (hy : y < 256) : w16 (paddl a) k = x + y := by
  rw [paddl, w16_of_nat (by omega), h, h']

theorem rshr_paddl_at (a : Reg) (k x y : Nat) (h : a (2 * k) = x) (h' : a (2 * k + 1) = y) (hx : x < 256)
    (hy : y < 256) : Word (rshr1 (paddl a)) k (Spec.avg2 x y) := by
  have e := paddl_at h h' hx hy
  have := word_of_nat (f := fun k => (w16 (paddl a) k + 1) / 2) (k := k) (by omega)
  rw [rshr1]
  convert this using 1
  rw [e]; rfl
theorem rhadd_at (a b : Reg) (k x y x' y' : Nat) (h : a (2 * k) = x) (h' : a (2 * k + 1) = y)
    (i : b (2 * k) = x') (i' : b (2 * k + 1) = y') (hx : x < 256) (hy : y < 256) (hx' : x' < 256)
    (hy' : y' < 256) :
    Word (rshr1 (rhadd16 (paddl a) (paddl b))) k (((x + y + x' + y' + 1) / 2 + 1) / 2) := by
  have e := paddl_at h h' hx hy
  have e' := paddl_at i i' hx' hy'
  have e2 : w16 (rhadd16 (paddl a) (paddl b)) k = (x + y + x' + y' + 1) / 2 := by
    rw [rhadd16, w16_of_nat (by omega), e, e']; congr 1; omega
  have := word_of_nat (f := fun k => (w16 (rhadd16 (paddl a) (paddl b)) k + 1) / 2) (k := k)
    (by omega)
  rw [rshr1]
  convert this using 1
  rw [e2]
theorem rows_avg_at (a b : Reg) (k x y x' y' : Nat) (h : a (2 * k) = x) (h' : a (2 * k + 1) = y)
    (i : b (2 * k) = x') (i' : b (2 * k + 1) = y') (hx : x < 256) (hy : y < 256) (hx' : x' < 256)
    (hy' : y' < 256) :
    Word (rshr1 (paddl (avg8 a b))) k (Spec.avg2 (Spec.avg2 x x') (Spec.avg2 y y')) :=
  rshr_paddl_at (avg8 a b) k _ _ (by simp only [avg8, h, i]; rfl) (by simp only [avg8, h', i']; rfl)
    (avg2_lt hx hx') (avg2_lt hy hy')
theorem shl_paddl_at (a : Reg) (k x y : Nat) (h : a (2 * k) = x) (h' : a (2 * k + 1) = y) (hx : x < 256)
    (hy : y < 256) : Word (shl16 3 (paddl a)) k (8 * (x + y)) := by
  have e := paddl_at h h' hx hy
  have := word_of_nat (f := fun k => w16 (paddl a) k * 2 ^ 3) (k := k) (by omega)
  rw [shl16]
  convert this using 1
  rw [e]; omega
theorem shl_rows_at (a b : Reg) (k x y x' y' : Nat) (h : a (2 * k) = x) (h' : a (2 * k + 1) = y)
    (i : b (2 * k) = x') (i' : b (2 * k + 1) = y') (hx : x < 256) (hy : y < 256) (hx' : x' < 256)
    (hy' : y' < 256) :
    Word (shl16 2 (add16 (paddl a) (paddl b))) k (4 * (x + y + x' + y')) := by
  have e := paddl_at h h' hx hy
  have e' := paddl_at i i' hx' hy'
  have e2 : w16 (add16 (paddl a) (paddl b)) k = x + y + x' + y' := by
    rw [w16_add' e e']; omega
  have := word_of_nat (f := fun k => w16 (add16 (paddl a) (paddl b)) k * 2 ^ 2) (k := k)
    (by omega)
  rw [shl16]
  convert this using 1
  rw [e2]; omega
theorem half_at (o : Nat) (a : Reg) (k x : Nat) (h : a (o + k) = x) (_ : x < 256) : Byte (half o a) k x := h
theorem trunc_at (a : Reg) (k x y : Nat) (h : a (2 * k) = x) (h' : a (2 * k + 1) = y) (hx : x < 256)
    (hy : y < 256) : Byte (qshrn16 1 (paddl a)) k ((x + y) / 2) := by
  rw [Byte, qshrn16, paddl_at h h' hx hy]; omega
theorem trunc_rows_at (a b : Reg) (k x y x' y' : Nat) (h : a (2 * k) = x) (h' : a (2 * k + 1) = y)
    (i : b (2 * k) = x') (i' : b (2 * k + 1) = y') (hx : x < 256) (hy : y < 256) (hx' : x' < 256)
    (hy' : y' < 256) :
    Byte (qshrn16 1 (paddl (hadd8 a b))) k (((x + x') / 2 + (y + y') / 2) / 2) :=
  trunc_at (hadd8 a b) k _ _ (by simp only [hadd8, h, i]) (by simp only [hadd8, h', i']) (by omega) (by omega)

/-! ## Dots -/

theorem mul_word {r : Nat} {k : Int} (hr : r ≤ 255) (hk : -32768 ≤ k ∧ k ≤ 32767) :
    -8355840 ≤ (r : Int) * k ∧ (r : Int) * k ≤ 8355840 := by
  have h := mul_between_nat (k := k) hr
  omega

theorem sum3_mlal {o j : Nat} {bias : Int} (hb : -16777216 ≤ bias ∧ bias ≤ 16777216)
    {k : Int × Int × Int} (h1 : -32768 ≤ k.1 ∧ k.1 ≤ 32767) (h2 : -32768 ≤ k.2.1 ∧ k.2.1 ≤ 32767)
    (h3 : -32768 ≤ k.2.2 ∧ k.2.2 ≤ 32767) {c : Rgb} {r g b : Nat} (hr : r ≤ 255) (hg : g ≤ 255)
    (hb' : b ≤ 255) (cr : Word c.1 (o + j) r) (cg : Word c.2.1 (o + j) g) (cb : Word c.2.2 (o + j) b) :
    s32 (sum3 (mlal o) (set1_32 bias) k c) j = exactSum bias k r g b := by
  have m1 := mul_word hr h1
  have m2 := mul_word hg h2
  have m3 := mul_word hb' h3
  unfold sum3 mlal
  rw [s32_mk32, s32_mk32, s32_mk32, s32_set1, cr, cg, cb, asI16_id h1.1 h1.2, asI16_id h2.1 h2.2,
    asI16_id h3.1 h3.2]
  unfold exactSum
  generalize (r : Int) * k.1 = x at *
  generalize (g : Int) * k.2.1 = y at *
  generalize (b : Int) * k.2.2 = z at *
  unfold asI32; omega

theorem sum3_qdmlal {o j : Nat} {bias : Int} (hb : -16777216 ≤ bias ∧ bias ≤ 16777216)
    {k : Int × Int × Int} (h1 : -32768 ≤ k.1 ∧ k.1 ≤ 32767) (h2 : -32768 ≤ k.2.1 ∧ k.2.1 ≤ 32767)
    (h3 : -32768 ≤ k.2.2 ∧ k.2.2 ≤ 32767) {c : Rgb} {r g b : Nat} (hr : r ≤ 255) (hg : g ≤ 255)
    (hb' : b ≤ 255) (cr : Word c.1 (o + j) r) (cg : Word c.2.1 (o + j) g) (cb : Word c.2.2 (o + j) b) :
    s32 (sum3 (qdmlal o) (set1_32 bias) k c) j = 2 * (r * k.1 + g * k.2.1 + b * k.2.2) + bias := by
  have m1 := mul_word hr h1
  have m2 := mul_word hg h2
  have m3 := mul_word hb' h3
  unfold sum3 qdmlal
  rw [s32_mk32, s32_mk32, s32_mk32, s32_set1, cr, cg, cb, asI16_id h1.1 h1.2, asI16_id h2.1 h2.2,
    asI16_id h3.1 h3.2]
  generalize (r : Int) * k.1 = x at *
  generalize (g : Int) * k.2.1 = y at *
  generalize (b : Int) * k.2.2 = z at *
  have e : ∀ x : Int, -2000000000 ≤ x → x ≤ 2000000000 → asI32 (satI32 x) = x := fun x h h' => by
    unfold asI32 satI32; omega
  have e' : ∀ x : Int, -2000000000 ≤ x → x ≤ 2000000000 → satI32 x = x := fun x h h' => by
    unfold satI32; omega
  have e'' : asI32 bias = bias := by unfold asI32; omega
  rw [e'', e' (2 * x), e (bias + 2 * x), e' (2 * y), e (bias + 2 * x + 2 * y), e' (2 * z), e] <;> omega

theorem movn_shrn {q j : Nat} {lo hi : Reg} {v : Int}
    (h : (if j < 4 then s32 lo j / 2 ^ q else s32 hi (j - 4) / 2 ^ q) = v) (h0 : 0 ≤ v) (h1 : v < 256) :
    movn (shrn q lo hi) j = low8 v := by
  rw [movn, shrn, w16_mk16, h]
  unfold asU16 low8; omega

theorem movn_qshrn {q j : Nat} {lo hi : Reg} {v : Int}
    (h : (if j < 4 then s32 lo j / 2 ^ q else s32 hi (j - 4) / 2 ^ q) = v) (h0 : 0 ≤ v) (h1 : v < 256) :
    movn (qshrn q lo hi) j = low8 v := by
  rw [movn, qshrn, w16_mk16, h]
  unfold asU16 low8 satI16; omega

theorem lanes_split {P : Nat → Reg} {j : Nat} {v : Int} {q : Nat} (hj : j < 8)
    (h : ∀ o j', o + j' = j → s32 (P o) j' = v) :
    (if j < 4 then s32 (P 0) j / 2 ^ q else s32 (P 4) (j - 4) / 2 ^ q) = v / 2 ^ q := by
  by_cases h4 : j < 4
  · rw [if_pos h4, h 0 j (by omega)]
  · rw [if_neg h4, h 4 (j - 4) (by omega)]

variable {bias : Nat} {k : Int × Int × Int}

theorem profBias_bound {q : Nat} (hq : q = 13 ∨ q = 16) {bias : Nat} (h : bias ≤ 128) :
    0 ≤ profBias q bias ∧ profBias q bias ≤ 16777216 := by
  rcases hq with rfl | rfl <;> unfold profBias <;> norm_num <;> omega

theorem balDot_at (hf : ByteFits 13 255 (profBias 13 bias) k) (hb : bias ≤ 128) :
    DotAt Word 255 (balDot bias k) (encByte 13 bias k) := by
  intro c j r g b hj hr hg hb' cr cg cb
  have hby := hf.byte hr hg hb'
  have hB := profBias_bound (.inl rfl) hb
  rw [encByte, encVal_exact, balDot]
  generalize profBias 13 bias = B at *
  refine movn_shrn ?_ hby.1 hby.2
  refine lanes_split (P := fun o => sum3 (mlal o) (set1_32 B) k c) hj fun o j' ho => ?_
  exact sum3_mlal (by omega) hf.1 hf.2.1 hf.2.2.1 hr hg hb' (ho ▸ cr) (ho ▸ cg) (ho ▸ cb)

/-- Lane `j` of unsigned words. -/
def Uword (a : Reg) (j x : Nat) : Prop := w16 a j = x

theorem sum3_mlalU {o j : Nat} {bias : Int} (hb : 0 ≤ bias ∧ bias ≤ 16777216)
    {k : Int × Int × Int} (h1 : 0 ≤ k.1 ∧ k.1 ≤ 32767) (h2 : 0 ≤ k.2.1 ∧ k.2.1 ≤ 32767)
    (h3 : 0 ≤ k.2.2 ∧ k.2.2 ≤ 32767) {c : Rgb} {r g b : Nat} (hr : r ≤ 255) (hg : g ≤ 255)
    (hb' : b ≤ 255) (cr : Uword c.1 (o + j) r) (cg : Uword c.2.1 (o + j) g) (cb : Uword c.2.2 (o + j) b) :
    (w32 (sum3 (mlalU o) (set1_32 bias) k c) j : Int) = exactSum bias k r g b := by
  obtain ⟨k1, k2, k3⟩ := k
  dsimp only at *
  obtain ⟨a, rfl⟩ := Int.eq_ofNat_of_zero_le h1.1
  obtain ⟨d, rfl⟩ := Int.eq_ofNat_of_zero_le h2.1
  obtain ⟨e, rfl⟩ := Int.eq_ofNat_of_zero_le h3.1
  have u : ∀ x : Nat, x ≤ 32767 → asU16 (asI16 (x : Int)) = x := fun x h => by unfold asU16 asI16; omega
  have m1 : r * a ≤ 255 * 32767 := Nat.mul_le_mul hr (by omega)
  have m2 : g * d ≤ 255 * 32767 := Nat.mul_le_mul hg (by omega)
  have m3 : b * e ≤ 255 * 32767 := Nat.mul_le_mul hb' (by omega)
  unfold sum3 mlalU
  dsimp only
  rw [w32_mk32, w32_mk32, w32_mk32, set1_32, w32_mk32, u a (by omega), u d (by omega), u e (by omega), cr,
    cg, cb]
  unfold exactSum
  dsimp only
  push_cast
  simp only [← Nat.cast_mul]
  generalize r * a = x at *
  generalize g * d = y at *
  generalize b * e = z at *
  unfold asU32; omega

theorem balDotU_at (hf : ByteFits 13 255 (profBias 13 bias) k) (hb : bias ≤ 128)
    (hk : 0 ≤ k.1 ∧ 0 ≤ k.2.1 ∧ 0 ≤ k.2.2) :
    DotAt Uword 255 (balDotU bias k) (encByte 13 bias k) := by
  intro c j r g b hj hr hg hb' cr cg cb
  have hby := hf.byte hr hg hb'
  have hB := profBias_bound (.inl rfl) hb
  rw [encByte, encVal_exact, balDotU]
  generalize profBias 13 bias = B at *
  have key : ∀ o j', o + j' = j →
      (w32 (sum3 (mlalU o) (set1_32 B) k c) j' : Int) = exactSum B k r g b := fun o j' ho =>
    sum3_mlalU hB ⟨hk.1, hf.1.2⟩ ⟨hk.2.1, hf.2.1.2⟩ ⟨hk.2.2, hf.2.2.1.2⟩ hr hg hb' (ho ▸ cr) (ho ▸ cg)
      (ho ▸ cb)
  rw [movn, shrnU, w16_mk16]
  have e : (((if j < 4 then w32 (sum3 (mlalU 0) (set1_32 B) k c) j / 2 ^ 13
      else w32 (sum3 (mlalU 4) (set1_32 B) k c) (j - 4) / 2 ^ 13 : Nat)) : Int)
      = exactSum B k r g b / 2 ^ 13 := by
    by_cases h4 : j < 4
    · rw [if_pos h4, Int.natCast_ediv, key 0 j (by omega)]; norm_num
    · rw [if_neg h4, Int.natCast_ediv, key 4 (j - 4) (by omega)]; norm_num
  rw [e]
  generalize exactSum B k r g b / 2 ^ 13 = v at hby
  unfold asU16 low8; omega

theorem prof_half {k : Int × Int × Int} {r g b bias : Nat} :
    (2 * (r * k.1 + g * k.2.1 + b * k.2.2) + profBias 16 bias) / 2 ^ 16
      = exactSum (profBias 15 bias) k r g b / 2 ^ 15 := by
  unfold exactSum profBias
  generalize (r : Int) * k.1 + g * k.2.1 + b * k.2.2 = x
  norm_num
  omega

theorem profDot_at (hf : ByteFits 15 255 (profBias 15 bias) k) (hb : bias ≤ 128) :
    DotAt Word 255 (profDot bias k) (encByte 15 bias k) := by
  intro c j r g b hj hr hg hb' cr cg cb
  have hby := hf.byte hr hg hb'
  have hB := profBias_bound (.inr rfl) hb
  rw [encByte, encVal_exact, profDot]
  refine movn_shrn ?_ hby.1 hby.2
  rw [← prof_half]
  generalize profBias 16 bias = B at *
  refine lanes_split (P := fun o => sum3 (qdmlal o) (set1_32 B) k c) hj fun o j' ho => ?_
  exact sum3_qdmlal (by omega) hf.1 hf.2.1 hf.2.2.1 hr hg hb' (ho ▸ cr) (ho ▸ cg) (ho ▸ cb)

theorem profDotQ_at (hf : ByteFits 15 255 (profBias 15 bias) k) (hb : bias ≤ 128) :
    DotAt Word 255 (profDotQ bias k) (encByte 15 bias k) := by
  intro c j r g b hj hr hg hb' cr cg cb
  have hby := hf.byte hr hg hb'
  have hB := profBias_bound (.inr rfl) hb
  rw [encByte, encVal_exact, profDotQ]
  refine movn_qshrn ?_ hby.1 hby.2
  rw [← prof_half]
  generalize profBias 16 bias = B at *
  refine lanes_split (P := fun o => sum3 (qdmlal o) (set1_32 B) k c) hj fun o j' ho => ?_
  exact sum3_qdmlal (by omega) hf.1 hf.2.1 hf.2.2.1 hr hg hb' (ho ▸ cr) (ho ▸ cg) (ho ▸ cb)

theorem exactSum_bgr (bias : Int) (k : Int × Int × Int) (r g b : Nat) :
    exactSum bias (bgrOrder k) b g r = exactSum bias k r g b := by
  unfold exactSum bgrOrder; dsimp only; omega

theorem profDotQ_bgr (hf : ByteFits 15 255 (profBias 15 bias) k) (hb : bias ≤ 128) :
    DotAt Word 255 (fun c => profDotQ bias (bgrOrder k) (bgrOrder c)) (encByte 15 bias k) := by
  intro c j r g b hj hr hg hb' cr cg cb
  have hf' : ByteFits 15 255 (profBias 15 bias) (bgrOrder k) := by
    obtain ⟨a1, a2, a3, a4, a5, a6⟩ := hf
    refine ⟨a3, a2, a1, ?_, ?_, a6⟩ <;> unfold bgrOrder <;> dsimp only
    · rw [show min 0 k.2.2 + min 0 k.2.1 + min 0 k.1 = min 0 k.1 + min 0 k.2.1 + min 0 k.2.2 by omega]
      exact a4
    · rw [show max 0 k.2.2 + max 0 k.2.1 + max 0 k.1 = max 0 k.1 + max 0 k.2.1 + max 0 k.2.2 by omega]
      exact a5
  refine (profDotQ_at hf' hb (bgrOrder c) j b g r hj hb' hg hr cb cg cr).trans ?_
  rw [encByte, encByte, encVal_exact, encVal_exact, exactSum_bgr]

/-! ### With RDM -/

theorem s16_mlah_enc {a b : Reg} {c x : Int} {k w : Nat} (ha : s16 a k = x) (hx : -20000 ≤ x ∧ x ≤ 20000)
    (hb : s16 b k = w) (hw : w ≤ 4095) (hc : -8192 ≤ c ∧ c ≤ 8192) :
    s16 (mlah true a b (asI16 c)) k = x + mulRound w c := by
  have m := mulRound_word hw hc
  rw [asI16_id (x := c) (by omega) (by omega)]
  unfold mlah
  rw [if_pos rfl, s16_mk16, ha, hb]
  unfold mulRound at *
  generalize (w : Int) * c = p at *
  unfold satI16; rw [asI16_id] <;> omega

theorem rdmDot_at {bias : Nat} (h : DotOk bias k) :
    DotAt Word 4095 (rdmDot bias k) (vecSum bias k) := by
  intro c j r g b hj hr hg hb' cr cg cb
  obtain ⟨k1, k2, k3, hb, hs⟩ := h
  have m1 := mulRound_word hr k1
  have m2 := mulRound_word hg k2
  have m3 := mulRound_word hb' k3
  have e := s16_mlah_enc (s16_mlah_enc (s16_mlah_enc (s16_set1 (bias : Int) j)
    (by rw [asI16_id] <;> omega) cr hr k1) (by rw [asI16_id] <;> omega) cg hg k2)
    (by rw [asI16_id] <;> omega) cb hb' k3
  rw [asI16_id (x := (bias : Int)) (by omega) (by omega)] at e
  have hlt : w16 (sum3 (mlah true) (set1_16 bias) k c) j < 65536 := by
    unfold sum3 mlah
    rw [if_pos rfl]
    exact w16_mk16_lt _ _
  have e1 := w16_of_s16 (by omega) hlt e
  rw [rdmDot, qshrn16, e1]
  unfold vecSum byteSat
  omega

theorem rdmDot_rbg {bias : Nat} (h : DotOk bias k) :
    DotAt Word 4095 (fun c => rdmDot bias (rbgOrder k) (rbgOrder c)) (vecSum bias k) := by
  intro c j r g b hj hr hg hb' cr cg cb
  have h' : DotOk bias (rbgOrder k) := by
    obtain ⟨a1, a2, a3, a4, a5⟩ := h
    exact ⟨a1, a3, a2, a4, by unfold rbgOrder; dsimp only; omega⟩
  refine (rdmDot_at h' (rbgOrder c) j r b g hj hr hb' hg cr cb cg).trans ?_
  unfold vecSum rbgOrder; dsimp only
  rw [show mulRound r k.1 + mulRound b k.2.2 + mulRound g k.2.1
    = mulRound r k.1 + mulRound g k.2.1 + mulRound b k.2.2 by omega]

/-! ### Fast -/

/-- The signs the kernels assume, and that the weights are bytes. -/
def LumaSigns (k : Int × Int × Int) : Prop :=
  (0 ≤ k.1 ∧ k.1 ≤ 255) ∧ (0 ≤ k.2.1 ∧ k.2.1 ≤ 255) ∧ (0 ≤ k.2.2 ∧ k.2.2 ≤ 255)
instance (k : Int × Int × Int) : Decidable (LumaSigns k) := inferInstanceAs (Decidable (_ ∧ _))
/-- The first weight is added, the others are subtracted. -/
def ChromaSigns (k : Int × Int × Int) : Prop :=
  (0 ≤ k.1 ∧ k.1 ≤ 255) ∧ (-255 ≤ k.2.1 ∧ k.2.1 ≤ 0) ∧ (-255 ≤ k.2.2 ∧ k.2.2 ≤ 0)
instance (k : Int × Int × Int) : Decidable (ChromaSigns k) := inferInstanceAs (Decidable (_ ∧ _))

theorem w16_mlal8 {acc a : Reg} {c : Int} {k x : Nat} {s : Int} (h : (w16 acc k : Int) = s % 65536)
    (ha : a k = x) (hc : 0 ≤ c ∧ c ≤ 255) : (w16 (mlal8 acc a c) k : Int) = (s + x * c) % 65536 := by
  obtain ⟨d, rfl⟩ := Int.eq_ofNat_of_zero_le hc.1
  rw [mlal8, w16_mk16, ha, Int.natAbs_natCast, Nat.mod_eq_of_lt (by omega : d < 256)]
  push_cast
  rw [h]
  generalize (x : Int) * d = p
  unfold asU16; omega

theorem w16_mlsl8 {acc a : Reg} {c : Int} {k x : Nat} {s : Int} (h : (w16 acc k : Int) = s % 65536)
    (ha : a k = x) (hc : -255 ≤ c ∧ c ≤ 0) : (w16 (mlsl8 acc a c) k : Int) = (s + x * c) % 65536 := by
  obtain ⟨d, rfl⟩ : ∃ d : Nat, c = -(d : Int) := ⟨(-c).toNat, by omega⟩
  rw [mlsl8, w16_mk16, ha, Int.natAbs_neg, Int.natAbs_natCast, Nat.mod_eq_of_lt (by omega : d < 256)]
  push_cast
  rw [h, Int.mul_neg]
  generalize (x : Int) * d = p
  unfold asU16; omega

theorem w16_bias (bias j : Nat) :
    (w16 (set1_16 (bias * 2 ^ 7 + (2 ^ 6 - 1))) j : Int) = ((bias : Int) * 128 + 63) % 65536 := by
  have e : (bias : Int) * 2 ^ 7 + (2 ^ 6 - 1) = bias * 128 + 63 := by norm_num
  rw [set1_16, w16_mk16, e]
  unfold asU16; omega

theorem fastLumaDot_at (h : LumaSigns k) : DotAt Byte 255 (fastLumaDot bias k) (fastByte bias k) := by
  intro c j r g b hj hr hg hb' cr cg cb
  have e := w16_mlal8 (w16_mlal8 (w16_mlal8 (w16_bias bias j) cr h.1) cg h.2.1) cb h.2.2
  rw [fastLumaDot, qshrn16, fastByte]
  rw [show (r : Int) * k.1 + g * k.2.1 + b * k.2.2 + (bias * 128 + 63)
    = (bias : Int) * 128 + 63 + r * k.1 + g * k.2.1 + b * k.2.2 by omega, ← e, Int.toNat_natCast]

theorem fastChromaDot_at (h : ChromaSigns k) : DotAt Byte 255 (fastChromaDot bias k) (fastByte bias k) := by
  intro c j r g b hj hr hg hb' cr cg cb
  have e := w16_mlsl8 (w16_mlsl8 (w16_mlal8 (w16_bias bias j) cr h.1) cg h.2.1) cb h.2.2
  rw [fastChromaDot, qshrn16, fastByte]
  rw [show (r : Int) * k.1 + g * k.2.1 + b * k.2.2 + (bias * 128 + 63)
    = (bias : Int) * 128 + 63 + r * k.1 + g * k.2.1 + b * k.2.2 by omega, ← e, Int.toNat_natCast]

theorem fastChromaDot_bgr (h : ChromaSigns (bgrOrder k)) :
    DotAt Byte 255 (fun c => fastChromaDot bias (bgrOrder k) (bgrOrder c)) (fastByte bias k) := by
  intro c j r g b hj hr hg hb' cr cg cb
  refine (fastChromaDot_at h (bgrOrder c) j b g r hj hb' hg hr cb cg cr).trans ?_
  unfold fastByte bgrOrder; dsimp only
  rw [show (b : Int) * k.2.2 + g * k.2.1 + r * k.1 = r * k.1 + g * k.2.1 + b * k.2.2 by omega]

theorem fastChromaDot_brg (h : ChromaSigns (brgOrder k)) :
    DotAt Byte 255 (fun c => fastChromaDot bias (brgOrder k) (brgOrder c)) (fastByte bias k) := by
  intro c j r g b hj hr hg hb' cr cg cb
  refine (fastChromaDot_at h (brgOrder c) j b r g hj hb' hr hg cb cr cg).trans ?_
  unfold fastByte brgOrder; dsimp only
  rw [show (b : Int) * k.2.2 + r * k.1 + g * k.2.1 = r * k.1 + g * k.2.1 + b * k.2.2 by omega]

/-! ## The steps -/

theorem balFits (rg : YuvRange) (m : Matrix) :
    (ByteFits 13 255 (profBias 13 (getYuvRange 8 rg).biasY) (kLuma (searchForward 13 8 rg m)) ∧
    ByteFits 13 255 (profBias 13 (getYuvRange 8 rg).biasUv) (kCb (searchForward 13 8 rg m)) ∧
    ByteFits 13 255 (profBias 13 (getYuvRange 8 rg).biasUv) (kCr (searchForward 13 8 rg m))) ∧
    (0 ≤ (kLuma (searchForward 13 8 rg m)).1 ∧ 0 ≤ (kLuma (searchForward 13 8 rg m)).2.1 ∧
      0 ≤ (kLuma (searchForward 13 8 rg m)).2.2) ∧
    (getYuvRange 8 rg).biasY ≤ 128 ∧ (getYuvRange 8 rg).biasUv ≤ 128 := by
  cases rg <;> cases m <;> decide +kernel

theorem rdmFits (rg : YuvRange) (m : Matrix) :
    DotOk (rdmBiasY (getYuvRange 8 rg)) (kLuma (searchForward 13 8 rg m)) ∧
    DotOk (rdmBiasUv (getYuvRange 8 rg)) (kCb (searchForward 13 8 rg m)) ∧
    DotOk (rdmBiasUv (getYuvRange 8 rg)) (kCr (searchForward 13 8 rg m)) := by
  cases rg <;> cases m <;> decide +kernel

theorem fastSigns (rg : YuvRange) (m : Matrix) :
    LumaSigns (kLuma (searchForward 7 8 rg m)) ∧ ChromaSigns (bgrOrder (kCb (searchForward 7 8 rg m))) ∧
    ChromaSigns (kCr (searchForward 7 8 rg m)) := by
  cases rg <;> cases m <;> decide +kernel

theorem avg2_le {x y : Nat} (hx : x < 256) (hy : y < 256) : Spec.avg2 x y ≤ 255 := by
  unfold Spec.avg2; omega

section
variable (rg : YuvRange) (m : Matrix)

/-- The balanced mode without RDM. -/
theorem bal_ok' {lumaDot : Nat → Int × Int × Int → Rgb → Reg} {Ln : Reg → Nat → Nat → Prop}
    (hw : ∀ o a k x, a (o + k) = x → x < 256 → Ln (wide 0 o a) k x)
    (hd : DotAt Ln 255 (lumaDot (getYuvRange 8 rg).biasY (kLuma (searchForward 13 8 rg m)))
      (encByte 13 (getYuvRange 8 rg).biasY (kLuma (searchForward 13 8 rg m)))) :
    ArithOk 16 (balArith lumaDot (getYuvRange 8 rg) (searchForward 13 8 rg m))
      (encByte 13 (getYuvRange 8 rg).biasY (kLuma (searchForward 13 8 rg m)))
      (encByte 13 (getYuvRange 8 rg).biasUv (kCb (searchForward 13 8 rg m)))
      (encByte 13 (getYuvRange 8 rg).biasUv (kCr (searchForward 13 8 rg m)))
      (fun a => a) Spec.avg2 (fun a b c d => ((a + b + c + d + 1) / 2 + 1) / 2) := by
  obtain ⟨⟨_, fu, fv⟩, _, _, hb⟩ := balFits rg m
  have du := balDot_at fu hb
  have dv := balDot_at fv hb
  generalize searchForward 13 8 rg m = t at *
  generalize getYuvRange 8 rg = y at *
  exact {
    luma := bytes16_at hw (fun x h => by omega) hd hd
    cb := bytes16_at wide0_at (fun x h => by omega) du du
    cr := bytes16_at wide0_at (fun x h => by omega) dv dv
    cbPairs := pairs_at (by omega) rshr_paddl_at (fun x y => avg2_le) du
    crPairs := pairs_at (by omega) rshr_paddl_at (fun x y => avg2_le) dv
    cbRows := rows_at (by omega) rhadd_at (fun x y x' y' h1 h2 h3 h4 => by omega) du
    crRows := rows_at (by omega) rhadd_at (fun x y x' y' h1 h2 h3 h4 => by omega) dv }

theorem wide0_u (o : Nat) (a : Reg) (k x : Nat) (h : a (o + k) = x) (hx : x < 256) :
    Uword (wide 0 o a) k x := by
  rw [Uword, wide, w16_of_nat (by omega)]; omega

theorem bal_ok (ch : Channels) :
    PartOk (part 16 ch (balArith balDot (getYuvRange 8 rg) (searchForward 13 8 rg m))) ch
      (neonVals false ch rg m) (Holds1 ch 16) :=
  part_ok (bal_ok' rg m wide0_at (balDot_at (balFits rg m).1.1 (balFits rg m).2.2.1)) ch rfl (by omega)

theorem balU_ok (ch : Channels) :
    PartOk (part 16 ch (balArith balDotU (getYuvRange 8 rg) (searchForward 13 8 rg m))) ch
      (neonVals false ch rg m) (Holds1 ch 16) :=
  part_ok (bal_ok' rg m wide0_u
    (balDotU_at (balFits rg m).1.1 (balFits rg m).2.2.1 (balFits rg m).2.1)) ch rfl (by omega)

theorem rdm16_ok (sw : Bool) (ch : Channels) :
    PartOk (part 16 ch (rdmArith16 sw (getYuvRange 8 rg) (searchForward 13 8 rg m))) ch
      (neonVals true ch rg m) (Holds1 ch 16) := by
  obtain ⟨fy, fu, fv⟩ := rdmFits rg m
  have dy := rdmDot_at fy
  have dy' := rdmDot_rbg fy
  have du := rdmDot_at fu
  have dv := rdmDot_at fv
  have ey : ((rdmBiasY (getYuvRange 8 rg) : Nat) : Int) = 4 * (getYuvRange 8 rg).biasY := by
    unfold rdmBiasY; omega
  have eu : ((rdmBiasUv (getYuvRange 8 rg) : Nat) : Int) = 4 * (getYuvRange 8 rg).biasUv + 1 := by
    unfold rdmBiasUv; omega
  refine part_ok (L := vecSum (4 * (getYuvRange 8 rg).biasY) (kLuma (searchForward 13 8 rg m)))
    (U := vecSum (4 * (getYuvRange 8 rg).biasUv + 1) (kCb (searchForward 13 8 rg m)))
    (V := vecSum (4 * (getYuvRange 8 rg).biasUv + 1) (kCr (searchForward 13 8 rg m)))
    (one := fun a => 16 * a) (two := fun a b => 8 * (a + b)) (four := fun a b c d => 4 * (a + b + c + d))
    ?_ ch rfl (by omega)
  rw [← ey, ← eu]
  generalize searchForward 13 8 rg m = t at *
  generalize getYuvRange 8 rg = y at *
  exact {
    luma := by
      refine bytes16_at wide4_at (fun x h => by omega) ?_ dy
      cases sw
      · exact dy
      · exact dy'
    cb := bytes16_at wide4_at (fun x h => by omega) du du
    cr := bytes16_at wide4_at (fun x h => by omega) dv dv
    cbPairs := pairs_at (by omega) shl_paddl_at (fun x y h1 h2 => by omega) du
    crPairs := pairs_at (by omega) shl_paddl_at (fun x y h1 h2 => by omega) dv
    cbRows := rows_at (by omega) shl_rows_at (fun x y x' y' h1 h2 h3 h4 => by omega) du
    crRows := rows_at (by omega) shl_rows_at (fun x y x' y' h1 h2 h3 h4 => by omega) dv }

theorem rdm8_ok (ch : Channels) :
    PartOk (part 8 ch (rdmArith8 (getYuvRange 8 rg) (searchForward 13 8 rg m))) ch
      (neonVals true ch rg m) (Holds1 ch 8) := by
  obtain ⟨fy, fu, fv⟩ := rdmFits rg m
  have dy := rdmDot_at fy
  have du := rdmDot_at fu
  have dv := rdmDot_at fv
  have ey : ((rdmBiasY (getYuvRange 8 rg) : Nat) : Int) = 4 * (getYuvRange 8 rg).biasY := by
    unfold rdmBiasY; omega
  have eu : ((rdmBiasUv (getYuvRange 8 rg) : Nat) : Int) = 4 * (getYuvRange 8 rg).biasUv + 1 := by
    unfold rdmBiasUv; omega
  refine part_ok (L := vecSum (4 * (getYuvRange 8 rg).biasY) (kLuma (searchForward 13 8 rg m)))
    (U := vecSum (4 * (getYuvRange 8 rg).biasUv + 1) (kCb (searchForward 13 8 rg m)))
    (V := vecSum (4 * (getYuvRange 8 rg).biasUv + 1) (kCr (searchForward 13 8 rg m)))
    (one := fun a => 16 * a) (two := fun a b => 8 * (a + b)) (four := fun a b c d => 4 * (a + b + c + d))
    ?_ ch rfl (by omega)
  rw [← ey, ← eu]
  generalize searchForward 13 8 rg m = t at *
  generalize getYuvRange 8 rg = y at *
  have hw : ∀ (a : Reg) k x, a k = x → x < 256 → Word (wide 4 0 a) k (16 * x) := fun a k x h hx =>
    wide4_at 0 a k x (by rw [Nat.zero_add]; exact h) hx
  exact {
    luma := bytes8_at hw (fun x h => by omega) dy
    cb := bytes8_at hw (fun x h => by omega) du
    cr := bytes8_at hw (fun x h => by omega) dv
    cbPairs := pairs_at (by omega) shl_paddl_at (fun x y h1 h2 => by omega) du
    crPairs := pairs_at (by omega) shl_paddl_at (fun x y h1 h2 => by omega) dv
    cbRows := rows_at (by omega) shl_rows_at (fun x y x' y' h1 h2 h3 h4 => by omega) du
    crRows := rows_at (by omega) shl_rows_at (fun x y x' y' h1 h2 h3 h4 => by omega) dv }

theorem prof_ok (two : Bool) (ch : Channels) :
    PartOk (part 16 ch (profArith two (getYuvRange 8 rg) (searchForward 15 8 rg m))) ch
      (neonProfVals ch rg m) (Holds1 ch 16) := by
  obtain ⟨fy, ⟨fu, fv⟩, _, _⟩ := profFits rg m
  obtain ⟨_, _, b1, b2⟩ := balFits rg m
  have dy := profDot_at fy b1
  have qy := profDotQ_at fy b1
  have du := profDot_at fu b2
  have dv := profDot_at fv b2
  have qu := profDotQ_at fu b2
  have qv := profDotQ_at fv b2
  have qu' := profDotQ_bgr fu b2
  refine part_ok (L := encByte 15 (getYuvRange 8 rg).biasY (kLuma (searchForward 15 8 rg m)))
    (U := encByte 15 (getYuvRange 8 rg).biasUv (kCb (searchForward 15 8 rg m)))
    (V := encByte 15 (getYuvRange 8 rg).biasUv (kCr (searchForward 15 8 rg m)))
    (one := fun a => a) (two := Spec.avg2) (four := fun a b c d => Spec.avg2 (Spec.avg2 a c) (Spec.avg2 b d))
    ?_ ch rfl (by omega)
  generalize searchForward 15 8 rg m = t at *
  generalize getYuvRange 8 rg = y at *
  exact {
    luma := by
      cases two
      · exact bytes16_at wide0_at (fun x h => by omega) dy dy
      · exact bytes16_at wide0_at (fun x h => by omega) qy qy
    cb := bytes16_at wide0_at (fun x h => by omega) du du
    cr := bytes16_at wide0_at (fun x h => by omega) dv dv
    cbPairs := pairs_at (by omega) rshr_paddl_at (fun x y => avg2_le) qu
    crPairs := pairs_at (by omega) rshr_paddl_at (fun x y => avg2_le) qv
    cbRows := rows_at (by omega) rows_avg_at
      (fun x y x' y' h1 h2 h3 h4 => avg2_le (avg2_lt h1 h3) (avg2_lt h2 h4)) qu'
    crRows := rows_at (by omega) rows_avg_at
      (fun x y x' y' h1 h2 h3 h4 => avg2_le (avg2_lt h1 h3) (avg2_lt h2 h4)) qv }

theorem fast_ok (ch : Channels) :
    PartOk (part 16 ch (fastArith (getYuvRange 8 rg) (searchForward 7 8 rg m))) ch
      (neonFastVals ch rg m) (Holds1 ch 16) := by
  obtain ⟨fy, fu, fv⟩ := fastSigns rg m
  have dy := fastLumaDot_at (bias := (getYuvRange 8 rg).biasY) fy
  have du := fastChromaDot_bgr (bias := (getYuvRange 8 rg).biasUv) fu
  have du' := fastChromaDot_brg (bias := (getYuvRange 8 rg).biasUv)
    (k := kCb (searchForward 7 8 rg m)) ⟨fu.1, fu.2.2, fu.2.1⟩
  have dv := fastChromaDot_at (bias := (getYuvRange 8 rg).biasUv) fv
  refine part_ok (L := fastByte (getYuvRange 8 rg).biasY (kLuma (searchForward 7 8 rg m)))
    (U := fastByte (getYuvRange 8 rg).biasUv (kCb (searchForward 7 8 rg m)))
    (V := fastByte (getYuvRange 8 rg).biasUv (kCr (searchForward 7 8 rg m)))
    (one := fun a => a) (two := fun a b => (a + b) / 2)
    (four := fun a b c d => ((a + c) / 2 + (b + d) / 2) / 2) ?_ ch rfl (by omega)
  generalize searchForward 7 8 rg m = t at *
  generalize getYuvRange 8 rg = y at *
  exact {
    luma := bytes16_at half_at (fun x h => by omega) dy dy
    cb := bytes16_at half_at (fun x h => by omega) du du
    cr := bytes16_at half_at (fun x h => by omega) dv dv
    cbPairs := pairs_at (by omega) trunc_at (fun x y h1 h2 => by omega) du
    crPairs := pairs_at (by omega) trunc_at (fun x y h1 h2 => by omega) dv
    cbRows := rows_at (by omega) trunc_rows_at (fun x y x' y' h1 h2 h3 h4 => by omega) du'
    crRows := rows_at (by omega) trunc_rows_at (fun x y x' y' h1 h2 h3 h4 => by omega) dv }
end

end Verif.Neon
