import Verif.Model.X86Gray
import Verif.Spec.VecGray
import Verif.Lemmas.X86Alpha
import Verif.Lemmas.X86EncBodies
import Verif.Lemmas.X86EncHandlers
import Verif.Lemmas.Gray
/-! # The x86 kernels of the grey converters -/
namespace Verif.X86
open Spec

/-! ## Levels -/

/-- The grey level of a luma sample above the offset. -/
def lev (t : InvCoef) (yo : Nat) : Nat := byteSat (mulRound (expand10 yo) t.y)

/-- The luma coefficient fits a 16-bit element. -/
def GrayCoef (t : InvCoef) : Prop := -32767 ≤ t.y ∧ t.y ≤ 32767

theorem s16_grayLo {t : InvCoef} (ht : GrayCoef t) {y : Reg} {k : Nat}
    (h : y (k / 8 * 16 + k % 8) < 256) :
    s16 (mulhrs16 (expandLo y) (set1_16 (asI16 t.y))) k
      = mulRound (expand10 (y (k / 8 * 16 + k % 8))) t.y := by
  have e := s16_expandLo h
  have hb := expand10_bounds h
  rw [s16_mulhrs (by rw [e]; omega) ht, e]

theorem s16_grayHi {t : InvCoef} (ht : GrayCoef t) {y : Reg} {k : Nat}
    (h : y (k / 8 * 16 + 8 + k % 8) < 256) :
    s16 (mulhrs16 (expandHi y) (set1_16 (asI16 t.y))) k
      = mulRound (expand10 (y (k / 8 * 16 + 8 + k % 8))) t.y := by
  have e := s16_expandHi h
  have hb := expand10_bounds h
  rw [s16_mulhrs (by rw [e]; omega) ht, e]

theorem grayBytes_at {t : InvCoef} (ht : GrayCoef t) {y : Reg} {n : Nat} (hn : n % 16 = 0)
    (hy : ∀ i, i < n → y i < 256) {i : Nat} (h : i < n) : grayBytes t y i = lev t (y i) :=
  packus_at (F := fun i => mulRound (expand10 (y i)) t.y) hn
    (fun k hk => s16_grayLo ht (hy _ (by omega))) (fun k hk => s16_grayHi ht (hy _ (by omega))) h

theorem grayBytesLow_at {t : InvCoef} (ht : GrayCoef t) {y : Reg}
    (hy : ∀ i, i < 8 → y i < 256) {i : Nat} (h : i < 8) : grayBytesLow t y i = lev t (y i) := by
  have e : i / 8 * 16 + i % 8 = i := by omega
  have h1 := s16_grayLo ht (y := y) (k := i) (by rw [e]; exact hy i h)
  rw [e] at h1
  rw [grayBytesLow, packus_low h, h1]
  rfl

theorem grayBytesHalf_at {t : InvCoef} (ht : GrayCoef t) {y : Reg}
    (hy : ∀ i, i < 16 → y i < 256) {i : Nat} (h : i < 16) : grayBytesHalf t y i = lev t (y i) := by
  have key : ∀ k, k < 16 →
      s16 (mulhrs16 (expandLo (permute4x64 0x50 y)) (set1_16 (asI16 t.y))) k
        = mulRound (expand10 (y k)) t.y := by
    intro k hk
    have e := permute50_at y hk
    rw [s16_grayLo ht (by rw [e]; exact hy k hk), e]
  have p : ∀ r : Reg, permute4x64 0xD8 r i = r (if i < 8 then i else i + 8) := by
    intro r; interval_cases i <;> rfl
  rw [grayBytesHalf, p]
  unfold packus16
  split
  · rw [if_pos (by omega), show i / 16 * 8 + i % 8 = i by omega, key i h]; rfl
  · rw [if_pos (by omega), show (i + 8) / 16 * 8 + (i + 8) % 8 = i by omega, key i h]; rfl

/-! ## Steps -/

/-- Alpha in column `x`. -/
def alphaCol (a : Option Buf) (x : Nat) : Nat :=
  match a with
  | none => 255
  | some l => l.getD x 0

/-- There are alpha bytes up to column `w`. -/
def AlphaLen (a : Option Buf) (w : Nat) : Prop :=
  match a with
  | none => True
  | some l => w ≤ l.length

theorem alphaLen_none (w : Nat) : AlphaLen none w := trivial

theorem alphaBytes_at {n cx : Nat} {a : Option Buf} (h : AlphaLen a (cx + n)) :
    ∃ r, alphaBytes n a cx = .ok r ∧ ∀ i, i < n → r i = alphaCol a (cx + i) := by
  cases a with
  | none => exact ⟨_, rfl, fun i _ => rfl⟩
  | some l =>
    refine ⟨_, load_ld h, fun i hi => ?_⟩
    rw [ld_at hi]
    rfl

theorem AlphaLen.mono {a : Option Buf} {w v : Nat} (h : AlphaLen a w) (hv : v ≤ w) : AlphaLen a v := by
  cases a with
  | none => trivial
  | some l => exact Nat.le_trans hv h

/-- A grey pixel. -/
def grayPix (ch : Channels) (l a : Nat) : Buf := layout ch l l l a

/-- What a step of `n` pixels stores, `L` being its level of a luma sample. -/
def grayStep (ch : Channels) (L : Nat → Nat) (n : Nat) (y : Buf) (a : Option Buf) (cx : Nat) : Buf :=
  (List.range n).flatMap fun j => grayPix ch (L (y.getD (cx + j) 0)) (alphaCol a (cx + j))

theorem grayStep_of (ch : Channels) {L : Nat → Nat} {n : Nat} {y : Buf} {a : Option Buf} {cx : Nat}
    {v av : Reg} (hv : ∀ i, i < n → v i = L (y.getD (cx + i) 0))
    (ha : ∀ i, i < n → av i = alphaCol a (cx + i)) :
    pixels ch n v v v av = grayStep ch L n y a cx :=
  range_flatMap_congr fun j hj => by rw [hv j hj, ha j hj]; rfl

variable {rg : ChromaRange} {t : InvCoef}

theorem avx2Gray_eq (hby : rg.biasY < 256) (ht : GrayCoef t) (ch : Channels) {y : Buf}
    {a : Option Buf} (hy : ∀ x ∈ y, x < 256) {cx : Nat} (ly : cx + 32 ≤ y.length)
    (la : AlphaLen a (cx + 32)) (p : Nat) (row : Buf) :
    avx2Gray ch rg t y a cx p row
      = put row p (grayStep ch (fun y => lev t (y - rg.biasY)) 32 y a cx) := by
  obtain ⟨yr, ey, y1, y2⟩ := load_at ly hy
  obtain ⟨ar, ea, a1⟩ := alphaBytes_at la
  rw [avx2Gray, ey, Outcome.bind_ok, ea, Outcome.bind_ok, avx2Store_eq]
  rw [grayStep_of ch (L := fun y => lev t (y - rg.biasY)) (y := y) (a := a) (cx := cx) ?_ a1]
  intro i hi
  rw [grayBytes_at ht (n := 32) rfl (fun i _ => by rw [subsU8_at hby]; have := y2 i; omega) hi,
    subsU8_at hby, y1 i hi]

theorem grayStep_append (ch : Channels) (L : Nat → Nat) (m n : Nat) (y : Buf) (a : Option Buf)
    (cx : Nat) :
    grayStep ch L m y a cx ++ grayStep ch L n y a (cx + m) = grayStep ch L (m + n) y a cx := by
  unfold grayStep
  rw [range_add_flatMap]
  simp only [Nat.add_assoc]

theorem grayStep_length (ch : Channels) (L : Nat → Nat) (n : Nat) (y : Buf) (a : Option Buf)
    (cx : Nat) : (grayStep ch L n y a cx).length = n * ch.count :=
  flatMap_length fun _ _ => layout_length' ..

theorem avx2Gray64_eq (hby : rg.biasY < 256) (ht : GrayCoef t) (ch : Channels) {y : Buf}
    {a : Option Buf} (hy : ∀ x ∈ y, x < 256) {cx : Nat} (ly : cx + 64 ≤ y.length)
    (la : AlphaLen a (cx + 64)) (row : Buf) :
    avx2Gray64 ch rg t y a cx row
      = put row (cx * ch.count) (grayStep ch (fun y => lev t (y - rg.biasY)) 64 y a cx) := by
  rw [← grayStep_append ch _ 32 32, ← put_put _ _ (cx * ch.count + ch.count * 32) _ _
    (by rw [grayStep_length]; ring)]
  rw [avx2Gray64, avx2Gray_eq hby ht ch hy (by omega) (la.mono (by omega))]
  congr 1
  funext r
  exact avx2Gray_eq hby ht ch hy (by omega) (la.mono (by omega)) _ _

theorem avx2GrayHalf_eq (hby : rg.biasY < 256) (ht : GrayCoef t) (ch : Channels) {y : Buf}
    {a : Option Buf} (hy : ∀ x ∈ y, x < 256) {cx : Nat} (ly : cx + 16 ≤ y.length)
    (la : AlphaLen a (cx + 16)) (row : Buf) :
    avx2GrayHalf ch rg t y a cx row
      = put row (cx * ch.count) (grayStep ch (fun y => lev t (y - rg.biasY)) 16 y a cx) := by
  obtain ⟨yr, ey, y1, y2⟩ := load_at ly hy
  obtain ⟨ar, ea, a1⟩ := alphaBytes_at la
  rw [avx2GrayHalf, ey, Outcome.bind_ok, ea, Outcome.bind_ok, avx2StoreHalf_eq]
  rw [grayStep_of ch (L := fun y => lev t (y - rg.biasY)) (y := y) (a := a) (cx := cx) ?_ a1]
  intro i hi
  rw [grayBytesHalf_at ht (fun i _ => by rw [subsU8_at hby]; have := y2 i; omega) hi,
    subsU8_at hby, y1 i hi]

theorem sseGray_eq (hby : rg.biasY < 256) (ht : GrayCoef t) (ch : Channels) {y : Buf}
    {a : Option Buf} (hy : ∀ x ∈ y, x < 256) {cx : Nat} (ly : cx + 16 ≤ y.length)
    (la : AlphaLen a (cx + 16)) (row : Buf) :
    sseGray ch rg t y a cx row
      = put row (cx * ch.count) (grayStep ch (fun y => lev t (y - rg.biasY)) 16 y a cx) := by
  obtain ⟨yr, ey, y1, y2⟩ := load_at ly hy
  obtain ⟨ar, ea, a1⟩ := alphaBytes_at la
  rw [sseGray, ey, Outcome.bind_ok, ea, Outcome.bind_ok, sseStore_eq]
  rw [grayStep_of ch (L := fun y => lev t (y - rg.biasY)) (y := y) (a := a) (cx := cx) ?_ a1]
  intro i hi
  rw [grayBytes_at ht (n := 16) rfl (fun i _ => by rw [subsU8_at hby]; have := y2 i; omega) hi,
    subsU8_at hby, y1 i hi]

theorem sseGrayHalf_eq (hby : rg.biasY < 256) (ht : GrayCoef t) (ch : Channels) {y : Buf}
    {a : Option Buf} (hy : ∀ x ∈ y, x < 256) {cx : Nat} (ly : cx + 8 ≤ y.length)
    (la : AlphaLen a (cx + 8)) (p : Nat) (row : Buf) :
    sseGrayHalf ch rg t y a cx p row
      = put row p (grayStep ch (fun y => lev t (signedLuma rg.biasY y)) 8 y a cx) := by
  obtain ⟨yr, ey, y1, y2⟩ := load_at ly hy
  obtain ⟨ar, ea, a1⟩ := alphaBytes_at la
  rw [sseGrayHalf, ey, Outcome.bind_ok, ea, Outcome.bind_ok, sseStoreHalf_eq]
  rw [grayStep_of ch (L := fun y => lev t (signedLuma rg.biasY y)) (y := y) (a := a) (cx := cx) ?_ a1]
  intro i hi
  rw [grayBytesLow_at ht (fun i _ => by rw [subsI8_at hby]; exact signedLuma_lt _ _) hi,
    subsI8_at hby, y1 i hi]

/-! ## Rows -/

/-- Pixel `x` of a row; the level may depend on the column. -/
def grayRowPix (ch : Channels) (L : Nat → Nat → Nat) (y : Buf) (a : Option Buf) (x : Nat) : Buf :=
  grayPix ch (L x (y.getD x 0)) (alphaCol a x)

theorem grayRowPix_length (ch : Channels) (L : Nat → Nat → Nat) (y : Buf) (a : Option Buf) (x : Nat) :
    (grayRowPix ch L y a x).length = ch.count := layout_length' ..

theorem grayStep_row {ch : Channels} {L : Nat → Nat → Nat} {M : Nat → Nat} {n : Nat} {y : Buf}
    {a : Option Buf} {cx : Nat} (h : ∀ j, j < n → L (cx + j) = M) :
    grayStep ch M n y a cx = (List.range n).flatMap fun j => grayRowPix ch L y a (cx + j) :=
  range_flatMap_congr fun j hj => by rw [grayRowPix, h j hj]

/-- A loop of whole steps. -/
theorem grayLoop {step A w : Nat} (hs : 0 < step) (hA : step % A = 0) {ch : Channels}
    {L : Nat → Nat → Nat} {M : Nat → Nat} {y : Buf} {a : Option Buf} {row : Buf}
    (hw : w * ch.count ≤ row.length) {body : Nat → Buf → Outcome Buf} {cx0 : Nat} (h0 : cx0 % A = 0)
    (hcx : cx0 < w)
    (hbody : ∀ cx r, cx0 ≤ cx → cx + step < w →
      body cx r = put r (cx * ch.count) (grayStep ch M step y a cx))
    (hL : ∀ x, cx0 ≤ x → x < cx0 + (w - 1 - cx0) / step * step → L x = M) :
    ∃ cx, vwhile step 0 w (fun cx _ r => body cx r) cx0 0 (painted ch.count (grayRowPix ch L y a) cx0 row)
        = .ok (painted ch.count (grayRowPix ch L y a) cx row, cx, 0) ∧
      cx = cx0 + (w - 1 - cx0) / step * step ∧ cx % A = 0 ∧ cx < w := by
  obtain ⟨cx, ux, e, hc, ⟨⟨k, hk⟩, hu⟩, h3, h4⟩ := paintLoopI (step := step) (ustep := 0) (width := w)
    (cn := ch.count) (I := fun cx ux => (∃ k, cx = cx0 + k * step) ∧ ux = 0) hs
    (fun cx ux g => ⟨by obtain ⟨⟨k, hk⟩, _⟩ := g; exact ⟨k + 1, by rw [Nat.add_mul]; omega⟩, g.2⟩)
    (grayRowPix_length ch L y a) (row := row) hw (body := fun cx _ r => body cx r)
    (cx0 := cx0) (ux0 := 0) ⟨⟨0, by omega⟩, rfl⟩
    (by
      rintro cx ux r hle ⟨⟨k, hk⟩, _⟩ hlt
      rw [hbody cx r hle hlt, grayStep_row]
      intro j hj
      refine hL _ (by omega) ?_
      have : k + 1 ≤ (w - 1 - cx0) / step := by
        rw [Nat.le_div_iff_mul_le hs, Nat.add_mul]; omega
      have := Nat.mul_le_mul_right step this
      rw [Nat.add_mul] at this
      omega)
    (by omega)
  subst hu
  refine ⟨cx, e, hc, ?_, ?_⟩
  · rw [hk, Nat.add_mod, h0, Nat.mul_mod, hA]; simp
  · rw [hc, loopEnd]
    have := Nat.div_mul_le_self (w - 1 - cx0) step
    omega

/-- The last pixels of a row through the stack buffers. -/
theorem grayTail_ok {n w : Nat} {ch : Channels} {L : Nat → Nat → Nat} {M : Nat → Nat}
    {f : Buf → Buf → Outcome Buf} {y row : Buf} (hy : ∀ x ∈ y, x < 256)
    (hf : ∀ y d : Buf, (∀ x ∈ y, x < 256) → y.length = n → f y d = put d 0 (grayStep ch M n y none 0))
    (ly : w ≤ y.length) (hw : w * ch.count ≤ row.length) {cx : Nat} (h2 : cx < w) (h3 : w ≤ cx + n)
    (hL : ∀ x, cx ≤ x → x < w → L x = M) :
    grayTail n ch.count w f y (painted ch.count (grayRowPix ch L y none) cx row) cx
      = .ok (painted ch.count (grayRowPix ch L y none) w row) := by
  unfold grayTail
  rw [if_pos h2]
  obtain ⟨yb, ey, ly', y1, y2⟩ := copyIn_ok (src := y) (dst := List.replicate n 0) (p := cx)
    (n := w - cx) (by omega) (by simp; omega)
  have e1 := hf yb (List.replicate (n * 4) 0)
    (fun x hx => (y2 x hx).elim (hy x) (fun h => by rw [(List.mem_replicate.1 h).2]; decide))
    (by simpa using ly')
  simp only [ey, e1, Outcome.bind_ok, if_neg (show ¬ n < w - cx by omega)]
  have e2 := copyOut_put (N := n) (L := n * 4) (n := w - cx) (cn := ch.count)
    (Nat.mul_le_mul_left _ (count_le ch)) (by omega)
    (f := fun j => grayPix ch (M (yb.getD (0 + j) 0)) (alphaCol none (0 + j)))
    (fun j => layout_length' ..)
    (painted ch.count (grayRowPix ch L y none) cx row) (cx * ch.count)
  have e3 : ((List.range (w - cx)).flatMap fun j =>
      grayPix ch (M (yb.getD (0 + j) 0)) (alphaCol none (0 + j)))
      = (List.range (w - cx)).flatMap fun j => grayRowPix ch L y none (cx + j) := by
    apply range_flatMap_congr
    intro j hj
    rw [Nat.zero_add, y1 j hj, grayRowPix, hL _ (by omega) (by omega)]
    rfl
  rw [e3, painted_put (grayRowPix_length ch L y none)
    (by rw [Nat.add_sub_cancel' (by omega)]; exact hw), Nat.add_sub_cancel' (by omega)] at e2
  exact e2

theorem avx2GrayRow_ok (hby : rg.biasY < 256) (ht : GrayCoef t) (ch : Channels) {w : Nat} (h0 : 0 < w)
    {y row : Buf} (hy : ∀ x ∈ y, x < 256) (ly : w ≤ y.length) (hw : w * ch.count ≤ row.length) :
    avx2GrayRow ch rg t w y row 0
      = .ok (painted ch.count (grayRowPix ch (fun _ y => lev t (y - rg.biasY)) y none) w row) := by
  obtain ⟨c1, e1, k1, -, l1⟩ := grayLoop (step := 64) (A := 32) (by decide) rfl
    (L := fun _ y => lev t (y - rg.biasY)) (M := fun y => lev t (y - rg.biasY)) (y := y) (a := none)
    hw (body := fun cx r => avx2Gray64 ch rg t y none cx r) (cx0 := 0) rfl h0
    (fun cx r _ h => avx2Gray64_eq hby ht ch hy (by omega) (alphaLen_none _) r) (fun _ _ _ => rfl)
  obtain ⟨c2, e2, k2, -, l2⟩ := grayLoop (step := 32) (A := 32) (by decide) rfl
    (L := fun _ y => lev t (y - rg.biasY)) (M := fun y => lev t (y - rg.biasY)) (y := y) (a := none)
    hw (body := fun cx r => avx2Gray ch rg t y none cx (cx * ch.count) r) (cx0 := c1) (by omega) l1
    (fun cx r _ h => avx2Gray_eq hby ht ch hy (by omega) (alphaLen_none _) _ r) (fun _ _ _ => rfl)
  rw [painted_zero] at e1
  simp only [avx2GrayRow, e1, Outcome.bind_ok, e2]
  exact grayTail_ok (M := fun y => lev t (y - rg.biasY)) hy
    (fun y d hy ly => avx2Gray_eq hby ht ch hy (by omega) (alphaLen_none _) _ d) ly hw l2 (by omega)
    (fun _ _ _ => rfl)

/-- The level in column `x` of a row decoded by the SSE kernel. -/
def sseLev (rg : ChromaRange) (t : InvCoef) (w x y : Nat) : Nat :=
  if x < 16 * ((w - 1) / 16) then lev t (y - rg.biasY) else lev t (signedLuma rg.biasY y)

theorem sseGrayRow_ok (hby : rg.biasY < 256) (ht : GrayCoef t) (ch : Channels) {w : Nat} (h0 : 0 < w)
    {y row : Buf} (hy : ∀ x ∈ y, x < 256) (ly : w ≤ y.length) (hw : w * ch.count ≤ row.length) :
    sseGrayRow ch rg t w y row 0
      = .ok (painted ch.count (grayRowPix ch (sseLev rg t w) y none) w row) := by
  obtain ⟨c1, e1, k1, -, l1⟩ := grayLoop (step := 16) (A := 16) (by decide) rfl
    (L := sseLev rg t w) (M := fun y => lev t (y - rg.biasY)) (y := y) (a := none)
    hw (body := fun cx r => sseGray ch rg t y none cx r) (cx0 := 0) rfl h0
    (fun cx r _ h => sseGray_eq hby ht ch hy (by omega) (alphaLen_none _) r)
    (fun x _ h => funext fun y => by rw [sseLev, if_pos (by omega)])
  obtain ⟨c2, e2, k2, -, l2⟩ := grayLoop (step := 8) (A := 8) (by decide) rfl
    (L := sseLev rg t w) (M := fun y => lev t (signedLuma rg.biasY y)) (y := y) (a := none)
    hw (body := fun cx r => sseGrayHalf ch rg t y none cx (cx * ch.count) r) (cx0 := c1) (by omega) l1
    (fun cx r _ h => sseGrayHalf_eq hby ht ch hy (by omega) (alphaLen_none _) _ r)
    (fun x h _ => funext fun y => by rw [sseLev, if_neg (by omega)])
  rw [painted_zero] at e1
  simp only [sseGrayRow, e1, Outcome.bind_ok, e2]
  exact grayTail_ok (M := fun y => lev t (signedLuma rg.biasY y)) hy
    (fun y d hy ly => sseGrayHalf_eq hby ht ch hy (by omega) (alphaLen_none _) _ d) ly hw l2 (by omega)
    (fun x h _ => funext fun y => by rw [sseLev, if_neg (by omega)])

/-- The SSE kernel for images with alpha, from a column that is a multiple of 16. -/
theorem sseGrayAlphaRow_ok (hby : rg.biasY < 256) (ht : GrayCoef t) (ch : Channels) {w : Nat}
    {y a row : Buf} (hy : ∀ x ∈ y, x < 256) (ly : w ≤ y.length) (la : w ≤ a.length)
    (hw : w * ch.count ≤ row.length) {cx : Nat} (h0 : cx < w) (hc : cx % 16 = 0) :
    sseGrayAlphaRow ch rg t w y a (painted ch.count (grayRowPix ch (sseLev rg t w) y (some a)) cx row) cx
      = .ok (painted ch.count (grayRowPix ch (sseLev rg t w) y (some a)) (8 * ((w - 1) / 8)) row,
        8 * ((w - 1) / 8)) := by
  have len : ∀ {n}, n ≤ w → AlphaLen (some a) n := fun h => Nat.le_trans h la
  obtain ⟨c1, e1, k1, -, l1⟩ := grayLoop (step := 16) (A := 16) (by decide) rfl
    (L := sseLev rg t w) (M := fun y => lev t (y - rg.biasY)) (y := y) (a := some a)
    hw (body := fun cx r => sseGray ch rg t y (some a) cx r) (cx0 := cx) hc h0
    (fun cx r _ h => sseGray_eq hby ht ch hy (by omega) (len (by omega)) r)
    (fun x _ h => funext fun y => by rw [sseLev, if_pos (by omega)])
  obtain ⟨c2, e2, k2, -, l2⟩ := grayLoop (step := 8) (A := 8) (by decide) rfl
    (L := sseLev rg t w) (M := fun y => lev t (signedLuma rg.biasY y)) (y := y) (a := some a)
    hw (body := fun cx r => sseGrayHalf ch rg t y (some a) cx (cx * ch.count) r) (cx0 := c1)
    (by omega) l1
    (fun cx r _ h => sseGrayHalf_eq hby ht ch hy (by omega) (len (by omega)) _ r)
    (fun x h _ => funext fun y => by rw [sseLev, if_neg (by omega)])
  have hc2 : 8 * ((w - 1) / 8) = c2 := by omega
  simp only [sseGrayAlphaRow, e1, Outcome.bind_ok, e2, hc2]
  rfl

theorem avx2GrayAlphaRow_ok (hby : rg.biasY < 256) (ht : GrayCoef t) (ch : Channels) {w : Nat}
    (h0 : 0 < w) {y a row : Buf} (hy : ∀ x ∈ y, x < 256) (ly : w ≤ y.length) (la : w ≤ a.length)
    (hw : w * ch.count ≤ row.length) :
    avx2GrayAlphaRow ch rg t w y a row 0
      = .ok (painted ch.count (grayRowPix ch (sseLev rg t w) y (some a)) (16 * ((w - 1) / 16)) row,
        16 * ((w - 1) / 16)) := by
  have len : ∀ {n}, n ≤ w → AlphaLen (some a) n := fun h => Nat.le_trans h la
  obtain ⟨c1, e1, k1, -, l1⟩ := grayLoop (step := 64) (A := 16) (by decide) rfl
    (L := sseLev rg t w) (M := fun y => lev t (y - rg.biasY)) (y := y) (a := some a)
    hw (body := fun cx r => avx2Gray64 ch rg t y (some a) cx r) (cx0 := 0) rfl h0
    (fun cx r _ h => avx2Gray64_eq hby ht ch hy (by omega) (len (by omega)) r)
    (fun x _ h => funext fun y => by rw [sseLev, if_pos (by omega)])
  obtain ⟨c2, e2, k2, -, l2⟩ := grayLoop (step := 32) (A := 16) (by decide) rfl
    (L := sseLev rg t w) (M := fun y => lev t (y - rg.biasY)) (y := y) (a := some a)
    hw (body := fun cx r => avx2Gray ch rg t y (some a) cx (cx * ch.count) r) (cx0 := c1) (by omega) l1
    (fun cx r _ h => avx2Gray_eq hby ht ch hy (by omega) (len (by omega)) _ r)
    (fun x _ h => funext fun y => by rw [sseLev, if_pos (by omega)])
  obtain ⟨c3, e3, k3, -, l3⟩ := grayLoop (step := 16) (A := 16) (by decide) rfl
    (L := sseLev rg t w) (M := fun y => lev t (y - rg.biasY)) (y := y) (a := some a)
    hw (body := fun cx r => avx2GrayHalf ch rg t y (some a) cx r) (cx0 := c2) (by omega) l2
    (fun cx r _ h => avx2GrayHalf_eq hby ht ch hy (by omega) (len (by omega)) r)
    (fun x _ h => funext fun y => by rw [sseLev, if_pos (by omega)])
  rw [painted_zero] at e1
  have hc3 : 16 * ((w - 1) / 16) = c3 := by omega
  simp only [avx2GrayAlphaRow, e1, Outcome.bind_ok, e2, e3, hc3]
  rfl

/-! ## Encoding -/

theorem catHalf16_3 {l : Buf} {p i : Nat} (h : i < 48) :
    cat 32 [ld 32 l p, ld 16 l (p + 32), zero] i = l.getD (p + i) 0 := by
  apply cat_cons (Nat.le_refl 32) (fun h => h)
  intro h1
  exact cat_cons (by decide) (fun _ => by omega) (fun _ => by omega)

theorem catHalf16_4 {l : Buf} {p i : Nat} (h : i < 64) :
    cat 32 [ld 32 l p, ld 32 l (p + 32), zero, zero] i = l.getD (p + i) 0 := by
  apply cat_cons (Nat.le_refl 32) (fun h => h)
  intro h1
  exact cat_cons (by decide) (fun _ => by omega) (fun _ => by omega)

theorem avx2LoadHalf_at (ch : Channels) {l : Buf} {x0 : Nat} (h : (x0 + 16) * ch.count ≤ l.length) :
    ∃ c, avx2LoadHalf ch l (x0 * ch.count) = .ok c ∧ PixAt ch c 16 l x0 := by
  have e : (x0 + 16) * ch.count = x0 * ch.count + 16 * ch.count := by ring
  rw [e] at h
  unfold avx2LoadHalf
  cases ch
  all_goals
    simp only [Channels.count] at h ⊢
    rw [load_ld (by omega), Outcome.bind_ok, load_ld (by omega), Outcome.bind_ok]
  · refine ⟨_, rfl, pixAt_of_bytes (fun i hi => catHalf16_3 hi) fun i hi => ?_⟩
    have := avx2DeRgb_at (ld 32 l (x0 * 3)) (ld 16 l (x0 * 3 + 32)) zero (i := i) (by omega)
    exact ⟨this.2.1, this.1, this.2.2⟩
  · refine ⟨_, rfl, pixAt_of_bytes (fun i hi => catHalf16_4 hi) fun i hi => ?_⟩
    have := avx2DeRgba_at (ld 32 l (x0 * 4)) (ld 32 l (x0 * 4 + 32)) zero zero (i := i) (by omega)
    exact ⟨this.2.1, this.1, this.2.2⟩
  · refine ⟨_, rfl, pixAt_of_bytes (fun i hi => catHalf16_4 hi) fun i hi => ?_⟩
    have := avx2DeRgba_at (ld 32 l (x0 * 4)) (ld 32 l (x0 * 4 + 32)) zero zero (i := i) (by omega)
    exact ⟨this.2.1, this.1, this.2.2⟩
  · refine ⟨_, rfl, pixAt_of_bytes (fun i hi => catHalf16_3 hi) fun i hi => ?_⟩
    have := avx2DeRgb_at (ld 32 l (x0 * 3)) (ld 16 l (x0 * 3 + 32)) zero (i := i) (by omega)
    exact ⟨this.2.1, this.1, this.2.2⟩

/-- A step of `n` pixels stores the luma values `V` of its pixels; `V` may depend on the place in the
step. -/
def ToGrayOk (n : Nat) (ch : Channels) (V : Nat → Buf → Nat)
    (f : Buf → Nat → Nat → Buf → Outcome Buf) : Prop :=
  ∀ (src : Buf) (x0 cx : Nat) (o : Buf), (∀ b ∈ src, b < 256) → (x0 + n) * ch.count ≤ src.length →
    f src (x0 * ch.count) cx o
      = put o cx ((List.range n).flatMap fun j => [V j (rowPx src ch.count (x0 + j))])

variable {tf : FwdCoef}

theorem avx2ToGray_ok (h : DotOk (biasLuma rg) (kLuma tf)) (ch : Channels) :
    ToGrayOk 32 ch (fun _ => lumaVec ch (biasLuma rg) (kLuma tf)) (avx2ToGray ch rg tf) := by
  intro src x0 cx o hb hl
  obtain ⟨c, e, hp⟩ := avx2Load_at ch hl
  rw [avx2ToGray, e, Outcome.bind_ok]
  exact store_flat (fun i hi => dotBytes_at h (n := 32) rfl (hp.chans hb) hi) o

theorem sseToGray_ok (h : DotOk (biasLuma rg) (kLuma tf)) (ch : Channels) :
    ToGrayOk 16 ch (fun _ => lumaVec ch (biasLuma rg) (kLuma tf)) (sseToGray ch rg tf) := by
  intro src x0 cx o hb hl
  obtain ⟨c, e, hp⟩ := sseLoad_at ch hl
  rw [sseToGray, e, Outcome.bind_ok]
  exact store_flat (fun i hi => dotBytes_at h (n := 16) rfl (hp.chans hb) hi) o

theorem sseToGrayHalf_ok (h : DotOk (biasLuma rg) (kLuma tf)) (ch : Channels) :
    ToGrayOk 8 ch (fun _ => lumaVec ch (biasLuma rg) (kLuma tf)) (sseToGrayHalf ch rg tf) := by
  intro src x0 cx o hb hl
  obtain ⟨c, e, hp⟩ := sseLoadHalf_at ch hl
  rw [sseToGrayHalf, e, Outcome.bind_ok]
  exact store_flat (fun i hi => dotBytesLow_at h (hp.chans hb) hi) o

theorem dotBytesLow_high {bias : Int} {k : Int × Int × Int} {c : Reg × Reg × Reg} {i : Nat}
    (h : 8 ≤ i) (h' : i < 16) : dotBytesLow bias k c i = 0 := by
  have z : satU8 (s16 zero (i / 16 * 8 + i % 8)) = 0 := by
    generalize i / 16 * 8 + i % 8 = k
    simp [s16, w16, zero, satU8, asI16]
  unfold dotBytesLow packus16
  rw [if_neg (by omega), z]

theorem avx2ToGrayHalf_ok (h : DotOk (biasLuma rg) (kLuma tf)) (ch : Channels) :
    ToGrayOk 16 ch (fun j px => if j < 8 then lumaVec ch (biasLuma rg) (kLuma tf) px else 0)
      (avx2ToGrayHalf ch rg tf) := by
  intro src x0 cx o hb hl
  obtain ⟨c, e, hp⟩ := avx2LoadHalf_at ch hl
  rw [avx2ToGrayHalf, e, Outcome.bind_ok]
  refine store_flat (fun i hi => ?_) o
  by_cases h8 : i < 8
  · simp only [if_pos h8]
    exact dotBytesLow_at h (PixAt.chans (fun i hi => hp i (by omega)) hb) h8
  · simp only [if_neg h8]
    exact dotBytesLow_high (by omega) hi

/-- Sample `x` of a row; its value may depend on the column. -/
def toGrayPix (ch : Channels) (V : Nat → Buf → Nat) (src : Buf) (x : Nat) : Buf :=
  [V x (rowPx src ch.count x)]

theorem toGrayLoop {step A w : Nat} (hs : 0 < step) (hA : step % A = 0) {ch : Channels}
    {V W : Nat → Buf → Nat} {f : Buf → Nat → Nat → Buf → Outcome Buf} (hf : ToGrayOk step ch W f)
    {src : Buf} (hb : ∀ b ∈ src, b < 256) (hl : w * ch.count ≤ src.length) {o : Buf} (ho : w ≤ o.length)
    {cx0 : Nat} (h0 : cx0 % A = 0) (hcx : cx0 < w)
    (hV : ∀ cx j, cx % A = 0 → cx0 ≤ cx → cx + step < w → j < step → V (cx + j) = W j) :
    ∃ cx, vwhile step 0 w (fun cx _ r => f src (cx * ch.count) cx r) cx0 0
        (painted 1 (toGrayPix ch V src) cx0 o) = .ok (painted 1 (toGrayPix ch V src) cx o, cx, 0) ∧
      cx = cx0 + (w - 1 - cx0) / step * step ∧ cx % A = 0 ∧ cx < w := by
  have hm : ∀ k, (cx0 + k * step) % A = 0 := by
    intro k; rw [Nat.add_mod, h0, Nat.mul_mod, hA]; simp
  obtain ⟨cx, ux, e, hc, ⟨⟨k, hk⟩, hu⟩, h3, h4⟩ := paintLoopI (step := step) (ustep := 0) (width := w)
    (cn := 1) (I := fun cx ux => (∃ k, cx = cx0 + k * step) ∧ ux = 0) hs
    (fun cx ux g => ⟨by obtain ⟨⟨k, hk⟩, _⟩ := g; exact ⟨k + 1, by rw [Nat.add_mul]; omega⟩, g.2⟩)
    (pix := toGrayPix ch V src) (fun _ => rfl) (row := o) (by omega)
    (body := fun cx _ r => f src (cx * ch.count) cx r)
    (cx0 := cx0) (ux0 := 0) ⟨⟨0, by omega⟩, rfl⟩
    (by
      rintro cx ux r hle ⟨⟨k, hk⟩, _⟩ hlt
      rw [hf src cx cx r hb (Nat.le_trans (Nat.mul_le_mul_right _ (by omega)) hl), Nat.mul_one]
      congr 1
      refine range_flatMap_congr fun j hj => ?_
      rw [toGrayPix, hV cx j (by rw [hk]; exact hm k) hle hlt hj])
    (by omega)
  subst hu
  refine ⟨cx, e, hc, by rw [hk]; exact hm k, ?_⟩
  rw [hc, loopEnd]
  have := Nat.div_mul_le_self (w - 1 - cx0) step
  omega

theorem toGrayTail_ok {n w : Nat} {ch : Channels} {V W : Nat → Buf → Nat}
    {f : Buf → Nat → Nat → Buf → Outcome Buf} (hf : ToGrayOk n ch W f)
    {src : Buf} (hb : ∀ b ∈ src, b < 256) (hl : w * ch.count ≤ src.length) {o : Buf} (ho : w ≤ o.length)
    {cx : Nat} (h1 : cx < w) (h2 : w ≤ cx + n) (hV : ∀ j, cx + j < w → V (cx + j) = W j) :
    toGrayTail n ch.count w (fun sb b => f sb 0 0 b) src (painted 1 (toGrayPix ch V src) cx o) cx
      = .ok (painted 1 (toGrayPix ch V src) w o, w) := by
  have hcn := count_le ch
  have hdn : (w - cx) * ch.count ≤ n * ch.count := Nat.mul_le_mul_right _ (by omega)
  have hn4 : n * ch.count ≤ n * 4 := Nat.mul_le_mul_left _ hcn
  have e1 : cx * ch.count + (w - cx) * ch.count = w * ch.count := by
    rw [← Nat.add_mul]; congr 1; omega
  obtain ⟨sb, es, ls, s1, s2⟩ := copyIn_ok (src := src) (dst := List.replicate (n * 4) 0)
    (p := cx * ch.count) (n := (w - cx) * ch.count) (by omega) (by rw [List.length_replicate]; omega)
  rw [List.length_replicate] at ls
  have sB : ∀ s ∈ sb, s < 256 := by
    intro s hs
    rcases s2 s hs with h | h
    · exact hb s h
    · rw [(List.mem_replicate.1 h).2]; decide
  have e2 := hf sb 0 0 (List.replicate n 0) sB (by rw [Nat.zero_add]; omega)
  rw [Nat.zero_mul] at e2
  unfold toGrayTail
  rw [if_pos h1]
  simp only [es, Outcome.bind_ok, if_neg (show ¬ n < w - cx by omega), e2]
  obtain ⟨b, e3, e4⟩ := buf_copyOut (N := n) (L := n) (cn := 1) (by omega)
    (f := fun j => [W j (rowPx sb ch.count (0 + j))]) (fun _ => rfl)
  rw [e3, Outcome.bind_ok]
  have e5 := e4 (w - cx) (painted 1 (toGrayPix ch V src) cx o) cx (by omega)
  rw [Nat.mul_one] at e5
  rw [e5, painted_put1 (pix := toGrayPix ch V src) (fun _ => rfl) (by omega) (fun j hj => by
    rw [toGrayPix, hV j (by omega), Nat.zero_add,
      rowPx_copy (a := src) (b := sb) (n := w - cx) (x0 := cx) (by omega) (by omega) s1 hj])]
  rw [Outcome.bind_ok, Nat.add_sub_cancel' (by omega)]
  rfl

/-- The value in column `x` of a row encoded by the AVX2 kernel. -/
def avx2LumaAt (ch : Channels) (rg : ChromaRange) (tf : FwdCoef) (w x : Nat) (px : Buf) : Nat :=
  if 32 * ((w - 1) / 32) ≤ x ∧ 8 ≤ x % 16 then 0 else lumaVec ch (biasLuma rg) (kLuma tf) px

theorem avx2ToGrayRow_ok (h : DotOk (biasLuma rg) (kLuma tf)) (ch : Channels) {w : Nat} (h0 : 0 < w)
    {src : Buf} (hb : ∀ b ∈ src, b < 256) (hl : w * ch.count ≤ src.length) {o : Buf} (ho : w ≤ o.length) :
    avx2ToGrayRow ch rg tf w src o 0
      = .ok (painted 1 (toGrayPix ch (avx2LumaAt ch rg tf w) src) w o, w) := by
  have hV : ∀ c1 cx j, c1 = 32 * ((w - 1) / 32) → cx % 16 = 0 → c1 ≤ cx → j < 16 →
      avx2LumaAt ch rg tf w (cx + j)
        = fun px => if j < 8 then lumaVec ch (biasLuma rg) (kLuma tf) px else 0 := by
    intro c1 cx j hc hm hle hj
    funext px
    unfold avx2LumaAt
    by_cases h8 : j < 8
    · rw [if_neg (by omega), if_pos h8]
    · rw [if_pos (by omega), if_neg h8]
  obtain ⟨c1, e1, k1, m1, l1⟩ := toGrayLoop (step := 32) (A := 32) (by decide) rfl
    (V := avx2LumaAt ch rg tf w) (avx2ToGray_ok h ch) hb hl ho (cx0 := 0) rfl h0
    (fun cx j hm _ hlt hj => by funext px; unfold avx2LumaAt; rw [if_neg (by omega)])
  obtain ⟨c2, e2, k2, m2, l2⟩ := toGrayLoop (step := 16) (A := 16) (by decide) rfl
    (V := avx2LumaAt ch rg tf w) (avx2ToGrayHalf_ok h ch) hb hl ho (cx0 := c1) (by omega) l1
    (fun cx j hm hle hlt hj => hV c1 cx j (by omega) hm hle hj)
  rw [painted_zero] at e1
  simp only [avx2ToGrayRow, e1, Outcome.bind_ok, e2]
  exact toGrayTail_ok (avx2ToGrayHalf_ok h ch) hb hl ho l2 (by omega)
    (fun j hj => hV c1 c2 j (by omega) m2 (by omega) (by omega))

theorem sseToGrayRow_ok (h : DotOk (biasLuma rg) (kLuma tf)) (ch : Channels) {w : Nat} (h0 : 0 < w)
    {src : Buf} (hb : ∀ b ∈ src, b < 256) (hl : w * ch.count ≤ src.length) {o : Buf} (ho : w ≤ o.length) :
    sseToGrayRow ch rg tf w src o 0
      = .ok (painted 1 (toGrayPix ch (fun _ => lumaVec ch (biasLuma rg) (kLuma tf)) src) w o, w) := by
  obtain ⟨c1, e1, k1, m1, l1⟩ := toGrayLoop (step := 16) (A := 16) (by decide) rfl
    (V := fun _ => lumaVec ch (biasLuma rg) (kLuma tf)) (sseToGray_ok h ch) hb hl ho (cx0 := 0) rfl h0
    (fun _ _ _ _ _ _ => rfl)
  obtain ⟨c2, e2, k2, m2, l2⟩ := toGrayLoop (step := 8) (A := 8) (by decide) rfl
    (V := fun _ => lumaVec ch (biasLuma rg) (kLuma tf)) (sseToGrayHalf_ok h ch) hb hl ho (cx0 := c1)
    (by omega) l1 (fun _ _ _ _ _ _ => rfl)
  rw [painted_zero] at e1
  simp only [sseToGrayRow, e1, Outcome.bind_ok, e2]
  exact toGrayTail_ok (sseToGrayHalf_ok h ch) hb hl ho l2 (by omega) (fun _ _ => rfl)

/-- At the end of a row the kernel does nothing. -/
theorem sseToGrayRow_end (ch : Channels) (w : Nat) (src o : Buf) :
    sseToGrayRow ch rg tf w src o w = .ok (o, w) := by
  have v : ∀ step (body : Nat → Nat → Buf → Outcome Buf), vwhile step 0 w body w 0 o = .ok (o, w, 0) := by
    intro step body
    unfold vwhile
    cases w with
    | zero => rfl
    | succ n => rw [whileGo, if_neg (by omega)]
  simp only [sseToGrayRow, v, Outcome.bind_ok, toGrayTail]
  rw [if_neg (by omega)]

/-! ## Handlers -/

theorem comp_plane {l : Buf} {ls : List Buf} {s : Src} {ss : List Src} (hs : s.cn = 1) {x : Nat}
    (h : x < l.length) : comp (Verif.pixels (s :: ss) (l :: ls) x) 0 0 = l.getD x 0 := by
  simp only [comp, Verif.pixels, List.zipWith_cons_cons, List.getD_cons_zero, hs]
  simp only [List.getD_eq_getElem?_getD, chunk_getElem?]
  simp

theorem comp_plane1 {l l' : Buf} {s s' : Src} (hs : s'.cn = 1) {x : Nat} :
    comp (Verif.pixels [s, s'] [l, l'] x) 1 0 = l'.getD x 0 := by
  simp only [comp, Verif.pixels, List.zipWith_cons_cons, List.getD_cons_succ, List.getD_cons_zero, hs]
  simp only [List.getD_eq_getElem?_getD, chunk_getElem?]
  simp

theorem rows_one {s : Src} {rows : List Buf} (h : rows.length = [s].length) : ∃ l, rows = [l] :=
  List.length_eq_one_iff.1 h

theorem rows_two {s s' : Src} {rows : List Buf} (h : rows.length = [s, s'].length) :
    ∃ l l', rows = [l, l'] := List.length_eq_two.1 h

theorem grayCoef_search (m : Matrix) : GrayCoef (searchInverse 13 8 .limited m) := by
  have := grayY_coef (d := 8) (Or.inl rfl) m
  unfold GrayCoef; omega

/-- The grey level in column `x` of a row of `w` pixels on each class of processor, limited range. -/
def cpuGrayRow (cpu : Cpu) (m : Matrix) (w x y : Nat) : Nat :=
  match cpu with
  | .plain => grayLevel 8 .limited m y
  | .avx2 => vecGrayLevel m y
  | .sse41 => sseGrayLevel m w x y

theorem grayHandler_fills (cpu : Cpu) (ch : Channels) (m : Matrix) {w : Nat} (h0 : 0 < w) {s : Src}
    (hs : s.cn = 1) :
    (grayHandler cpu ch (getYuvRange 8 .limited) (searchInverse 13 8 .limited m) w).Fills 256 w ch.count
      [s] (fun px => layout ch (grayLevel 8 .limited m (comp px 0 0)) (grayLevel 8 .limited m (comp px 0 0))
        (grayLevel 8 .limited m (comp px 0 0)) 255)
      (fun x px p => p = grayPix ch (cpuGrayRow cpu m w x (comp px 0 0)) 255) := by
  intro rows row h1 h2 h3
  obtain ⟨y, rfl⟩ := rows_one h1
  obtain ⟨ly, hy⟩ := h2 s y (by simp)
  rw [hs, Nat.mul_one] at ly
  have hby : (getYuvRange 8 .limited).biasY < 256 := by decide
  cases cpu with
  | avx2 =>
    have e := avx2GrayRow_ok hby (grayCoef_search m) ch h0 hy ly h3
    refine ⟨_, w, by simp only [grayHandler, List.getD_cons_zero, e, Outcome.bind_ok]; rfl,
      painted_done (count_pos ch) (fun _ => grayRowPix_length ..) h3 (le_refl _) (.inr rfl)
        fun x hx => ?_, fun x h4 h5 => absurd h4 (by omega)⟩
    show _ = grayPix _ _ _
    rw [comp_plane hs (by omega)]; rfl
  | sse41 =>
    have e := sseGrayRow_ok hby (grayCoef_search m) ch h0 hy ly h3
    refine ⟨_, w, by simp only [grayHandler, List.getD_cons_zero, e, Outcome.bind_ok]; rfl,
      painted_done (count_pos ch) (fun _ => grayRowPix_length ..) h3 (le_refl _) (.inr rfl)
        fun x hx => ?_, fun x h4 h5 => absurd h4 (by omega)⟩
    show _ = grayPix _ _ _
    rw [comp_plane hs (by omega)]; rfl
  | plain =>
    obtain ⟨row', cx, e, hd⟩ := noMap_ok (B := 256) (R := fun _ _ => False) [y] row h1 h2 h3
    exact ⟨row', cx, e, rowDone_imp hd fun _ _ _ h => h.elim, fun _ _ _ => rfl⟩

/-- The grey level in column `x` of a row of `w` pixels with alpha. -/
def cpuGrayAlphaRow (cpu : Cpu) (m : Matrix) (w x y : Nat) : Nat :=
  if cpu = .plain then grayLevel 8 .limited m y else vecGrayAlphaLevel m w x y

theorem grayAlphaHandler_fills (cpu : Cpu) (ch : Channels) (m : Matrix) {w : Nat} (h0 : 0 < w)
    {s s' : Src} (hs : s.cn = 1) (hs' : s'.cn = 1) :
    (grayAlphaHandler cpu ch (getYuvRange 8 .limited) (searchInverse 13 8 .limited m) w).Fills 256 w
      ch.count [s, s'] (fun px => layout ch (grayLevel 8 .limited m (comp px 0 0))
        (grayLevel 8 .limited m (comp px 0 0)) (grayLevel 8 .limited m (comp px 0 0)) (comp px 1 0))
      (fun x px p => p = grayPix ch (cpuGrayAlphaRow cpu m w x (comp px 0 0)) (comp px 1 0)) := by
  intro rows row h1 h2 h3
  obtain ⟨y, a, rfl⟩ := rows_two h1
  obtain ⟨ly, hy⟩ := h2 s y (by simp)
  obtain ⟨la, -⟩ := h2 s' a (by simp)
  rw [hs, Nat.mul_one] at ly
  rw [hs', Nat.mul_one] at la
  have hby : (getYuvRange 8 .limited).biasY < 256 := by decide
  have fin : ∀ cpu, cpu ≠ Cpu.plain →
      grayAlphaHandler cpu ch (getYuvRange 8 .limited) (searchInverse 13 8 .limited m) w [y, a] row
        = .ok (painted ch.count (grayRowPix ch (sseLev (getYuvRange 8 .limited)
          (searchInverse 13 8 .limited m) w) y (some a)) (8 * ((w - 1) / 8)) row, 8 * ((w - 1) / 8)) →
      ∃ row' cx, grayAlphaHandler cpu ch (getYuvRange 8 .limited) (searchInverse 13 8 .limited m) w
          [y, a] row = .ok (row', cx) ∧
        RowDone ch.count w 1 (fun x p => p = grayPix ch (cpuGrayAlphaRow cpu m w x
          (comp (Verif.pixels [s, s'] [y, a] x) 0 0)) (comp (Verif.pixels [s, s'] [y, a] x) 1 0))
          row row' cx ∧
        ∀ x, cx ≤ x → x < w → layout ch (grayLevel 8 .limited m (comp (Verif.pixels [s, s'] [y, a] x) 0 0))
          (grayLevel 8 .limited m (comp (Verif.pixels [s, s'] [y, a] x) 0 0))
          (grayLevel 8 .limited m (comp (Verif.pixels [s, s'] [y, a] x) 0 0))
          (comp (Verif.pixels [s, s'] [y, a] x) 1 0)
          = grayPix ch (cpuGrayAlphaRow cpu m w x
          (comp (Verif.pixels [s, s'] [y, a] x) 0 0)) (comp (Verif.pixels [s, s'] [y, a] x) 1 0) := by
    intro cpu hc e
    refine ⟨_, _, e, painted_done (count_pos ch) (fun _ => grayRowPix_length ..) h3 (by omega)
        (.inl (Nat.mod_one _)) fun x hx => ?_, fun x h4 h5 => ?_⟩
    · rw [comp_plane hs (by omega), comp_plane1 hs']
      simp only [cpuGrayAlphaRow, if_neg hc, vecGrayAlphaLevel, if_pos hx]
      rfl
    · simp only [cpuGrayAlphaRow, if_neg hc, vecGrayAlphaLevel]
      rw [if_neg (by omega), if_neg (by omega)]; rfl
  cases cpu with
  | avx2 =>
    refine fin .avx2 (by decide) ?_
    have e := avx2GrayAlphaRow_ok hby (grayCoef_search m) ch h0 hy ly la h3
    have e' := sseGrayAlphaRow_ok hby (grayCoef_search m) ch hy ly la h3
      (cx := 16 * ((w - 1) / 16)) (by omega) (by omega)
    simp only [grayAlphaHandler, List.getD_cons_zero, List.getD_cons_succ, e, Outcome.bind_ok]
    exact e'
  | sse41 =>
    refine fin .sse41 (by decide) ?_
    have e' := sseGrayAlphaRow_ok hby (grayCoef_search m) ch hy ly la h3 (cx := 0) h0 rfl
    rw [painted_zero] at e'
    simp only [grayAlphaHandler, List.getD_cons_zero, List.getD_cons_succ]
    exact e'
  | plain =>
    obtain ⟨row', cx, e, hd⟩ := noMap_ok (B := 256) (R := fun _ _ => False) [y, a] row h1 h2 h3
    exact ⟨row', cx, e, rowDone_imp hd fun _ _ _ h => h.elim, fun _ _ _ => rfl⟩

/-- The luma sample in column `x` of a row of `w` pixels on each class of processor. -/
def cpuToGray (cpu : Cpu) (ch : Channels) (rg : YuvRange) (m : Matrix) (w x : Nat) (px : Buf) : Nat :=
  match cpu with
  | .plain => luma8 13 ch rg m px
  | .avx2 => avx2ToGrayLuma ch rg m w x px
  | .sse41 => vecLuma ch rg m px

theorem toGrayHandler_fills (cpu : Cpu) (ch : Channels) (rg : YuvRange) (m : Matrix) {w : Nat}
    (h0 : 0 < w) {s : Src} (hs : s.cn = ch.count) :
    (toGrayHandler cpu ch (getYuvRange 8 rg) (searchForward 13 8 rg m) w).Fills 256 w 1 [s]
      (fun px => [luma8 13 ch rg m (px.getD 0 [])])
      (fun x px p => p = [cpuToGray cpu ch rg m w x (px.getD 0 [])]) := by
  intro rows row h1 h2 h3
  obtain ⟨src, rfl⟩ := rows_one h1
  obtain ⟨ls, hb⟩ := h2 s src (by simp)
  rw [hs] at ls
  have h3' : w ≤ row.length := by omega
  have hd := (fwdOk_search rg m).y
  have epx : ∀ x, (Verif.pixels [s] [src] x).getD 0 [] = rowPx src ch.count x := by
    intro x
    simp only [Verif.pixels, List.zipWith_cons_cons, List.getD_cons_zero, hs, chunk, rowPx, pixelAt,
      Nat.zero_mul, Nat.zero_add]
  cases cpu with
  | avx2 =>
    have e := avx2ToGrayRow_ok hd ch h0 hb ls h3'
    refine ⟨_, w, by simp only [toGrayHandler, List.getD_cons_zero, e, Outcome.bind_ok,
        sseToGrayRow_end]; rfl,
      painted_done (pix := toGrayPix ch (avx2LumaAt ch _ _ w) src) Nat.one_pos (fun _ => rfl) h3 (le_refl _) (.inr rfl) fun x hx => ?_,
      fun x h4 h5 => absurd h4 (by omega)⟩
    show _ = [_]
    rw [epx]
    simp only [toGrayPix, avx2LumaAt, lumaVec_eq]
    rfl
  | sse41 =>
    have e := sseToGrayRow_ok hd ch h0 hb ls h3'
    refine ⟨_, w, by simp only [toGrayHandler, List.getD_cons_zero, e]; rfl,
      painted_done (pix := toGrayPix ch (fun _ => lumaVec ch _ _) src) Nat.one_pos (fun _ => rfl) h3 (le_refl _) (.inr rfl) fun x hx => ?_,
      fun x h4 h5 => absurd h4 (by omega)⟩
    show _ = [_]
    rw [epx]
    simp only [toGrayPix, lumaVec_eq]
    rfl
  | plain =>
    obtain ⟨row', cx, e, hd⟩ := noMap_ok (B := 256) (R := fun _ _ => False) [src] row h1 h2 h3
    exact ⟨row', cx, e, rowDone_imp hd fun _ _ _ h => h.elim, fun _ _ _ => rfl⟩

end Verif.X86
