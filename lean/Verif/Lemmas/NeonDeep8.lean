import Verif.Model.NeonDeep8
import Verif.Spec.NeonDeep8
import Verif.Lemmas.X86Deep8
import Verif.Lemmas.NeonNvModes
/-! # Rows of the 64-bit ARM decoders of 10- and 12-bit images to 8 bits -/
namespace Verif.Neon
open Spec X86

theorem s16_subBias (a : Reg) (b k : Nat) :
    s16 (sub16 a (set1_16 (b : Int))) k = int16 ((w16 a k : Int) - b) := by
  rw [s16_sub, s16_set1, s16]
  generalize w16 a k = n
  unfold int16 asI16; omega

theorem s16_twice (a : Reg) (k : Nat) : s16 (twice16 a) k = s16 a (k / 2) := by
  rw [twice16, s16_mk16]
  have := s16_bounds a (k / 2)
  exact asI16_id this.1 this.2

theorem deepChroma_at (e : Endianness) (bp : BytesPacking) {d : Nat} (hd : Deep d) (rg : ChromaRange)
    {s : Sampling} {c : Buf} {ux : Nat} (h : ux + chromaStep s 8 ≤ c.length)
    (hc : ∀ x ∈ c, x < 65536) :
    ∃ r, deepChroma s e bp d rg c ux = .ok r ∧
      ∀ k, k < 8 → s16 r k = int16 ((nativeSample e bp d (c.getD (ux + k / hdiv s) 0) : Int) - rg.biasUv) := by
  have half : ux + 4 ≤ c.length →
      ∃ r, (load16 4 c ux >>= fun r => Outcome.ok
        (twice16 (sub16 (nativeReg e bp d r) (set1_16 rg.biasUv)))) = .ok r ∧
      ∀ k, k < 8 → s16 r k = int16 ((nativeSample e bp d (c.getD (ux + k / 2) 0) : Int) - rg.biasUv) := by
    intro h
    obtain ⟨r, e1, h1, h2⟩ := load16_at h hc
    refine ⟨_, by rw [e1]; rfl, fun k hk => ?_⟩
    rw [s16_twice, s16_subBias, nativeReg_at e bp hd h2 (by omega), h1 _ (by omega)]
  cases s
  · exact half h
  · exact half h
  · obtain ⟨r, e1, h1, h2⟩ := load16_at h hc
    refine ⟨_, by simp only [deepChroma]; rw [show load16 8 c ux = .ok r from e1]; rfl, fun k hk => ?_⟩
    rw [s16_subBias, nativeReg_at e bp hd h2 (by omega), h1 _ hk]
    show _ = int16 ((nativeSample e bp d (c.getD (ux + k / 1) 0) : Int) - rg.biasUv)
    rw [Nat.div_one]

/-- A product of a word and a weight. -/
theorem word_term {x c : Int} {C : Int} (hx : -32768 ≤ x ∧ x ≤ 32767) (hc : -C ≤ c ∧ c ≤ C) :
    -(32768 * C) ≤ x * c ∧ x * c ≤ 32768 * C := by
  constructor <;> nlinarith [hx.1, hx.2, hc.1, hc.2]

theorem qrshrun_at {lo hi : Reg} {k : Nat} {x : Int}
    (h0 : k < 4 → s32 lo k = x) (h1 : 4 ≤ k → s32 hi (k - 4) = x) :
    w16 (qrshrun 13 lo hi) k = (max 0 (min ((x + 4096) / 8192) 65535)).toNat := by
  rw [qrshrun, w16_mk16]
  have : (if k < 4 then s32 lo k + 2 ^ (13 - 1) else s32 hi (k - 4) + 2 ^ (13 - 1) : Int) = x + 4096 := by
    split
    · rw [h0 (by assumption)]; rfl
    · rw [h1 (by omega)]; rfl
  rw [this, show (2 ^ 13 : Int) = 8192 from rfl]
  generalize (x + 4096) / 8192 = z
  unfold asU16; omega

theorem packShift_at {d : Nat} (hd : d = 10 ∨ d = 12) {lo hi : Reg} {k : Nat} {x : Int}
    (h0 : k < 4 → s32 lo k = x) (h1 : 4 ≤ k → s32 hi (k - 4) = x) :
    packShift d (qrshrun 13 lo hi) k = cutTo8 d x := by
  unfold cutTo8 byteSat
  rcases hd with rfl | rfl
  · show min 255 (w16 (qrshrun 13 lo hi) k / 2 ^ 2) = _
    rw [qrshrun_at h0 h1]
    generalize (x + 4096) / 8192 = z
    norm_num; omega
  · show min 255 (w16 (qrshrun 13 lo hi) k / 2 ^ 4) = _
    rw [qrshrun_at h0 h1]
    generalize (x + 4096) / 8192 = z
    norm_num; omega

/-- The three bytes of lane `k`. -/
theorem deepWords_at {d : Nat} (hd : d = 10 ∨ d = 12) {t : InvCoef} (ht : DeepCoef t) {y u v : Reg} {k : Nat}
    {l cb cr : Int} (hy : s16 y k = l) (hu : s16 u k = cb) (hv : s16 v k = cr) :
    packShift d (deepWords 13 t y u v).1 k = cutTo8 d (l * t.y + cr * t.cr) ∧
    packShift d (deepWords 13 t y u v).2.1 k = cutTo8 d (l * t.y - cr * t.g1 - cb * t.g2) ∧
    packShift d (deepWords 13 t y u v).2.2 k = cutTo8 d (l * t.y + cb * t.cb) := by
  obtain ⟨t1, t2, t3, t4, t5⟩ := ht
  have bl := word_term (hy ▸ s16_bounds y k) t1
  have b2 := word_term (hv ▸ s16_bounds v k) t2
  have b3 := word_term (hu ▸ s16_bounds u k) t3
  have b4 := word_term (hv ▸ s16_bounds v k) t4
  have b5 := word_term (hu ▸ s16_bounds u k) t5
  norm_num at bl b2 b3 b4 b5
  have ay : asI16 t.y = t.y := asI16_id (by omega) (by omega)
  have g1 : asI16 (-t.g1) = -t.g1 := asI16_id (by omega) (by omega)
  have g2 : asI16 (-t.g2) = -t.g2 := asI16_id (by omega) (by omega)
  have n1 : cr * -t.g1 = -(cr * t.g1) := by ring
  have n2 : cb * -t.g2 = -(cb * t.g2) := by ring
  have lane : ∀ {o j : Nat}, o + j = k → ∀ w : Reg, s16 w (o + j) = s16 w k := fun h w => by rw [h]
  have sy : ∀ {o j : Nat}, o + j = k → s32 (deepY o t y) j = l * t.y := by
    intro o j h
    rw [deepY, s32_mk32, lane h, hy, ay]
    exact asI32_id (by linarith) (by linarith)
  have add : ∀ {o j : Nat}, o + j = k → ∀ (acc w : Reg) (c a b : Int), s32 acc j = a → s16 w k * c = b →
      -2147483648 ≤ a + b → a + b ≤ 2147483647 → s32 (mlal o acc w c) j = a + b := by
    intro o j h acc w c a b h1 h2 h3 h4
    rw [mlal, s32_mk32, lane h, h1, h2]
    exact asI32_id h3 h4
  have low : k < 4 → (0 : Nat) + k = k := fun _ => Nat.zero_add k
  have high : 4 ≤ k → 4 + (k - 4) = k := fun h => by omega
  have red : ∀ {o j : Nat}, o + j = k → s32 (mlal o (deepY o t y) v (asI16 t.cr)) j = l * t.y + cr * t.cr := by
    intro o j h
    refine add h _ _ _ _ _ (sy h) (by rw [hv, asI16_coef t2]) ?_ ?_ <;> linarith
  have blue : ∀ {o j : Nat}, o + j = k → s32 (mlal o (deepY o t y) u (asI16 t.cb)) j = l * t.y + cb * t.cb := by
    intro o j h
    refine add h _ _ _ _ _ (sy h) (by rw [hu, asI16_coef t3]) ?_ ?_ <;> linarith
  have green : ∀ {o j : Nat}, o + j = k →
      s32 (mlal o (mlal o (deepY o t y) v (asI16 (-t.g1))) u (asI16 (-t.g2))) j
        = l * t.y - cr * t.g1 - cb * t.g2 := by
    intro o j h
    have e1 := add h (deepY o t y) v (asI16 (-t.g1)) (l * t.y) (-(cr * t.g1)) (sy h) (by rw [hv, g1, n1])
      (by linarith)
      (by linarith)
    have e2 := add h _ u (asI16 (-t.g2)) _ (-(cb * t.g2)) e1 (by rw [hu, g2, n2])
      (by linarith)
      (by linarith)
    rw [e2]; ring
  exact ⟨packShift_at hd (fun h => red (low h)) (fun h => red (high h)),
    packShift_at hd (fun h => green (low h)) (fun h => green (high h)),
    packShift_at hd (fun h => blue (low h)) (fun h => blue (high h))⟩

variable {rg : ChromaRange} {t : InvCoef}

/-- The pixel of three stored words. -/
def words8Pix (e : Endianness) (bp : BytesPacking) (d : Nat) (ch : Channels) (c : ChromaRange)
    (t : InvCoef) (_x y u v : Nat) : Buf :=
  neonDeep8Pixel d ch c t (nativeSample e bp d y) (nativeSample e bp d u) (nativeSample e bp d v)

theorem words8Pix_length (e : Endianness) (bp : BytesPacking) (d : Nat) (ch : Channels)
    (c : ChromaRange) (t : InvCoef) (x y u v : Nat) :
    (words8Pix e bp d ch c t x y u v).length = ch.count := layout_length' ..

theorem deep8Body_eq (s : Sampling) (e : Endianness) (bp : BytesPacking) {d : Nat}
    (hd : d = 10 ∨ d = 12) (ch : Channels) (ht : DeepCoef t) (hby : rg.biasY < 65536)
    {y u v : Buf} (hy : ∀ x ∈ y, x < 65536) (hu : ∀ x ∈ u, x < 65536)
    (hv : ∀ x ∈ v, x < 65536) {cx ux : Nat} (ly : cx + 8 ≤ y.length)
    (lu : ux + chromaStep s 8 ≤ u.length) (lv : ux + chromaStep s 8 ≤ v.length) (p : Nat) (row : Buf) :
    deep8Body s e bp d ch rg t y u v cx ux p row
      = put row p ((List.range 8).flatMap fun j => words8Pix e bp d ch rg t (cx + j)
          (y.getD (cx + j) 0) (u.getD (ux + j / hdiv s) 0) (v.getD (ux + j / hdiv s) 0)) := by
  have hD : Deep d := hd.elim .inl fun h => .inr (.inl h)
  obtain ⟨yr, e1, a1, a2⟩ := load16_at ly hy
  obtain ⟨ur, e2, b1⟩ := deepChroma_at e bp hD rg lu hu
  obtain ⟨vr, e3, c1⟩ := deepChroma_at e bp hD rg lv hv
  unfold deep8Body
  rw [e1, Outcome.bind_ok, e2, Outcome.bind_ok, e3, Outcome.bind_ok, storeRgb_eq]
  unfold X86.pixels
  refine congrArg (put row p) (range_flatMap_congr fun j hj => ?_)
  have hx : s16 (subsU16 (nativeReg e bp d yr) (set1_16 (rg.biasY : Int))) j
      = int16 ((nativeSample e bp d (y.getD (cx + j) 0) - rg.biasY : Nat) : Int) := by
    rw [s16, w16_subsU (nativeReg_bytes e bp d a2) hby, nativeReg_at e bp hD a2 (by omega), a1 j hj]
    rfl
  obtain ⟨h1, h2, h3⟩ := deepWords_at hd ht hx (b1 j hj) (c1 j hj)
  rw [h1, h2, h3, show set1_8 255 j = 255 from rfl]
  simp only [words8Pix, neonDeep8Pixel, neonDeep8RGB]

theorem deep8Row_ok (s : Sampling) (e : Endianness) (bp : BytesPacking) {d : Nat}
    (hd : d = 10 ∨ d = 12) (ch : Channels) (ht : DeepCoef t) (hby : rg.biasY < 65536)
    {w : Nat} {y u v row : Buf}
    (hy : ∀ x ∈ y, x < 65536) (hu : ∀ x ∈ u, x < 65536) (hv : ∀ x ∈ v, x < 65536)
    (ly : w ≤ y.length) (lu : (w - 1) / hdiv s + 1 ≤ u.length)
    (lv : (w - 1) / hdiv s + 1 ≤ v.length) (hw : w * ch.count ≤ row.length) (wpos : 0 < w) :
    ∃ ux', deep8Row s e bp d ch rg t w y u v row 0 0
      = .ok (painted ch.count (rowAt (words8Pix e bp d ch rg t) (hdiv s) y u v) (8 * ((w - 1) / 8)) row,
        8 * ((w - 1) / 8), ux') := by
  have hp := words8Pix_length e bp d ch rg t
  obtain ⟨cx', ux', e1, h1, h2, h3, h4⟩ := paintLoopI (step := 8) (ustep := chromaStep s 8) (width := w)
    (cn := ch.count) (I := fun cx ux => ux * hdiv s = cx) (by decide)
    (fun cx ux g => by rw [Nat.add_mul, g, chromaStep_hdiv s rfl])
    (pix := rowAt (words8Pix e bp d ch rg t) (hdiv s) y u v) (fun _ => hp ..)
    (row := row) hw
    (body := fun cx ux row => deep8Body s e bp d ch rg t y u v cx ux (cx * ch.count) row)
    (cx0 := 0) (ux0 := 0) (Nat.zero_mul _)
    (by
      intro cx ux r _ hux hlt
      rw [← stepAt_row _ (hdiv_pos s) _ y u v hux]
      exact deep8Body_eq s e bp hd ch ht hby hy hu hv (by omega)
        (chroma_room hux rfl (by omega) lu (by decide)) (chroma_room hux rfl (by omega) lv (by decide))
        _ _)
    (Nat.zero_le _)
  have e : cx' = 8 * ((w - 1) / 8) := by
    rw [h1, loopEnd]; omega
  rw [painted_zero] at e1
  rw [← e]
  exact ⟨ux', e1⟩

/-- The pixel of three stored words in column `x` of a row of `w` pixels; `px` is the portable
decoding. -/
def rowDeep8 (e : Endianness) (bp : BytesPacking) (d : Nat) (ch : Channels)
    (rg : ChromaRange) (t : InvCoef) (w : Nat) (px : Nat → Nat → Nat → Buf) (x y u v : Nat) : Buf :=
  if x < 8 * ((w - 1) / 8) then words8Pix e bp d ch rg t x y u v else px y u v

theorem deep8Handler_fills (s : Sampling) (e : Endianness) (bp : BytesPacking) {d : Nat}
    (hd : d = 10 ∨ d = 12) (ch : Channels) (ht : DeepCoef t) (hby : rg.biasY < 65536)
    {w : Nat} (wpos : 0 < w) (px : Nat → Nat → Nat → Buf) :
    (deep8Handler s e bp d ch rg t w).Fills false 65536 ch.count w (hdiv s) px
      (fun x y u v p => p = rowDeep8 e bp d ch rg t w px x y u v) := by
  intro y u v row hy hu hv ly lu lv hw
  have hp := words8Pix_length e bp d ch rg t
  obtain ⟨ux, e1⟩ := deep8Row_ok s e bp hd ch ht hby hy hu hv ly lu lv hw wpos
  unfold deep8Handler
  rw [e1]
  refine ⟨_, _, rfl, painted_done (X86.count_pos ch) (fun _ => hp ..) hw (by omega) (.inl ?_)
    fun x hx => ?_, fun x h1 h2 => ?_⟩
  · cases s <;> simp only [hdiv] <;> omega
  · simp only [rowDeep8, if_pos hx]
    try rfl
  · have : ¬ x < 8 * ((w - 1) / 8) := by
      intro h3
      rcases h1 with h1 | ⟨-, h1⟩
      · exact absurd h3 (Nat.not_lt.2 h1)
      · omega
    simp only [rowDeep8, if_neg this]

end Verif.Neon
