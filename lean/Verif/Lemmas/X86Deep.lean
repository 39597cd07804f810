import Verif.Model.X86Deep
import Verif.Spec.VecDeep
import Verif.Lemmas.X86Wide
import Verif.Lemmas.X86Handlers
/-! # Registers of 16-bit samples -/
namespace Verif.X86
open Spec

/-- The depths of the decoders to 16-bit components. -/
def Deep (d : Nat) : Prop := d = 10 ∨ d = 12 ∨ d = 14 ∨ d = 16

/-- All bytes of a register are bytes. -/
def RegBytes (r : Reg) : Prop := ∀ i, r i < 256

theorem mk16_bytes (f : Nat → Int) : RegBytes (mk16 f) := by
  intro i
  have := asU16_lt (f (i / 2))
  unfold mk16
  split <;> omega

theorem w16_lt {r : Reg} (h : RegBytes r) (k : Nat) : w16 r k < 65536 := by
  have := h (2 * k)
  have := h (2 * k + 1)
  unfold w16; omega

theorem asU16_nat {x : Nat} (h : x < 65536) : asU16 (x : Int) = x := by unfold asU16; omega

theorem int16_eq (x : Int) : int16 x = asI16 x := rfl

theorem getD16_lt {l : Buf} (h : ∀ s ∈ l, s < 65536) (i : Nat) : l.getD i 0 < 65536 := by
  rw [List.getD_eq_getElem?_getD]
  by_cases hi : i < l.length
  · rw [List.getElem?_eq_getElem hi]; exact h _ (List.getElem_mem hi)
  · rw [List.getElem?_eq_none (by omega)]; decide

theorem load16_at {n : Nat} {l : Buf} {p : Nat} (h : p + n ≤ l.length) (hl : ∀ s ∈ l, s < 65536) :
    ∃ r : Reg, load16 n l p = .ok r ∧ (∀ k, k < n → w16 r k = l.getD (p + k) 0) ∧ RegBytes r := by
  refine ⟨_, by rw [load16, if_pos h], ?_, mk16_bytes _⟩
  intro k hk
  rw [w16_mk16, if_pos hk, asU16_nat (getD16_lt hl _)]

theorem swapMask_at : ∀ i, i < 32 → swapMask i = if i % 2 = 0 then i % 16 + 1 else i % 16 - 1 := by
  decide

theorem w16_swap {r : Reg} (hr : RegBytes r) {k : Nat} (hk : k < 16) :
    w16 (shuffle8 r swapMask) k = 256 * (w16 r k % 256) + w16 r k / 256 := by
  have h0 := hr (2 * k)
  have h1 := hr (2 * k + 1)
  unfold w16 shuffle8
  rw [swapMask_at _ (by omega), swapMask_at _ (by omega), if_pos (by omega : 2 * k % 2 = 0),
    if_neg (by omega : ¬ (2 * k + 1) % 2 = 0), if_neg (by omega), if_neg (by omega)]
  rw [show 2 * k / 16 * 16 + (2 * k % 16 + 1) % 16 = 2 * k + 1 by omega,
    show (2 * k + 1) / 16 * 16 + ((2 * k + 1) % 16 - 1) % 16 = 2 * k by omega]
  omega

theorem shuffle8_bytes {a m : Reg} (ha : RegBytes a) : RegBytes (shuffle8 a m) := by
  intro i; unfold shuffle8; split
  · omega
  · exact ha _

theorem w16_srli {r : Reg} (hr : RegBytes r) (n k : Nat) : w16 (srli16 n r) k = w16 r k / 2 ^ n := by
  rw [srli16, w16_mk16, asU16_nat]
  exact Nat.lt_of_le_of_lt (Nat.div_le_self _ _) (w16_lt hr k)

theorem fromMsb_at {d : Nat} (hd : Deep d) {r : Reg} (hr : RegBytes r) (k : Nat) :
    w16 (fromMsb d r) k = w16 r k / 2 ^ (16 - d) := by
  rcases hd with rfl | rfl | rfl | rfl
  · exact w16_srli hr 6 k
  · exact w16_srli hr 4 k
  · exact w16_srli hr 2 k
  · exact (Nat.div_one _).symm

theorem fromMsb_bytes (d : Nat) {r : Reg} (hr : RegBytes r) : RegBytes (fromMsb d r) := by
  unfold fromMsb
  split
  · exact mk16_bytes _
  · split
    · exact mk16_bytes _
    · split
      · exact mk16_bytes _
      · exact hr

theorem nativeReg_at (e : Endianness) (bp : BytesPacking) {d : Nat} (hd : Deep d) {r : Reg}
    (hr : RegBytes r) {k : Nat} (hk : k < 16) :
    w16 (nativeReg e bp d r) k = nativeSample e bp d (w16 r k) := by
  cases e <;> cases bp <;> simp only [nativeReg, nativeSample]
  · rw [fromMsb_at hd (shuffle8_bytes hr), w16_swap hr hk]
  · rw [w16_swap hr hk]
  · rw [fromMsb_at hd hr]

theorem nativeReg_bytes (e : Endianness) (bp : BytesPacking) (d : Nat) {r : Reg} (hr : RegBytes r) :
    RegBytes (nativeReg e bp d r) := by
  cases e <;> cases bp <;> simp only [nativeReg]
  · exact fromMsb_bytes d (shuffle8_bytes hr)
  · exact shuffle8_bytes hr
  · exact fromMsb_bytes d hr
  · exact hr

/-! ## Stores -/

theorem words_length (n : Nat) (r : Reg) : ((List.range n).map (w16 r)).length = n := by simp

theorem sseRgb16_words (r g b : Reg) :
    (List.range 8).map (w16 (sseInterleaveRgb16 r g b).1)
      ++ (List.range 8).map (w16 (sseInterleaveRgb16 r g b).2.1)
      ++ (List.range 8).map (w16 (sseInterleaveRgb16 r g b).2.2)
    = (List.range 8).flatMap fun j => [w16 r j, w16 g j, w16 b j] := by
  rfl

theorem sseRgba16_words (r g b a : Reg) :
    (List.range 8).map (w16 (sseInterleaveRgba16 r g b a).1)
      ++ (List.range 8).map (w16 (sseInterleaveRgba16 r g b a).2.1)
      ++ (List.range 8).map (w16 (sseInterleaveRgba16 r g b a).2.2.1)
      ++ (List.range 8).map (w16 (sseInterleaveRgba16 r g b a).2.2.2)
    = (List.range 8).flatMap fun j => [w16 r j, w16 g j, w16 b j, w16 a j] := by
  rfl

theorem avx2Rgb16_words (r g b : Reg) :
    (List.range 16).map (w16 (avx2InterleaveRgb16 r g b).1)
      ++ (List.range 16).map (w16 (avx2InterleaveRgb16 r g b).2.1)
      ++ (List.range 16).map (w16 (avx2InterleaveRgb16 r g b).2.2)
    = (List.range 16).flatMap fun j => [w16 r j, w16 g j, w16 b j] := by
  rfl

theorem avx2Rgba16_words (r g b a : Reg) :
    (List.range 16).map (w16 (avx2InterleaveRgba16 r g b a).1)
      ++ (List.range 16).map (w16 (avx2InterleaveRgba16 r g b a).2.1)
      ++ (List.range 16).map (w16 (avx2InterleaveRgba16 r g b a).2.2.1)
      ++ (List.range 16).map (w16 (avx2InterleaveRgba16 r g b a).2.2.2)
    = (List.range 16).flatMap fun j => [w16 r j, w16 g j, w16 b j, w16 a j] := by
  rfl

/-- The interleaving store writes the 8 pixels in memory order. -/
theorem sseStore16_eq (ch : Channels) (p : Nat) (r g b a : Reg) (row : Buf) :
    sseStore16 ch p r g b a row = put row p (pixels ch 8 (w16 r) (w16 g) (w16 b) (w16 a)) := by
  have h3 : ∀ r g b : Reg, sseStoreRgb16 p r g b row
      = put row p ((List.range 8).flatMap fun j => [w16 r j, w16 g j, w16 b j]) := by
    intro r g b
    rw [← sseRgb16_words, ← put_put _ _ (p + 16) _ _ (by simp)]
    rw [← put_put _ _ (p + 8) _ _ (by simp), bind_assoc']
    rfl
  have h4 : ∀ r g b a : Reg, sseStoreRgba16 p r g b a row
      = put row p ((List.range 8).flatMap fun j => [w16 r j, w16 g j, w16 b j, w16 a j]) := by
    intro r g b a
    rw [← sseRgba16_words, ← put_put _ _ (p + 24) _ _ (by simp),
      ← put_put _ _ (p + 16) _ _ (by simp),
      ← put_put _ _ (p + 8) _ _ (by simp), bind_assoc', bind_assoc']
    rfl
  cases ch
  · exact h3 ..
  · exact h4 ..
  · exact h4 ..
  · exact h3 ..

/-- The 256-bit interleaving store writes the 16 pixels in memory order. -/
theorem avx2Store16_eq (ch : Channels) (p : Nat) (r g b a : Reg) (row : Buf) :
    avx2Store16 ch p r g b a row = put row p (pixels ch 16 (w16 r) (w16 g) (w16 b) (w16 a)) := by
  have h3 : ∀ r g b : Reg, avx2StoreRgb16 p r g b row
      = put row p ((List.range 16).flatMap fun j => [w16 r j, w16 g j, w16 b j]) := by
    intro r g b
    rw [← avx2Rgb16_words, ← put_put _ _ (p + 32) _ _ (by simp)]
    rw [← put_put _ _ (p + 16) _ _ (by simp), bind_assoc']
    rfl
  have h4 : ∀ r g b a : Reg, avx2StoreRgba16 p r g b a row
      = put row p ((List.range 16).flatMap fun j => [w16 r j, w16 g j, w16 b j, w16 a j]) := by
    intro r g b a
    rw [← avx2Rgba16_words, ← put_put _ _ (p + 48) _ _ (by simp),
      ← put_put _ _ (p + 32) _ _ (by simp),
      ← put_put _ _ (p + 16) _ _ (by simp), bind_assoc', bind_assoc']
    rfl
  cases ch
  · exact h3 ..
  · exact h4 ..
  · exact h4 ..
  · exact h3 ..

/-! ## Chroma -/

theorem w16_dupLo (a : Reg) (k : Nat) : w16 (unpacklo 2 a a) k = w16 a (k / 8 * 8 + k % 8 / 2) := by
  rw [w16_unpacklo2]; split <;> rfl

theorem w16_dupHi (a : Reg) (k : Nat) :
    w16 (unpackhi 2 a a) k = w16 a (k / 8 * 8 + 4 + k % 8 / 2) := by
  rw [w16_unpackhi2]; split <;> rfl

theorem w16_insertHi (a b : Reg) (k : Nat) :
    w16 (insertHi a b) k = if k < 8 then w16 a k else w16 b (k - 8) := by
  unfold w16 insertHi
  by_cases h : k < 8
  · rw [if_pos (by omega), if_pos (by omega), if_pos h]
  · rw [if_neg (by omega), if_neg (by omega), if_neg h, show 2 * k - 16 = 2 * (k - 8) by omega,
      show 2 * k + 1 - 16 = 2 * (k - 8) + 1 by omega]

theorem w16_permLo (a b : Reg) {k : Nat} (hk : k < 16) :
    w16 (permute2x128 32 a b) k = if k < 8 then w16 a k else w16 b (k - 8) := by
  unfold w16 permute2x128
  by_cases h : k < 8
  · rw [show 2 * k / 16 = 0 by omega, show (2 * k + 1) / 16 = 0 by omega, if_pos h,
      show 2 * k % 16 = 2 * k by omega, show (2 * k + 1) % 16 = 2 * k + 1 by omega]
    norm_num
  · rw [show 2 * k / 16 = 1 by omega, show (2 * k + 1) / 16 = 1 by omega, if_neg h,
      show 2 * k % 16 = 2 * (k - 8) by omega, show (2 * k + 1) % 16 = 2 * (k - 8) + 1 by omega]
    norm_num

theorem w16_permHi (a b : Reg) {k : Nat} (hk : k < 16) :
    w16 (permute2x128 49 a b) k = if k < 8 then w16 a (k + 8) else w16 b k := by
  unfold w16 permute2x128
  by_cases h : k < 8
  · rw [show 2 * k / 16 = 0 by omega, show (2 * k + 1) / 16 = 0 by omega, if_pos h,
      show 2 * k % 16 = 2 * k by omega, show (2 * k + 1) % 16 = 2 * k + 1 by omega,
      show 2 * (k + 8) = 16 + 2 * k by omega]
    norm_num [Nat.add_assoc]
  · rw [show 2 * k / 16 = 1 by omega, show (2 * k + 1) / 16 = 1 by omega, if_neg h]
    norm_num
    rw [show 16 + 2 * k % 16 = 2 * k by omega, show 16 + (2 * k + 1) % 16 = 2 * k + 1 by omega]

theorem unpack_bytes {a b : Reg} (ha : RegBytes a) (hb : RegBytes b) :
    RegBytes (unpacklo 2 a b) ∧ RegBytes (unpackhi 2 a b) := by
  constructor
  · intro i; unfold unpacklo; split
    · exact ha _
    · exact hb _
  · intro i; unfold unpackhi; split
    · exact ha _
    · exact hb _

theorem sseDeepChroma_at (e : Endianness) (bp : BytesPacking) {d : Nat} (hd : Deep d)
    {s : Sampling} {c : Buf} {ux : Nat} (h : ux + chromaStep s 8 ≤ c.length)
    (hc : ∀ x ∈ c, x < 65536) :
    ∃ r, sseDeepChroma s e bp d c ux = .ok r ∧
      ∀ k, k < 8 → w16 r k = nativeSample e bp d (c.getD (ux + k / hdiv s) 0) := by
  have half : ux + 4 ≤ c.length →
      ∃ r, (load16 4 c ux >>= fun r => Outcome.ok
        (unpacklo 2 (nativeReg e bp d r) (nativeReg e bp d r))) = .ok r ∧
      ∀ k, k < 8 → w16 r k = nativeSample e bp d (c.getD (ux + k / 2) 0) := by
    intro h
    obtain ⟨r, e1, h1, h2⟩ := load16_at h hc
    refine ⟨_, by rw [e1]; rfl, fun k hk => ?_⟩
    rw [w16_dupLo, nativeReg_at e bp hd h2 (by omega), h1 _ (by omega)]
    congr 3; omega
  cases s
  · exact half h
  · exact half h
  · obtain ⟨r, e1, h1, h2⟩ := load16_at h hc
    refine ⟨_, by simp only [sseDeepChroma]; rw [show load16 8 c ux = .ok r from e1]; rfl, fun k hk => ?_⟩
    rw [nativeReg_at e bp hd h2 (by omega), h1 _ hk]
    show _ = nativeSample e bp d (c.getD (ux + k / 1) 0)
    rw [Nat.div_one]

theorem avx2DeepChroma_at (e : Endianness) (bp : BytesPacking) {d : Nat} (hd : Deep d)
    {s : Sampling} {c : Buf} {ux : Nat} (h : ux + chromaStep s 16 ≤ c.length)
    (hc : ∀ x ∈ c, x < 65536) :
    ∃ r, avx2DeepChroma s e bp d c ux = .ok r ∧
      ∀ k, k < 16 → w16 r k = nativeSample e bp d (c.getD (ux + k / hdiv s) 0) := by
  have half : ux + 8 ≤ c.length →
      ∃ r, (load16 8 c ux >>= fun r => Outcome.ok
        (insertHi (unpacklo 2 (nativeReg e bp d r) (nativeReg e bp d r))
          (unpackhi 2 (nativeReg e bp d r) (nativeReg e bp d r)))) = .ok r ∧
      ∀ k, k < 16 → w16 r k = nativeSample e bp d (c.getD (ux + k / 2) 0) := by
    intro h
    obtain ⟨r, e1, h1, h2⟩ := load16_at h hc
    refine ⟨_, by rw [e1]; rfl, fun k hk => ?_⟩
    rw [w16_insertHi]
    split
    · rw [w16_dupLo, nativeReg_at e bp hd h2 (by omega), h1 _ (by omega)]
      congr 3; omega
    · rw [w16_dupHi, nativeReg_at e bp hd h2 (by omega), h1 _ (by omega)]
      congr 3; omega
  cases s
  · exact half h
  · exact half h
  · obtain ⟨r, e1, h1, h2⟩ := load16_at h hc
    refine ⟨_, by simp only [avx2DeepChroma]; rw [show load16 16 c ux = .ok r from e1]; rfl,
      fun k hk => ?_⟩
    rw [nativeReg_at e bp hd h2 (by omega), h1 _ hk]
    show _ = nativeSample e bp d (c.getD (ux + k / 1) 0)
    rw [Nat.div_one]

theorem avx2DeepChroma2_at (e : Endianness) (bp : BytesPacking) {d : Nat} (hd : Deep d)
    {s : Sampling} {c : Buf} {ux : Nat} (h : ux + chromaStep s 32 ≤ c.length)
    (hc : ∀ x ∈ c, x < 65536) :
    ∃ r, avx2DeepChroma2 s e bp d c ux = .ok r ∧
      (∀ k, k < 16 → w16 r.1 k = nativeSample e bp d (c.getD (ux + k / hdiv s) 0)) ∧
      ∀ k, k < 16 → w16 r.2 k = nativeSample e bp d (c.getD (ux + (16 + k) / hdiv s) 0) := by
  have half : ux + 16 ≤ c.length →
      ∃ r, (load16 16 c ux >>= fun r => Outcome.ok
        (avx2Interleave16 (nativeReg e bp d r) (nativeReg e bp d r))) = .ok r ∧
      (∀ k, k < 16 → w16 r.1 k = nativeSample e bp d (c.getD (ux + k / 2) 0)) ∧
      ∀ k, k < 16 → w16 r.2 k = nativeSample e bp d (c.getD (ux + (16 + k) / 2) 0) := by
    intro h
    obtain ⟨r, e1, h1, h2⟩ := load16_at h hc
    refine ⟨_, by rw [e1]; rfl, fun k hk => ?_, fun k hk => ?_⟩
    · simp only [avx2Interleave16]
      rw [w16_permLo _ _ hk]
      split
      · rw [w16_dupLo, nativeReg_at e bp hd h2 (by omega), h1 _ (by omega)]
        congr 3; omega
      · rw [w16_dupHi, nativeReg_at e bp hd h2 (by omega), h1 _ (by omega)]
        congr 3; omega
    · simp only [avx2Interleave16]
      rw [w16_permHi _ _ hk]
      split
      · rw [w16_dupLo, nativeReg_at e bp hd h2 (by omega), h1 _ (by omega)]
        congr 3; omega
      · rw [w16_dupHi, nativeReg_at e bp hd h2 (by omega), h1 _ (by omega)]
        congr 3; omega
  cases s
  · exact half h
  · exact half h
  · have h : ux + 32 ≤ c.length := h
    obtain ⟨r, e1, h1, h2⟩ := load16_at (p := ux) (n := 16) (by omega) hc
    obtain ⟨r', e1', h1', h2'⟩ := load16_at (p := ux + 16) (n := 16) (by omega) hc
    refine ⟨_, by simp only [avx2DeepChroma2]; rw [e1, Outcome.bind_ok, e1']; rfl,
      fun k hk => ?_, fun k hk => ?_⟩
    · rw [nativeReg_at e bp hd h2 (by omega), h1 _ hk]
      show _ = nativeSample e bp d (c.getD (ux + k / 1) 0)
      rw [Nat.div_one]
    · rw [nativeReg_at e bp hd h2' (by omega), h1' _ hk]
      show _ = nativeSample e bp d (c.getD (ux + (16 + k) / 1) 0)
      rw [Nat.div_one, Nat.add_assoc]

end Verif.X86
