import Verif.Model.NeonGbr
import Verif.Lemmas.Neon
import Verif.Lemmas.NeonEncode
import Verif.Lemmas.X86Gbr
/-! # The GBR decoders with NEON -/
namespace Verif.Neon
open X86 Spec

/-- The component the kernels compute from a plane sample above the offset. -/
def gbrVal (rdm : Bool) (k : Int) (x : Nat) : Nat :=
  if rdm then satU8 ((2 * (4 * (x : Int) * k) + 32768) / 65536)
  else min 255 ((x * asU16 k + 4096) / 8192)

theorem gbrRdm_at {k : Int} (hk : -32767 ≤ k ∧ k ≤ 32767) {v : Reg} {o j : Nat} (hv : v (o + j) < 256) :
    s16 (mulh true (wide 2 o v) (asI16 k)) j = (2 * (4 * (v (o + j) : Int) * k) + 32768) / 65536 := by
  have e : s16 (wide 2 o v) j = 4 * (v (o + j) : Int) := by
    rw [wide, s16_mk16, asI16_id] <;> push_cast <;> omega
  rw [s16_mulh (by rw [e]; omega) hk, e]
  rfl

theorem gbrPlain_at {k : Int} (hk : 0 ≤ k ∧ k ≤ 32767) {v : Reg} {o j : Nat} (hv : v (o + j) < 256) :
    w16 (mulln (wide 0 o v) k) j = (v (o + j) * asU16 k + 4096) / 8192 := by
  have e : w16 (wide 0 o v) j = v (o + j) := by
    rw [wide, w16_mk16]; unfold asU16; omega
  have hk' : asU16 k ≤ 32767 := by unfold asU16; omega
  have hm : v (o + j) * asU16 k ≤ 255 * 32767 := Nat.mul_le_mul (by omega) hk'
  rw [mulln, w16_mk16, e]
  generalize v (o + j) * asU16 k = q at hm
  unfold asU16; omega

theorem byteFn_gbr (rdm : Bool) {bias : Nat} {k : Int} (hb : bias < 256) (hk : 0 ≤ k ∧ k ≤ 32767) :
    ByteFn 16 (gbrLimited rdm bias k) (fun s => gbrVal rdm k (s - bias)) := by
  intro v hv i hi
  have hs : ∀ i, subsU8 v (set1_8 bias) i = v i - bias := fun i => subsU8_at hb
  have h256 : ∀ i, subsU8 v (set1_8 bias) i < 256 := fun i => by rw [hs]; have := hv i; omega
  unfold gbrLimited gbrVal
  cases rdm
  · simp only [Bool.false_eq_true, if_false, qmovnU]
    split
    · rw [gbrPlain_at hk (h256 _), hs, Nat.zero_add]
    · rw [gbrPlain_at hk (h256 _), hs, show 8 + (i - 8) = i by omega]
  · simp only [if_true, qmovun]
    split
    · rw [gbrRdm_at (by omega) (h256 _), hs, Nat.zero_add]
    · rw [gbrRdm_at (by omega) (h256 _), hs, show 8 + (i - 8) = i by omega]

theorem gbrStep_ok (ch : Channels) {f : Reg → Reg} {M : Nat → Nat} (hf : ByteFn 16 f M) :
    GbrStep 16 ch M (gbrStep ch f) := by
  intro g b r cx p row hg hb hr lg lb lr
  obtain ⟨gv, eg, g1, g2⟩ := load_at lg hg
  obtain ⟨bv, eb, b1, b2⟩ := load_at lb hb
  obtain ⟨rv, er, r1, r2⟩ := load_at lr hr
  rw [gbrStep, eg, Outcome.bind_ok, eb, Outcome.bind_ok, er, Outcome.bind_ok, storeRgb_eq]
  refine congrArg (put row p) ?_
  unfold X86.pixels
  refine range_flatMap_congr fun j hj => ?_
  rw [hf gv g2 j hj, hf bv b2 j hj, hf rv r2 j hj, g1 j hj, b1 j hj, r1 j hj]
  rfl

theorem gbrHandler_fills (ch : Channels) {f : Reg → Reg} {M N : Nat → Nat} (hf : ByteFn 16 f M)
    {w : Nat} (h0 : 0 < w) {s s' s'' : Src} (hs : s.cn = 1) (hs' : s'.cn = 1) (hs'' : s''.cn = 1) :
    MapHandler.Fills (fun rows row => gbrRow ch f w (rows.getD 0 []) (rows.getD 1 []) (rows.getD 2 [])
        row 0) 256 w ch.count [s, s', s'']
      (fun px => layout ch (N (comp px 2 0)) (N (comp px 0 0)) (N (comp px 1 0)) 255)
      (fun _ px p => p = layout ch (M (comp px 2 0)) (M (comp px 0 0)) (M (comp px 1 0)) 255) := by
  intro rows row h1 h2 h3
  obtain ⟨g, b, r, rfl⟩ := List.length_eq_three.1 h1
  obtain ⟨lg, hg⟩ := h2 s g (by simp)
  obtain ⟨lb, hb⟩ := h2 s' b (by simp)
  obtain ⟨lr, hr⟩ := h2 s'' r (by simp)
  rw [hs, Nat.mul_one] at lg
  rw [hs', Nat.mul_one] at lb
  rw [hs'', Nat.mul_one] at lr
  have e : gbrRow ch f w g b r row 0 = .ok (painted ch.count (gbrPix ch M g b r) w row, w) :=
    gbrRow_ok (by decide) (gbrStep_ok ch hf) hg hb hr lg lb lr h3 h0
  refine ⟨_, w, e, painted_done (m := 1) (X86.count_pos ch) (gbrPix_length ch M g b r) h3 (le_refl _)
    (.inr rfl) fun x hx => ?_, fun x h4 h5 => absurd h4 (by omega)⟩
  obtain ⟨q1, q2, q3⟩ := comp_plane3 hs hs' hs'' (l := g) (l' := b) (l'' := r) (x := x)
  show _ = layout _ _ _ _ _
  rw [q1, q2, q3]
  rfl

end Verif.Neon
