import Verif.Model.YuvToRgba
import Verif.Lemmas.Frames
import Verif.Spec.Vector
import Verif.Props.DecodeArith
import Verif.Lemmas.Checks
/-! # The loops of the planar decoders -/
namespace Verif
open Spec

/-! ## Pixels -/

/-- `put` succeeds with `px` on samples below `B`. -/
structure PutOk (B cn : Nat) (put : Nat → Nat → Nat → Buf → Outcome Buf)
    (px : Nat → Nat → Nat → Buf) : Prop where
  ok : ∀ y u v c, y < B → u < B → v < B → c.length = cn → put y u v c = .ok (px y u v)
  len : ∀ y u v, (px y u v).length = cn

theorem layout_length (ch : Channels) (r g b a : Nat) : (layout ch r g b a).length = ch.count := by
  cases ch <;> rfl

theorem storePix_ok {ch : Channels} {c : Buf} {r g b a : Nat} (h : c.length = ch.count) :
    storePix ch c r g b a = .ok (layout ch r g b a) := by
  cases ch <;> simp only [Channels.count] at h
  · match c, h with
    | [_, _, _], _ => rfl
  · match c, h with
    | [_, _, _, _], _ => rfl
  · match c, h with
    | [_, _, _, _], _ => rfl
  · match c, h with
    | [_, _, _], _ => rfl

theorem asU8_nat {n : Nat} (h : n < 256) : asU8 (n : Int) = n := by unfold asU8; omega
theorem asU16_nat {n : Nat} (h : n < 65536) : asU16 (n : Int) = n := by unfold asU16; omega

theorem qr_nonneg (p d : Nat) (v : Int) : 0 ≤ qr p d v := by unfold qr; omega
theorem qr_lt (p d : Nat) (v : Int) : (qr p d v).toNat < 2 ^ d := by
  have h : (1 : Int) ≤ 2 ^ d := one_le_two_pow d
  have e : ((2 ^ d : Nat) : Int) = 2 ^ d := by push_cast; rfl
  unfold qr; omega

/-- The kernels compute `decodeRGB`. -/
theorem kernel_decodeRGB {p d : Nat} (h : DecodeCfg p d) (rg : YuvRange) (m : Matrix)
    {k} (hk : IsKernel k) {y u v : Nat} (hy : y < 2 ^ d) (hu : u < 2 ^ d) (hv : v < 2 ^ d) :
    ∃ r g b : Nat, decodeRGB p d (searchInverse p d rg m) (getYuvRange d rg).biasY
        (getYuvRange d rg).biasUv y u v = (r, g, b) ∧ r < 2 ^ d ∧ g < 2 ^ d ∧ b < 2 ^ d ∧
      k (qrshr p d) (searchInverse p d rg m) (getYuvRange d rg).biasY
        (getYuvRange d rg).biasUv y u v = .ok ((r : Int), (g : Int), (b : Int)) := by
  have e := kernel_ok hk (qrshr_QOk p d) (fits_search h rg m)
    (near_of_lt (Depth.ge8 h.depth) rg hy hu hv)
  refine ⟨_, _, _, rfl, qr_lt p d _, qr_lt p d _, qr_lt p d _, ?_⟩
  rw [e]
  unfold decodePure
  congr 2
  · exact (Int.toNat_of_nonneg (qr_nonneg p d _)).symm
  · congr 1
    · exact (Int.toNat_of_nonneg (qr_nonneg p d _)).symm
    · exact (Int.toNat_of_nonneg (qr_nonneg p d _)).symm

theorem decodedPixel_length (p d : Nat) (ch : Channels) (rg : YuvRange) (m : Matrix)
    (a y u v : Nat) : (decodedPixel p d ch rg m a y u v).length = ch.count := by
  unfold decodedPixel; exact layout_length ..

theorem putRow_ok {p : Nat} (h : DecodeCfg p 8) (ch : Channels) (rg : YuvRange) (m : Matrix) :
    PutOk 256 ch.count (putRow p (searchInverse p 8 rg m) (getYuvRange 8 rg) ch)
      (decodedPixel p 8 ch rg m 255) := by
  refine ⟨fun y u v c hy hu hv hc => ?_, decodedPixel_length p 8 ch rg m 255⟩
  obtain ⟨r, g, b, e1, h1, h2, h3, e2⟩ := kernel_decodeRGB h rg m (Or.inl rfl) hy hu hv
  unfold putRow decodedPixel
  rw [e2]
  simp only [e1, Outcome.bind_ok]
  rw [asU8_nat h1, asU8_nat h2, asU8_nat h3, storePix_ok hc]

theorem putTwoRow_ok {p : Nat} (h : DecodeCfg p 8) (ch : Channels) (rg : YuvRange) (m : Matrix) :
    PutOk 256 ch.count (putTwoRow p (searchInverse p 8 rg m) (getYuvRange 8 rg) ch)
      (decodedPixel p 8 ch rg m 255) := by
  refine ⟨fun y u v c hy hu hv hc => ?_, decodedPixel_length p 8 ch rg m 255⟩
  obtain ⟨r, g, b, e1, h1, h2, h3, e2⟩ := kernel_decodeRGB h rg m (Or.inr rfl) hy hu hv
  unfold putTwoRow decodedPixel
  rw [e2]
  simp only [e1, Outcome.bind_ok]
  rw [asU8_nat h1, asU8_nat h2, asU8_nat h3, storePix_ok hc]

/-! ## Bounded lists -/

theorem bnd_take {B n : Nat} {l : Buf} (h : ∀ s ∈ l, s < B) : ∀ s ∈ l.take n, s < B :=
  fun s hs => h s (List.mem_of_mem_take hs)
theorem bnd_drop {B n : Nat} {l : Buf} (h : ∀ s ∈ l, s < B) : ∀ s ∈ l.drop n, s < B :=
  fun s hs => h s (List.mem_of_mem_drop hs)
theorem bnd_chunk {B n k : Nat} {l : Buf} (h : ∀ s ∈ l, s < B) : ∀ s ∈ chunk n l k, s < B :=
  bnd_take (bnd_drop h)
theorem bnd_getD {B i : Nat} {l : Buf} (h : ∀ s ∈ l, s < B) (hi : i < l.length) :
    l.getD i 0 < B := h _ (getD_mem hi)

/-! ## Vector prefix -/

theorem rowDone_paint {cn w m : Nat} (hcn : 0 < cn) {R : Nat → Buf → Prop} {row row' : Buf}
    {cx : Nat} (hrow : w * cn ≤ row.length) (h : RowDone cn w m R row row' cx) :
    ∃ pix : Nat → Buf, (∀ x, (pix x).length = cn) ∧ (∀ x, x < cx → R x (pix x)) ∧
      cx ≤ w ∧ (cx % m = 0 ∨ cx = w) ∧ row' = paintRow cn cx pix row := by
  obtain ⟨h1, h2, hl, hR, hO⟩ := h
  have hcw : cx * cn ≤ w * cn := Nat.mul_le_mul_right _ h1
  have hin : ∀ x, x < cx → x * cn + cn ≤ row'.length := by
    intro x hx
    have := succ_mul_le_of_lt cn hx; omega
  let pix := fun x => if x < cx then pixelAt row' 0 cn x 0 else List.replicate cn 0
  have hpl : ∀ x, (pix x).length = cn := by
    intro x; show (if x < cx then pixelAt row' 0 cn x 0 else List.replicate cn 0).length = cn
    split
    · rename_i hx
      have := hin x hx
      simp only [pixelAt, List.length_take, List.length_drop]; omega
    · simp
  refine ⟨pix, hpl, ?_, h1, h2, ?_⟩
  · intro x hx
    show R x (if x < cx then pixelAt row' 0 cn x 0 else List.replicate cn 0)
    rw [if_pos hx]
    exact hR x 0 hx (by omega)
  · apply List.ext_getElem?
    intro i
    unfold paintRow
    rw [mapChunks_getElem? hcn (fun j _ _ => hpl j) (by omega) (by omega)]
    by_cases hi : 0 * cn ≤ i ∧ i < cx * cn
    · rw [if_pos hi]
      have hx : i / cn < cx := div_lt_of_lt_mul' hi.2
      show _ = (if i / cn < cx then pixelAt row' 0 cn (i / cn) 0 else List.replicate cn 0)[i % cn]?
      rw [if_pos hx, pixelAt, List.getElem?_take, if_pos (Nat.mod_lt _ hcn), List.getElem?_drop]
      have := div_mod_split i cn
      congr 1; omega
    · rw [if_neg hi]
      apply hO
      rintro ⟨x, y, c, hx, hy, hc, rfl⟩
      apply hi
      have := succ_mul_le_of_lt cn hx
      omega

/-! ## Rows -/

/-- As `RowHandler.Ok`, with the relation of the finished row: `Q` holds of the pixels of the handler
and of what the scalar code (`px`) puts after them — with `g = false`, of what it would put
anywhere. -/
def RowHandler.Fills (f : RowHandler) (g : Bool) (B cn w hd : Nat) (px : Nat → Nat → Nat → Buf)
    (Q : Nat → Nat → Nat → Nat → Buf → Prop) : Prop :=
  ∀ y u v row : Buf, (∀ s ∈ y, s < B) → (∀ s ∈ u, s < B) → (∀ s ∈ v, s < B) →
    w ≤ y.length → (w - 1) / hd + 1 ≤ u.length → (w - 1) / hd + 1 ≤ v.length →
    w * cn ≤ row.length →
    ∃ row' cx, f y u v row = .ok (row', cx) ∧
      RowDone cn w hd
        (fun x p => Q x (y.getD x 0) (u.getD (x / hd) 0) (v.getD (x / hd) 0) p) row row' cx ∧
      ∀ x, ScalarCol g cx w x → x < w → Q x (y.getD x 0) (u.getD (x / hd) 0) (v.getD (x / hd) 0)
        (px (y.getD x 0) (u.getD (x / hd) 0) (v.getD (x / hd) 0))

theorem ScalarCol.mono {g : Bool} {cx w x : Nat} (h : ScalarCol true cx w x) : ScalarCol g cx w x :=
  .inl h.le

theorem RowHandler.Fills.guarded {f : RowHandler} {g : Bool} {B cn w hd : Nat}
    {px : Nat → Nat → Nat → Buf} {Q : Nat → Nat → Nat → Nat → Buf → Prop}
    (h : f.Fills g B cn w hd px Q) : f.Fills true B cn w hd px Q := by
  intro y u v row hy hu hv ly lu lv hw
  obtain ⟨row', cx, e, d, q⟩ := h y u v row hy hu hv ly lu lv hw
  exact ⟨row', cx, e, d, fun x hx => q x hx.mono⟩

/-- The same for a pair of rows. -/
def RowHandler420.Fills (f : RowHandler420) (B cn w : Nat) (px : Nat → Nat → Nat → Buf)
    (Q : Nat → Nat → Nat → Nat → Buf → Prop) : Prop :=
  ∀ y0 y1 u v row0 row1 : Buf,
    (∀ s ∈ y0, s < B) → (∀ s ∈ y1, s < B) → (∀ s ∈ u, s < B) → (∀ s ∈ v, s < B) →
    w ≤ y0.length → w ≤ y1.length → (w - 1) / 2 + 1 ≤ u.length → (w - 1) / 2 + 1 ≤ v.length →
    w * cn ≤ row0.length → w * cn ≤ row1.length →
    ∃ row0' row1' cx, f y0 y1 u v row0 row1 = .ok (row0', row1', cx) ∧
      RowDone cn w 2
        (fun x p => Q x (y0.getD x 0) (u.getD (x / 2) 0) (v.getD (x / 2) 0) p) row0 row0' cx ∧
      RowDone cn w 2
        (fun x p => Q x (y1.getD x 0) (u.getD (x / 2) 0) (v.getD (x / 2) 0) p) row1 row1' cx ∧
      ∀ y : Buf, y = y0 ∨ y = y1 → ∀ x, cx ≤ x → x < w →
        Q x (y.getD x 0) (u.getD (x / 2) 0) (v.getD (x / 2) 0)
          (px (y.getD x 0) (u.getD (x / 2) 0) (v.getD (x / 2) 0))

theorem rowDone_imp {cn w m : Nat} {R S : Nat → Buf → Prop} {row row' : Buf} {cx : Nat}
    (h : RowDone cn w m R row row' cx) (hRS : ∀ x p, x < cx → R x p → S x p) :
    RowDone cn w m S row row' cx := by
  obtain ⟨h1, h2, h3, h4, h5⟩ := h
  exact ⟨h1, h2, h3, fun x y hx hy => hRS x _ hx (h4 x y hx hy), h5⟩

theorem RowHandler.Ok.fills {f : RowHandler} {B cn w hd : Nat} {R : Nat → Nat → Nat → Buf → Prop}
    (h : f.Ok B cn w hd R) (g : Bool) (px : Nat → Nat → Nat → Buf) :
    f.Fills g B cn w hd px (fun _ y u v p => p = px y u v ∨ R y u v p) := by
  intro y u v row hy hu hv ly lu lv lr
  obtain ⟨row', cx, e, hd⟩ := h y u v row hy hu hv ly lu lv lr
  exact ⟨row', cx, e, rowDone_imp hd fun _ _ _ => Or.inr, fun _ _ _ => Or.inl rfl⟩

theorem RowHandler420.Ok.fills {f : RowHandler420} {B cn w : Nat}
    {R : Nat → Nat → Nat → Buf → Prop} (h : f.Ok B cn w R) (px : Nat → Nat → Nat → Buf) :
    f.Fills B cn w px (fun _ y u v p => p = px y u v ∨ R y u v p) := by
  intro y0 y1 u v row0 row1 hy0 hy1 hu hv ly0 ly1 lu lv lr0 lr1
  obtain ⟨row0', row1', cx, e, d0, d1⟩ := h y0 y1 u v row0 row1 hy0 hy1 hu hv ly0 ly1 lu lv lr0 lr1
  exact ⟨row0', row1', cx, e, rowDone_imp d0 fun _ _ _ => Or.inr, rowDone_imp d1 fun _ _ _ => Or.inr,
    fun _ _ _ _ _ => Or.inl rfl⟩

theorem halvedRow_q {guard : Bool} {B w cn : Nat} (hcn : 0 < cn) (hw : 0 < w)
    {put : Nat → Nat → Nat → Buf → Outcome Buf} {px : Nat → Nat → Nat → Buf}
    (hput : PutOk B cn put px) {Q : Nat → Nat → Nat → Nat → Buf → Prop} {hd : RowHandler}
    (hhd : hd.Fills guard B cn w 2 px Q) {y u v row : Buf} (ly : y.length = w) (lu : u.length = ceil2 w)
    (lv : v.length = ceil2 w) (by' : ∀ s ∈ y, s < B) (bu : ∀ s ∈ u, s < B) (bv : ∀ s ∈ v, s < B)
    (lr : row.length = w * cn) :
    RowOk cn w (fun x p => Q x (y.getD x 0) (u.getD (x / 2) 0) (v.getD (x / 2) 0) p) row
      (halvedRow guard w cn put hd y u v row) := by
  have hc2 : (w - 1) / 2 + 1 = ceil2 w := by unfold ceil2; omega
  obtain ⟨row', cx, e, hdone, hpq⟩ := hhd y u v row by' bu bv (by omega) (by omega) (by omega) (by omega)
  obtain ⟨vp, v1, v2, v3, v4, v5⟩ := rowDone_paint hcn (by omega) hdone
  have lc : ceil2 w = (w + 1) / 2 := rfl
  unfold halvedRow
  rw [e, Outcome.bind_ok]
  simp only
  have hlr : row'.length = w * cn := by
    rw [v5, paintRow_length v1 (by rw [lr]; exact Nat.mul_le_mul_right _ v3), lr]
  have hk : row'.length / (2 * cn) = w / 2 := by
    rw [hlr, Nat.mul_comm 2 cn, ← Nat.div_div_eq_div_mul, Nat.mul_div_cancel _ hcn]
  have hk2 : min4 (row'.length / (2 * cn)) (y.length / 2) u.length v.length = w / 2 := by
    rw [hk, ly, lu, lv]; unfold min4 ceil2; omega
  rw [hk2]
  rw [v5]
  refine rowPairs_rel hcn (px := fun x => px (y.getD x 0) (u.getD (x / 2) 0) (v.getD (x / 2) 0))
    lr v1 v2 v3 v4 rfl
    (fun x => hput.len ..) hpq ?_ ?_ ?_
  · intro j c hj hc
    rw [idx_ok (by omega), idx_ok (by omega), idx_ok (by omega)]
    simp only [Outcome.bind_ok]
    rw [hput.ok _ _ _ _ (bnd_getD by' (by omega)) (bnd_getD bu (by omega))
      (bnd_getD bv (by omega)) hc, show 2 * j / 2 = j by omega]
  · intro j c hj hc
    rw [idx_ok (by omega), idx_ok (by omega), idx_ok (by omega)]
    simp only [Outcome.bind_ok]
    rw [hput.ok _ _ _ _ (bnd_getD by' (by omega)) (bnd_getD bu (by omega))
      (bnd_getD bv (by omega)) hc, show (2 * j + 1) / 2 = j by omega]
  · intro c hodd hc
    rw [lastElem_ok (by omega), lastElem_ok (by omega), lastElem_ok (by omega)]
    simp only [Outcome.bind_ok]
    rw [hput.ok _ _ _ _ (bnd_getD by' (by omega)) (bnd_getD bu (by omega))
      (bnd_getD bv (by omega)) hc, ly, lu, lv, show ceil2 w - 1 = (w - 1) / 2 by omega]

theorem doubledRow_q {B w cn : Nat} (hcn : 0 < cn) (hw : 0 < w)
    {put : Nat → Nat → Nat → Buf → Outcome Buf} {px : Nat → Nat → Nat → Buf}
    (hput : PutOk B cn put px) {Q : Nat → Nat → Nat → Nat → Buf → Prop} {hd : RowHandler420}
    (hhd : hd.Fills B cn w px Q) {y0 y1 u v row0 row1 : Buf} (ly0 : y0.length = w) (ly1 : y1.length = w)
    (lu : u.length = ceil2 w) (lv : v.length = ceil2 w)
    (by0 : ∀ s ∈ y0, s < B) (by1 : ∀ s ∈ y1, s < B) (bu : ∀ s ∈ u, s < B) (bv : ∀ s ∈ v, s < B)
    (lr0 : row0.length = w * cn) (lr1 : row1.length = w * cn) :
    ∃ p0 p1 : Nat → Buf, (∀ x, (p0 x).length = cn) ∧ (∀ x, (p1 x).length = cn) ∧
      (∀ x, x < w → Q x (y0.getD x 0) (u.getD (x / 2) 0) (v.getD (x / 2) 0) (p0 x)) ∧
      (∀ x, x < w → Q x (y1.getD x 0) (u.getD (x / 2) 0) (v.getD (x / 2) 0) (p1 x)) ∧
      doubledRow w cn put hd y0 y1 u v row0 row1
        = .ok (paintRow cn w p0 row0, paintRow cn w p1 row1) := by
  have hc2 : (w - 1) / 2 + 1 = ceil2 w := by unfold ceil2; omega
  obtain ⟨row0', row1', cx, e, hdone0, hdone1, hpq⟩ := hhd y0 y1 u v row0 row1 by0 by1 bu bv
    (by omega) (by omega) (by omega) (by omega) (by omega) (by omega)
  obtain ⟨vp0, v1, v2, v3, v4, v5⟩ := rowDone_paint hcn (by omega) hdone0
  obtain ⟨vp1, t1, t2, _, _, t5⟩ := rowDone_paint hcn (by omega) hdone1
  have lc : ceil2 w = (w + 1) / 2 := rfl
  have hlr0 : row0'.length = w * cn := by
    rw [v5, paintRow_length v1 (by rw [lr0]; exact Nat.mul_le_mul_right _ v3), lr0]
  have hlr1 : row1'.length = w * cn := by
    rw [t5, paintRow_length t1 (by rw [lr1]; exact Nat.mul_le_mul_right _ v3), lr1]
  have hk : w * cn / (2 * cn) = w / 2 := by
    rw [Nat.mul_comm 2 cn, ← Nat.div_div_eq_div_mul, Nat.mul_div_cancel _ hcn]
  have hk2 : min4 (min (row0'.length / (2 * cn)) (row1'.length / (2 * cn)))
      (min (y0.length / 2) (y1.length / 2)) u.length v.length = w / 2 := by
    rw [hlr0, hlr1, hk, ly0, ly1, lu, lv]; unfold min4 ceil2; omega
  unfold doubledRow
  rw [e, Outcome.bind_ok]
  simp only
  rw [hk2, v5, t5]
  have fill : ∀ (y row : Buf) (vp : Nat → Buf), y.length = w → (∀ s ∈ y, s < B) →
      row.length = w * cn → (∀ x, (vp x).length = cn) →
      (∀ x, x < cx → Q x (y.getD x 0) (u.getD (x / 2) 0) (v.getD (x / 2) 0) (vp x)) →
      (∀ x, cx ≤ x → x < w → Q x (y.getD x 0) (u.getD (x / 2) 0) (v.getD (x / 2) 0)
        (px (y.getD x 0) (u.getD (x / 2) 0) (v.getD (x / 2) 0))) →
      RowOk cn w (fun x p => Q x (y.getD x 0) (u.getD (x / 2) 0) (v.getD (x / 2) 0) p) row
        (rowPairs true w cn cx (w / 2)
          (fun i c => do
            let y0 ← idx y (2 * i)
            let u0 ← idx u i
            let v0 ← idx v i
            put y0 u0 v0 c)
          (fun i c => do
            let y1 ← idx y (2 * i + 1)
            let u0 ← idx u i
            let v0 ← idx v i
            put y1 u0 v0 c)
          (fun c => do
            let y0 ← lastElem y
            let u0 ← lastElem u
            let v0 ← lastElem v
            put y0 u0 v0 c) (paintRow cn cx vp row)) := by
    intro y row vp ly by' lr vl vR hq
    refine rowPairs_rel hcn (px := fun x => px (y.getD x 0) (u.getD (x / 2) 0) (v.getD (x / 2) 0))
      lr vl vR v3 v4 rfl
      (fun x => hput.len ..) (fun x hx => hq x hx.le) ?_ ?_ ?_
    · intro j c hj hc
      rw [idx_ok (by omega), idx_ok (by omega), idx_ok (by omega)]
      simp only [Outcome.bind_ok]
      rw [hput.ok _ _ _ _ (bnd_getD by' (by omega)) (bnd_getD bu (by omega))
        (bnd_getD bv (by omega)) hc, show 2 * j / 2 = j by omega]
    · intro j c hj hc
      rw [idx_ok (by omega), idx_ok (by omega), idx_ok (by omega)]
      simp only [Outcome.bind_ok]
      rw [hput.ok _ _ _ _ (bnd_getD by' (by omega)) (bnd_getD bu (by omega))
        (bnd_getD bv (by omega)) hc, show (2 * j + 1) / 2 = j by omega]
    · intro c hodd hc
      rw [lastElem_ok (by omega), lastElem_ok (by omega), lastElem_ok (by omega)]
      simp only [Outcome.bind_ok]
      rw [hput.ok _ _ _ _ (bnd_getD by' (by omega)) (bnd_getD bu (by omega))
        (bnd_getD bv (by omega)) hc, ly, lu, lv, show ceil2 w - 1 = (w - 1) / 2 by omega]
  obtain ⟨p0, a1, a2, a3⟩ := fill y0 row0 vp0 ly0 by0 lr0 v1 v2 (hpq y0 (.inl rfl))
  obtain ⟨p1, b1, b2, b3⟩ := fill y1 row1 vp1 ly1 by1 lr1 t1 t2 (hpq y1 (.inr rfl))
  refine ⟨p0, p1, a1, b1, a2, b2, ?_⟩
  rw [a3, Outcome.bind_ok, b3, Outcome.bind_ok]; rfl

/-! ## Frames -/

/-- Everything the planar loops rely on besides the pixel arithmetic. -/
structure PlanarRows (i : Planar) (s : Sampling) (B : Nat) : Prop where
  wpos : 0 < i.width
  hpos : 0 < i.height
  yw : i.width ≤ i.yStride
  uw : s.chromaWidth i.width ≤ i.uStride
  vw : s.chromaWidth i.width ≤ i.vStride
  yr : FullRows i.y.length i.yStride i.height
  ur : FullRows i.u.length i.uStride (s.chromaHeight i.height)
  vr : FullRows i.v.length i.vStride (s.chromaHeight i.height)
  yb : ∀ a ∈ i.y, a < B
  ub : ∀ a ∈ i.u, a < B
  vb : ∀ a ∈ i.v, a < B

/-- Pixel relation of a frame. -/
def PixRel (i : Planar) (s : Sampling) (px : Nat → Nat → Nat → Buf)
    (R : Nat → Nat → Nat → Buf → Prop) (x y : Nat) (p : Buf) : Prop :=
  p = px (at' i.y i.yStride x y) (at' i.u i.uStride (x / hdiv s) (y / vdiv s))
      (at' i.v i.vStride (x / hdiv s) (y / vdiv s)) ∨
  R (at' i.y i.yStride x y) (at' i.u i.uStride (x / hdiv s) (y / vdiv s))
      (at' i.v i.vStride (x / hdiv s) (y / vdiv s)) p

/-- Pixel relation of a frame whose rows are related by `Q`. -/
def PixQ (i : Planar) (s : Sampling) (Q : Nat → Nat → Nat → Nat → Buf → Prop) (x y : Nat) (p : Buf) :
    Prop :=
  Q x (at' i.y i.yStride x y) (at' i.u i.uStride (x / hdiv s) (y / vdiv s))
    (at' i.v i.vStride (x / hdiv s) (y / vdiv s)) p

theorem row_getD {l : Buf} {stride r n x : Nat} (hx : x < n) (hn : n ≤ stride) :
    ((chunk stride l r).take n).getD x 0 = at' l stride x r := by
  rw [take_getD hx, chunk_getD (by omega)]; rfl

theorem slice_take {l : Buf} {n : Nat} (h : n ≤ l.length) : slice l 0 n = .ok (l.take n) := by
  rw [slice_ok (by omega) h]; simp

theorem halvedSlice_q {guard : Bool} {i : Planar} {s : Sampling} {B cn r rc stride : Nat} (hs : hdiv s = 2)
    (hp : PlanarRows i s B) (hcn : 0 < cn) {put : Nat → Nat → Nat → Buf → Outcome Buf}
    {px : Nat → Nat → Nat → Buf}
    (hput : PutOk B cn put px) {Q : Nat → Nat → Nat → Nat → Buf → Prop} {hd : RowHandler}
    (hhd : hd.Fills guard B cn i.width 2 px Q) (hw : i.width * cn ≤ stride)
    (hr : r < i.height) (hrc : rc = r / vdiv s) {row : Buf} (hrow : row.length = stride) :
    RowOk cn i.width (fun x p => PixQ i s Q x r p) row
      (halvedSlice guard i.width cn put hd (chunk i.yStride i.y r) (chunk i.uStride i.u rc)
        (chunk i.vStride i.v rc) row) := by
  have hcw : s.chromaWidth i.width = ceil2 i.width := by
    cases s <;> simp_all [hdiv, Sampling.chromaWidth]
  have hrc' : rc < s.chromaHeight i.height := by rw [hrc]; exact div_vdiv_lt hr
  have cy := chunk_length (fullRows_row hp.yr hr)
  have cu := chunk_length (fullRows_row hp.ur hrc')
  have cv := chunk_length (fullRows_row hp.vr hrc')
  have hyw := hp.yw
  have huw := hp.uw
  have hvw := hp.vw
  rw [hcw] at huw hvw
  have hwp := hp.wpos
  unfold halvedSlice
  rw [slice_take (by omega), slice_take (by omega), slice_take (by omega)]
  simp only [Outcome.bind_ok]
  apply rowOk_prefix (by omega)
  refine RowOk.mono (halvedRow_q hcn hwp hput hhd
    (by rw [List.length_take]; omega) (by rw [List.length_take]; omega)
    (by rw [List.length_take]; omega) (bnd_take (bnd_chunk hp.yb)) (bnd_take (bnd_chunk hp.ub))
    (bnd_take (bnd_chunk hp.vb)) (by rw [List.length_take]; omega)) ?_
  intro x p hx
  have hx2 : x / 2 < ceil2 i.width := by unfold ceil2; omega
  rw [row_getD hx hyw, row_getD hx2 huw, row_getD hx2 hvw]
  unfold PixQ
  rw [hs, ← hrc]
  exact id

theorem decode422_q {guard : Bool} {i : Planar} {B cn stride : Nat} {rgba : Buf}
    (hp : PlanarRows i .yuv422 B) (hcn : 0 < cn) {put : Nat → Nat → Nat → Buf → Outcome Buf}
    {px : Nat → Nat → Nat → Buf}
    (hput : PutOk B cn put px) {Q : Nat → Nat → Nat → Nat → Buf → Prop} {hd : RowHandler}
    (hhd : hd.Fills guard B cn i.width 2 px Q) (hw : i.width * cn ≤ stride)
    (hd' : FullRows rgba.length stride i.height) :
    FrameOk stride i.height cn i.width (PixQ i .yuv422 Q) rgba
      (decode422 guard cn put hd i rgba stride) := by
  have hst : 0 < stride := Nat.lt_of_lt_of_le (Nat.mul_pos hp.wpos hcn) hw
  unfold decode422
  have hk : min4 (rgba.length / stride) (i.y.length / i.yStride) (i.u.length / i.uStride)
      (i.v.length / i.vStride) = i.height := by
    rw [fullRows_div hd', fullRows_div hp.yr, fullRows_div hp.ur, fullRows_div hp.vr]
    simp [min4, Sampling.chromaHeight]
  rw [hk]
  refine eachChunk_rows hst hw (by omega) (by rw [Nat.mul_comm]; exact hd'.1) ?_
  intro r c _ hr hc
  exact halvedSlice_q rfl hp hcn hput hhd hw hr (by simp [vdiv]) hc

theorem decode444_q {guard : Bool} {i : Planar} {B cn stride : Nat} {rgba : Buf}
    (hp : PlanarRows i .yuv444 B) (hcn : 0 < cn) {put : Nat → Nat → Nat → Buf → Outcome Buf}
    {px : Nat → Nat → Nat → Buf}
    (hput : PutOk B cn put px) {Q : Nat → Nat → Nat → Nat → Buf → Prop} {hd : RowHandler}
    (hhd : hd.Fills true B cn i.width 1 px Q) (hw : i.width * cn ≤ stride)
    (hd' : FullRows rgba.length stride i.height) :
    FrameOk stride i.height cn i.width (PixQ i .yuv444 Q) rgba
      (decode444 guard cn put hd i rgba stride) := by
  have hst : 0 < stride := Nat.lt_of_lt_of_le (Nat.mul_pos hp.wpos hcn) hw
  unfold decode444
  have hk : min4 (rgba.length / stride) (i.y.length / i.yStride) (i.u.length / i.uStride)
      (i.v.length / i.vStride) = i.height := by
    rw [fullRows_div hd', fullRows_div hp.yr, fullRows_div hp.ur, fullRows_div hp.vr]
    simp [min4, Sampling.chromaHeight]
  rw [hk]
  refine eachChunk_rows hst hw (by omega) (by rw [Nat.mul_comm]; exact hd'.1) ?_
  intro r row _ hr hrow
  have cy := chunk_length (fullRows_row hp.yr hr)
  have cu := chunk_length (fullRows_row hp.ur hr)
  have cv := chunk_length (fullRows_row hp.vr hr)
  have hyw := hp.yw
  have huw := hp.uw
  have hvw := hp.vw
  simp only [Sampling.chromaWidth] at huw hvw
  have hwp := hp.wpos
  rw [slice_take (by omega)]
  simp only [Outcome.bind_ok]
  have ly : ((chunk i.yStride i.y r).take i.width).length = i.width := by
    rw [List.length_take]; omega
  have bY := bnd_take (n := i.width) (bnd_chunk (n := i.yStride) (k := r) hp.yb)
  have bU := bnd_chunk (n := i.uStride) (k := r) hp.ub
  have bV := bnd_chunk (n := i.vStride) (k := r) hp.vb
  obtain ⟨row', cx, e, hdone, hpq⟩ := hhd ((chunk i.yStride i.y r).take i.width) (chunk i.uStride i.u r)
    (chunk i.vStride i.v r) row bY bU bV (by omega) (by rw [cu]; omega) (by rw [cv]; omega)
    (by omega)
  obtain ⟨vp, v1, v2, v3, v4, v5⟩ := rowDone_paint hcn (by omega) hdone
  rw [e, Outcome.bind_ok]
  simp only
  have hlr : row'.length = stride := by
    rw [v5, paintRow_length v1 (by rw [hrow]; exact Nat.le_trans (Nat.mul_le_mul_right _ v3) hw),
      hrow]
  have hk1 : i.width ≤ row'.length / cn := by
    rw [hlr]; exact (Nat.le_div_iff_mul_le hcn).2 hw
  have hk2 : min4 (row'.length / cn) ((chunk i.yStride i.y r).take i.width).length
      (chunk i.uStride i.u r).length (chunk i.vStride i.v r).length = i.width := by
    rw [ly, cu, cv]; unfold min4; omega
  rw [hk2, v5]
  have key : ∀ x, x < i.width →
      ((chunk i.yStride i.y r).take i.width).getD x 0 = at' i.y i.yStride x r ∧
      (chunk i.uStride i.u r).getD x 0 = at' i.u i.uStride x r ∧
      (chunk i.vStride i.v r).getD x 0 = at' i.v i.vStride x r := by
    intro x hx
    refine ⟨row_getD hx hyw, ?_, ?_⟩
    · rw [chunk_getD (by omega)]; rfl
    · rw [chunk_getD (by omega)]; rfl
  refine rowSingles_rel hcn (px := fun x => px (at' i.y i.yStride x r) (at' i.u i.uStride x r)
      (at' i.v i.vStride x r)) (by omega) v1 ?_ v3 rfl (fun x => hput.len ..) ?_ ?_
  · intro x hx
    have := v2 x hx
    obtain ⟨k1, k2, k3⟩ := key x (by omega)
    simp only [Nat.div_one] at this
    rw [k1, k2, k3] at this
    simpa [PixQ, hdiv, vdiv] using this
  · intro x hcx hx
    have := hpq x (.inl hcx) hx
    obtain ⟨k1, k2, k3⟩ := key x hx
    simp only [Nat.div_one] at this
    rw [k1, k2, k3] at this
    simpa [PixQ, hdiv, vdiv] using this
  · intro x c hx hc
    obtain ⟨k1, k2, k3⟩ := key x hx
    rw [idx_ok (by omega), idx_ok (by omega), idx_ok (by omega)]
    simp only [Outcome.bind_ok]
    rw [hput.ok _ _ _ _ (bnd_getD bY (by omega)) (bnd_getD bU (by omega))
      (bnd_getD bV (by omega)) hc, k1, k2, k3]

theorem lastChunk_rows {l : Buf} {stride n : Nat} (hs : 0 < stride) (hn : 0 < n)
    (h : FullRows l.length stride n) : lastChunk stride l = .ok (chunk stride l (n - 1)) := by
  have := fullRows_row h (show n - 1 < n by omega)
  rw [lastChunk_ok hs (by omega), fullRows_div h]

theorem chunk2_take {l : Buf} {n r : Nat} : (chunk (n * 2) l r).take n = chunk n l (2 * r) := by
  simp only [chunk, List.take_take]
  rw [show min n (n * 2) = n by omega, show r * (n * 2) = 2 * r * n by
    rw [Nat.mul_comm 2 r, Nat.mul_assoc, Nat.mul_comm n 2]]

theorem chunk2_drop {l : Buf} {n r : Nat} : (chunk (n * 2) l r).drop n = chunk n l (2 * r + 1) := by
  simp only [chunk, List.drop_take, List.drop_drop]
  rw [show n * 2 - n = n by omega, show r * (n * 2) + n = (2 * r + 1) * n by
    rw [Nat.add_mul, Nat.mul_comm 2 r, Nat.mul_assoc, Nat.mul_comm n 2, Nat.one_mul]]

theorem decode420_q {i : Planar} {B cn stride : Nat} {rgba : Buf}
    (hp : PlanarRows i .yuv420 B) (hcn : 0 < cn) {put put2 : Nat → Nat → Nat → Buf → Outcome Buf}
    {px : Nat → Nat → Nat → Buf}
    (hput : PutOk B cn put px) (hput2 : PutOk B cn put2 px)
    {Q Q2 : Nat → Nat → Nat → Nat → Buf → Prop}
    {hd : RowHandler} {hd2 : RowHandler420}
    (hhd : hd.Fills true B cn i.width 2 px Q) (hhd2 : hd2.Fills B cn i.width px Q2) (hw : i.width * cn ≤ stride)
    (hd' : FullRows rgba.length stride i.height) :
    FrameOk stride i.height cn i.width (fun x y => PixQ i .yuv420 (if y = 2 * (i.height / 2) then Q else Q2) x y)
      rgba
      (decode420 cn put put2 hd hd2 i rgba stride) := by
  have hst : 0 < stride := Nat.lt_of_lt_of_le (Nat.mul_pos hp.wpos hcn) hw
  have hyw := hp.yw
  have huw := hp.uw
  have hvw := hp.vw
  simp only [Sampling.chromaWidth] at huw hvw
  have hwp := hp.wpos
  have hhp := hp.hpos
  unfold decode420
  have hk : min4 (rgba.length / (stride * 2)) (i.y.length / (i.yStride * 2))
      (i.u.length / i.uStride) (i.v.length / i.vStride) = i.height / 2 := by
    rw [fullRows_div2 hd', fullRows_div2 hp.yr, fullRows_div hp.ur, fullRows_div hp.vr]
    simp only [min4, Sampling.chromaHeight, ceil2]; omega
  have hcp := chromaHeight_pos (s := .yuv420) hhp
  have hcw : 0 < ceil2 i.width := ceil2_pos hwp
  rw [hk, Nat.mul_comm stride 2, lastChunk_rows (by omega) hcp hp.ur,
    lastChunk_rows (by omega) hcp hp.vr, lastChunk_rows (by omega) hhp hp.yr]
  simp only [Outcome.bind_ok]
  refine frame420_last hst hw hd' ?_ ?_
  · intro r rows hr hrows
    have hrc : r < (Sampling.yuv420).chromaHeight i.height := by
      simp only [Sampling.chromaHeight, ceil2]; omega
    have cy0 := chunk_length (fullRows_row hp.yr (show 2 * r < i.height by omega))
    have cy1 := chunk_length (fullRows_row hp.yr (show 2 * r + 1 < i.height by omega))
    have cu := chunk_length (fullRows_row hp.ur hrc)
    have cv := chunk_length (fullRows_row hp.vr hrc)
    rw [chunk2_take, chunk2_drop, slice_take (by omega), slice_take (by omega),
      slice_take (by omega), slice_take (by omega),
      slice_take (by rw [List.length_take]; omega), slice_take (by rw [List.length_drop]; omega)]
    simp only [Outcome.bind_ok]
    obtain ⟨p0, p1, a1, b1, a2, b2, e⟩ := doubledRow_q hcn hwp hput2 hhd2
      (y0 := (chunk i.yStride i.y (2 * r)).take i.width)
      (y1 := (chunk i.yStride i.y (2 * r + 1)).take i.width)
      (u := (chunk i.uStride i.u r).take (ceil2 i.width))
      (v := (chunk i.vStride i.v r).take (ceil2 i.width))
      (row0 := (rows.take stride).take (i.width * cn))
      (row1 := (rows.drop stride).take (i.width * cn))
      (by rw [List.length_take]; omega) (by rw [List.length_take]; omega)
      (by rw [List.length_take]; omega) (by rw [List.length_take]; omega)
      (bnd_take (bnd_chunk hp.yb)) (bnd_take (bnd_chunk hp.yb)) (bnd_take (bnd_chunk hp.ub))
      (bnd_take (bnd_chunk hp.vb))
      (by rw [List.length_take, List.length_take]; omega)
      (by rw [List.length_take, List.length_drop]; omega)
    rw [e]
    simp only [Outcome.bind_ok, Outcome.pure_eq]
    refine ⟨p0, p1, a1, b1, ?_, ?_, ?_⟩
    · intro x hx
      have := a2 x hx
      have hx2 : x / 2 < ceil2 i.width := by unfold ceil2; omega
      rw [row_getD hx hyw, row_getD hx2 huw, row_getD hx2 hvw] at this
      rw [if_neg (by omega)]
      simp only [PixQ, hdiv, vdiv, show 2 * r / 2 = r by omega]
      exact this
    · intro x hx
      have := b2 x hx
      have hx2 : x / 2 < ceil2 i.width := by unfold ceil2; omega
      rw [row_getD hx hyw, row_getD hx2 huw, row_getD hx2 hvw] at this
      rw [if_neg (by omega)]
      simp only [PixQ, hdiv, vdiv, show (2 * r + 1) / 2 = r by omega]
      exact this
    · unfold paintRow
      rw [mapChunks_take_append (by rw [List.length_take]; omega),
        mapChunks_take_append (by rw [List.length_drop]; omega)]
  · intro hodd c hc
    have e2 : ceil2 i.height - 1 = (i.height - 1) / 2 := by unfold ceil2; omega
    rw [if_pos (by omega)]
    exact halvedSlice_q rfl hp hcn hput hhd hw (by omega)
      (by simp only [Sampling.chromaHeight, vdiv]; exact e2) hc

/-! ## Handlers that only promise a relation -/

section
variable {guard : Bool} {i : Planar} {B cn stride : Nat} {rgba : Buf}
  {put put2 : Nat → Nat → Nat → Buf → Outcome Buf} {px : Nat → Nat → Nat → Buf}
  {R : Nat → Nat → Nat → Buf → Prop} {hd : RowHandler} {hd2 : RowHandler420}

theorem decode422_rel (hp : PlanarRows i .yuv422 B) (hcn : 0 < cn) (hput : PutOk B cn put px)
    (hhd : hd.Ok B cn i.width 2 R) (hw : i.width * cn ≤ stride)
    (hd' : FullRows rgba.length stride i.height) :
    FrameOk stride i.height cn i.width (PixRel i .yuv422 px R) rgba
      (decode422 guard cn put hd i rgba stride) :=
  decode422_q hp hcn hput (hhd.fills guard px) hw hd'

theorem decode444_rel (hp : PlanarRows i .yuv444 B) (hcn : 0 < cn) (hput : PutOk B cn put px)
    (hhd : hd.Ok B cn i.width 1 R) (hw : i.width * cn ≤ stride)
    (hd' : FullRows rgba.length stride i.height) :
    FrameOk stride i.height cn i.width (PixRel i .yuv444 px R) rgba
      (decode444 guard cn put hd i rgba stride) :=
  decode444_q hp hcn hput (hhd.fills true px) hw hd'

theorem decode420_rel (hp : PlanarRows i .yuv420 B) (hcn : 0 < cn) (hput : PutOk B cn put px)
    (hput2 : PutOk B cn put2 px) (hhd : hd.Ok B cn i.width 2 R) (hhd2 : hd2.Ok B cn i.width R)
    (hw : i.width * cn ≤ stride) (hd' : FullRows rgba.length stride i.height) :
    FrameOk stride i.height cn i.width (PixRel i .yuv420 px R) rgba
      (decode420 cn put put2 hd hd2 i rgba stride) := by
  have h := decode420_q hp hcn hput hput2 (hhd.fills true px) (hhd2.fills px) hw hd'
  simp only [ite_self] at h
  exact h

end

end Verif
