import Verif.Model.Gray
import Verif.Spec.Gray
import Verif.Lemmas.PixelMap
import Verif.Lemmas.NoErr
import Verif.Props.PlanarEncode
import Verif.Lemmas.DeepEncode
/-! # Lemmas on the grey converters -/
namespace Verif
open Spec

theorem Spec.GoodGray.accepted {i : Gray} {B : Nat} (h : GoodGray i B) : i.check x64 = .ok () :=
  (checkY8_ok_iff (len := i.y.length) h.y.stride32 h.w32 h.h32).2
    ⟨h.wpos, h.hpos, h.y.cols_le, fullRows_need h.y.full h.hpos h.y.cols_le⟩

theorem Spec.GoodGrayAlpha.accepted {i : GrayAlpha} {B : Nat} (h : GoodGrayAlpha i B) :
    i.check x64 = .ok () := by
  have a := (checkY8_ok_iff (len := i.y.length) h.y.stride32 h.w32 h.h32).2
    ⟨h.wpos, h.hpos, h.y.cols_le, fullRows_need h.y.full h.hpos h.y.cols_le⟩
  have b := (checkY8_ok_iff (len := i.a.length) h.a.stride32 h.w32 h.h32).2
    ⟨h.wpos, h.hpos, h.a.cols_le, fullRows_need h.a.full h.hpos h.a.cols_le⟩
  unfold GrayAlpha.check
  rw [a, b]; rfl

theorem idx_getD {l : Buf} {k : Nat} (h : k < l.length) : idx l k = .ok (l.getD k 0) := by
  simp [idx, List.getElem?_eq_getElem h, List.getD_eq_getElem?_getD]

/-- Component `k` of source pixel `j`. -/
def comp (px : List Buf) (j k : Nat) : Nat := (px.getD j []).getD k 0

theorem zip_getD {α β : Type} {l : List α} {m : List β} {j : Nat} {a : α} {b : β}
    (h : l[j]? = some a) (hm : m[j]? = some b) : (a, b) ∈ l.zip m := by
  apply List.mem_of_getElem? (i := j)
  rw [List.getElem?_zip_eq_some]
  exact ⟨h, hm⟩

theorem Spec.PixelShape.comp {B j k : Nat} {srcs : List Src} {px : List Buf} {s : Src}
    (h : PixelShape B srcs px) (hs : srcs[j]? = some s) (hk : k < s.cn) :
    idx (px.getD j []) k = .ok (Verif.comp px j k) ∧ Verif.comp px j k < B := by
  have hj : j < px.length := by
    rw [h.len]; exact (List.getElem?_eq_some_iff.1 hs).1
  have hp : px[j]? = some px[j] := List.getElem?_eq_getElem hj
  obtain ⟨h1, h2⟩ := h.each s px[j] (zip_getD hs hp)
  have e : px.getD j [] = px[j] := by simp [List.getD_eq_getElem?_getD, hp]
  have hk' : k < px[j].length := by omega
  unfold Verif.comp
  rw [e, idx_getD hk']
  refine ⟨rfl, ?_⟩
  rw [List.getD_eq_getElem?_getD, List.getElem?_eq_getElem hk']
  exact h2 _ (List.getElem_mem hk')

theorem Spec.PixelShape.pixel {B j : Nat} {srcs : List Src} {px : List Buf} {s : Src}
    (h : PixelShape B srcs px) (hs : srcs[j]? = some s) :
    (px.getD j []).length = s.cn ∧ ∀ a ∈ px.getD j [], a < B := by
  have hj : j < px.length := by
    rw [h.len]; exact (List.getElem?_eq_some_iff.1 hs).1
  have hp : px[j]? = some px[j] := List.getElem?_eq_getElem hj
  have e : px.getD j [] = px[j] := by simp [List.getD_eq_getElem?_getD, hp]
  rw [e]
  exact h.each s px[j] (zip_getD hs hp)

theorem grayBody_ok {B a : Nat} {v : Nat → Outcome Nat} {V : Nat → Nat} {ch : Channels}
    {s : Src} {rest : List Src} (hs : 0 < s.cn) (hv : ∀ y, y < B → v y = .ok (V y)) :
    BodyOk B ch.count (s :: rest) (grayBody v ch a)
      (fun px => layout ch (V (comp px 0 0)) (V (comp px 0 0)) (V (comp px 0 0)) a) where
  len px := layout_length ..
  ok px c hp hc := by
    obtain ⟨h1, h2⟩ := hp.comp (j := 0) (k := 0) rfl hs
    unfold grayBody
    rw [h1]
    simp only [Outcome.bind_ok]
    rw [hv _ h2]
    exact storePix_ok hc

theorem grayAlphaBody_ok {B : Nat} {v : Nat → Outcome Nat} {V : Nat → Nat} {ch : Channels}
    {s s' : Src} {rest : List Src} (hs : 0 < s.cn) (hs' : 0 < s'.cn)
    (hv : ∀ y, y < B → v y = .ok (V y)) :
    BodyOk B ch.count (s :: s' :: rest) (grayAlphaBody v ch)
      (fun px => layout ch (V (comp px 0 0)) (V (comp px 0 0)) (V (comp px 0 0)) (comp px 1 0)) where
  len px := layout_length ..
  ok px c hp hc := by
    obtain ⟨h1, h2⟩ := hp.comp (j := 0) (k := 0) rfl hs
    obtain ⟨h3, h4⟩ := hp.comp (j := 1) (k := 0) rfl hs'
    unfold grayAlphaBody
    rw [h1, h3]
    simp only [Outcome.bind_ok]
    rw [hv _ h2]
    exact storePix_ok hc

theorem toGrayBody_ok {rg : YuvRange} {m : Matrix} {ch : Channels} {s : Src} {rest : List Src}
    (hs : s.cn = ch.count) :
    BodyOk 256 1 (s :: rest) (toGrayBody (searchForward 13 8 rg m) (getYuvRange 8 rg).biasY ch)
      (fun px => [luma8 13 ch rg m (px.getD 0 [])]) where
  len px := rfl
  ok px c hp hc := by
    obtain ⟨h1, h2⟩ := hp.pixel (j := 0) rfl
    rw [hs] at h1
    obtain ⟨r, g, b⟩ := rgb_lt h1 h2
    unfold toGrayBody
    rw [readRgb_ok h1]
    simp only [Outcome.bind_ok]
    rw [luma8_closed (Or.inr (Or.inl rfl)) rg m _ _ _ r g b]
    simp only [Outcome.bind_ok]
    match c, hc with
    | [_], _ => rfl

theorem grayY_coef {d : Nat} (hd : Depth d) (m : Matrix) :
    0 ≤ (searchInverse 13 d .limited m).y ∧ (searchInverse 13 d .limited m).y ≤ 10000 := by
  have : ∀ d ∈ allDepth, ∀ m ∈ allMatrix, 0 ≤ (searchInverse 13 d .limited m).y ∧
    (searchInverse 13 d .limited m).y ≤ 10000 := by decide +kernel
  exact this d (mem_allDepth hd) m (mem_allMatrix m)

theorem grayBias {d : Nat} (hd : Depth d) : (getYuvRange d .limited).biasY = 16 * 2 ^ (d - 8) := by
  rcases hd with h | h | h | h | h <;> subst h <;> decide

theorem gray_prod {d : Nat} (hd : Depth d) (m : Matrix) {y : Nat} (hy : y < 2 ^ d) :
    -1000000000 ≤ ((y : Int) - (getYuvRange d .limited).biasY) * (searchInverse 13 d .limited m).y ∧
    ((y : Int) - (getYuvRange d .limited).biasY) * (searchInverse 13 d .limited m).y
      ≤ 1000000000 := by
  obtain ⟨h0, h1⟩ := grayY_coef hd m
  have hb : -70000 ≤ (y : Int) - (getYuvRange d .limited).biasY ∧
      (y : Int) - (getYuvRange d .limited).biasY ≤ 70000 := by
    rw [grayBias hd]
    rcases hd with h | h | h | h | h <;> subst h <;> norm_num at hy ⊢ <;> omega
  generalize (y : Int) - (getYuvRange d .limited).biasY = a at hb ⊢
  generalize (searchInverse 13 d .limited m).y = c at h0 h1 ⊢
  constructor <;> nlinarith

theorem grayVal8_ok (rg : YuvRange) (m : Matrix) {y : Nat} (hy : y < 256) :
    grayVal8 rg m y = .ok (grayLevel 8 rg m y) := by
  cases rg with
  | full => rfl
  | limited =>
    have hb := grayBias (d := 8) (Or.inl rfl)
    have h1 : chk16 ((y : Int) - (getYuvRange 8 .limited).biasY)
        = .ok ((y : Int) - (getYuvRange 8 .limited).biasY) := by
      unfold chk16; rw [if_pos]; rw [hb]; omega
    obtain ⟨c0, c1⟩ := grayY_coef (d := 8) (Or.inl rfl) m
    have h2 : asI16 (searchInverse 13 8 .limited m).y = (searchInverse 13 8 .limited m).y := by
      unfold asI16; omega
    obtain ⟨p0, p1⟩ := gray_prod (d := 8) (Or.inl rfl) m hy
    simp only [grayVal8, grayLimited8, h1, h2, Outcome.bind_ok]
    rw [mul32_ok (by omega) (by omega)]
    simp only [Outcome.bind_ok]
    rw [qrshr_ok (by norm_num; omega) (by norm_num; omega)]
    simp only [Outcome.bind_ok, Outcome.pure_eq, grayLevel, qr]
    congr 1
    generalize ((y : Int) - (getYuvRange 8 .limited).biasY) * (searchInverse 13 8 .limited m).y = s
    unfold asU8
    norm_num
    omega

theorem narrowDiff_ok {d y b : Nat} (hd : Deep d) (hy : y < 2 ^ d) (hb : b ≤ 2 ^ (d - 4)) :
    narrowDiff d y b = .ok ((y : Int) - b) := by
  unfold narrowDiff
  by_cases h16 : d = 16
  · subst h16
    have hy' : y < 65536 := hy
    have hb' : b ≤ 4096 := hb
    rw [if_pos rfl]
    unfold chk32
    rw [if_pos (by omega)]
  · have hy' : y < 16384 := Nat.lt_of_lt_of_le hy (Nat.pow_le_pow_right (by decide) (show d ≤ 14 by
      unfold Deep at hd; omega))
    have hb' : b ≤ 1024 := Nat.le_trans hb (Nat.pow_le_pow_right (by decide) (show d - 4 ≤ 10 by
      unfold Deep at hd; omega))
    rw [if_neg h16]
    have e : asI16 (y : Int) = y := by unfold asI16; omega
    rw [e]
    unfold chk16
    rw [if_pos (by omega)]

theorem grayValDeep_ok {d : Nat} (hd : Deep d) (rg : YuvRange) (m : Matrix) {y : Nat}
    (hy : y < 2 ^ d) : grayValDeep d rg m y = .ok (grayLevel d rg m y) := by
  cases rg with
  | full => rfl
  | limited =>
    have hb := grayBias hd.depth
    have h1 := narrowDiff_ok hd hy (show (getYuvRange d .limited).biasY ≤ 2 ^ (d - 4) by
      rw [hb]; rcases hd with h | h | h | h <;> subst h <;> decide)
    obtain ⟨p0, p1⟩ := gray_prod hd.depth m hy
    simp only [grayValDeep, grayLimitedDeep, h1, Outcome.bind_ok]
    rw [mul32_ok (by omega) (by omega)]
    simp only [Outcome.bind_ok]
    rw [add32_ok (by norm_num; omega) (by norm_num; omega)]
    simp only [Outcome.bind_ok, Outcome.pure_eq, grayLevel, sar]
    congr 1
    generalize ((y : Int) - (getYuvRange d .limited).biasY) * (searchInverse 13 d .limited m).y = s
    have hp : (2 : Int) ^ d ≤ 65536 := by
      rcases hd with h | h | h | h <;> subst h <;> norm_num
    unfold asU16
    generalize (2 : Int) ^ d = M at hp ⊢
    norm_num
    omega

theorem NoErr.srcRows {w r : Nat} : ∀ {l : List Src}, NoErr (Verif.srcRows w r l)
  | [] => .ok
  | s :: ss => by
    unfold Verif.srcRows Src.row
    exact .bind (.ite .slice .ok) fun _ => .bind NoErr.srcRows fun _ => .pure

theorem NoErr.mapRow {cn : Nat} {hd : MapHandler} {f : List Buf → Buf → Outcome Buf}
    {srcs : List Src} {rows : List Buf} {row : Buf} (hh : ∀ a b, NoErr (hd a b))
    (hf : ∀ a b, NoErr (f a b)) : NoErr (Verif.mapRow cn hd f srcs rows row) := by
  unfold Verif.mapRow
  exact .bind (hh _ _) fun _ => .eachChunk fun _ _ => hf _ _

theorem NoErr.mapFrame {cutDst : Bool} {w cn stride : Nat} {hd : MapHandler}
    {f : List Buf → Buf → Outcome Buf} {srcs : List Src} {dst : Buf} (hh : ∀ a b, NoErr (hd a b))
    (hf : ∀ a b, NoErr (f a b)) : NoErr (Verif.mapFrame cutDst w cn hd f srcs dst stride) := by
  unfold Verif.mapFrame
  refine .ite .panic (.eachChunk fun _ _ => .bind .srcRows fun _ => ?_)
  split
  · unfold Verif.onPrefix
    no_err [NoErr.mapRow hh hf]
  · exact .mapRow hh hf

end Verif
