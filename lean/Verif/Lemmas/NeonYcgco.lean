import Verif.Model.NeonYcgco
import Verif.Lemmas.NeonRows
import Verif.Props.Ycgco
/-! # Rows of the NEON YCgCo decoder -/
namespace Verif.Neon
open Spec X86

variable {rg : ChromaRange}

/-- The pixel of samples of a row. -/
def cgcoPx (a : Nat) (ch : Channels) (y u v : Nat) : Buf := cgcoPixel 8 ch .full a y u v

theorem cgcoPx_length {a : Nat} {ch : Channels} (y u v : Nat) : (cgcoPx a ch y u v).length = ch.count :=
  cgcoPixel_length ..

theorem cgcoSat_whole (x : Int) : cgcoSat 8 (x * 8192) = satU8 x := by
  unfold cgcoSat satU8
  have : (x * 8192 + 4095) / 8192 = x := by omega
  rw [this]; norm_num; omega

theorem cgcoPx_eq (a : Nat) (ch : Channels) (y u v : Nat) :
    cgcoPx a ch y u v = layout ch (satU8 ((y : Int) - ((u : Int) - 128) + ((v : Int) - 128)))
      (satU8 ((y : Int) + ((u : Int) - 128))) (satU8 ((y : Int) - ((u : Int) - 128) - ((v : Int) - 128))) a := by
  have h : cgcoInv 8 (getYuvRange 8 .full).rangeY = 8192 ∧ cgcoInv 8 (getYuvRange 8 .full).rangeUv = 8192 ∧
      (getYuvRange 8 .full).biasY = 0 ∧ (getYuvRange 8 .full).biasUv = 128 := by decide +kernel
  obtain ⟨h1, h2, h3, h4⟩ := h
  simp only [cgcoPx, cgcoPixel, cgcoR, cgcoG, cgcoB, cgcoLumaPart, cgcoChromaPart, h1, h2, h3, h4]
  rw [← cgcoSat_whole, ← cgcoSat_whole, ← cgcoSat_whole]
  congr 2 <;> push_cast <;> ring

theorem cgcoColours_at {y u v : Reg} {k Y U V : Nat} (hY : Y < 256) (hU : U < 256) (hV : V < 256)
    (hy : s16 y k = (Y : Int)) (hu : s16 u k = (U : Int) - 128) (hv : s16 v k = (V : Int) - 128) :
    s16 (cgcoColours y u v).1 k = (Y : Int) - ((U : Int) - 128) + ((V : Int) - 128) ∧
    s16 (cgcoColours y u v).2.1 k = (Y : Int) + ((U : Int) - 128) ∧
    s16 (cgcoColours y u v).2.2 k = (Y : Int) - ((U : Int) - 128) - ((V : Int) - 128) := by
  simp only [cgcoColours, s16_add, s16_sub, hy, hu, hv]
  unfold asI16
  omega

theorem cgcoPut16_eq {a : Nat} (ha : a < 256) {ch : Channels} {Y U V : Nat → Nat} {y u v : Reg}
    (hY : ∀ i, i < 16 → Y i < 256) (hU : ∀ i, i < 16 → U i < 256)
    (hV : ∀ i, i < 16 → V i < 256) (hy : ∀ i, i < 16 → y i = Y i)
    (hu : ∀ i, i < 16 → u i = (U i + 128) % 256) (hv : ∀ i, i < 16 → v i = (V i + 128) % 256)
    (p : Nat) (row : Buf) :
    cgcoPut16 a ch p y u v row = put row p
      ((List.range 16).flatMap fun i => cgcoPx a ch (Y i) (U i) (V i)) := by
  simp only [cgcoPut16, storeRgb_eq]
  refine congrArg (put row p) ?_
  unfold X86.pixels
  apply range_flatMap_congr
  intro i hi
  have key : ∀ {a b : Reg} {x : Int}, (i < 8 → s16 a i = x) → (8 ≤ i → s16 b (i - 8) = x) →
      qmovun a b i = satU8 x := by
    intro a b x ha hb
    unfold qmovun
    by_cases h8 : i < 8
    · rw [if_pos h8, ha h8]
    · rw [if_neg h8, hb (by omega)]
  have e8 : 8 ≤ i → 8 + (i - 8) = i := by omega
  have off : ∀ {U : Nat}, U < 256 → asI16 (asI8 (((U + 128) % 256 : Nat) : Int)) = (U : Int) - 128 := by
    intro U h; rw [asI8_off h, asI16_id] <;> omega
  have lo : i < 8 → _ := fun _ => cgcoColours_at (y := movlLow y) (u := movsLow u) (v := movsLow v) (k := i)
    (hY i hi) (hU i hi) (hV i hi)
    (by rw [movlLow, s16_mk16, hy i hi, asI16_id] <;> have := hY i hi <;> omega)
    (by rw [movsLow, s16_mk16, hu i hi, off (hU i hi)])
    (by rw [movsLow, s16_mk16, hv i hi, off (hV i hi)])
  have hi' : 8 ≤ i → _ := fun h8 => cgcoColours_at (y := movlHigh y) (u := movsHigh u) (v := movsHigh v)
    (k := i - 8) (hY i hi) (hU i hi) (hV i hi)
    (by rw [movlHigh, s16_mk16, e8 h8, hy i hi, asI16_id] <;> have := hY i hi <;> omega)
    (by rw [movsHigh, s16_mk16, e8 h8, hu i hi, off (hU i hi)])
    (by rw [movsHigh, s16_mk16, e8 h8, hv i hi, off (hV i hi)])
  rw [key (fun h => (lo h).1) (fun h => (hi' h).1), key (fun h => (lo h).2.1) (fun h => (hi' h).2.1),
    key (fun h => (lo h).2.2) (fun h => (hi' h).2.2), cgcoPx_eq]
  have ea : set1_8 (a : Int) i = a := by simp only [set1_8, asU8]; omega
  rw [ea]

theorem luma_at (hby : rg.biasY = 0) {yr : Reg} {i : Nat} : subsU8 yr (set1_8 rg.biasY) i = yr i := by
  rw [subsU8_at (by omega), hby, Nat.sub_zero]

section
variable (hb : rg.biasUv = 128) (hby : rg.biasY = 0)
include hb hby

theorem cgcoBody_eq (s : Sampling) (ch : Channels) {y u v : Buf} (hy : ∀ x ∈ y, x < 256)
    (hu : ∀ x ∈ u, x < 256) (hv : ∀ x ∈ v, x < 256) {cx ux : Nat} (ly : cx + 16 ≤ y.length)
    (lu : ux + chromaStep s 16 ≤ u.length) (lv : ux + chromaStep s 16 ≤ v.length) (row : Buf) :
    cgcoBody s ch rg y u v cx ux row = put row (cx * ch.count)
      (stepP (cgcoPx 0 ch) (hdiv s) 16 y u v cx ux) := by
  obtain ⟨yr, ey, y1, y2⟩ := load_at ly hy
  obtain ⟨c, ec, c1, c2⟩ := planarChroma_at (st := .s16) hb hu hv lu lv
  rw [cgcoBody, ey, Outcome.bind_ok, ec, Outcome.bind_ok,
    cgcoPut16_eq (by decide) (fun i _ => getD_lt (by decide) hy) (fun i _ => getD_lt (by decide) hu)
      (fun i _ => getD_lt (by decide) hv) (fun i hi => (luma_at hby).trans (y1 i hi)) c1 c2]
  rfl

theorem cgcoBody420_eq (ch : Channels) {y0 y1 u v : Buf} (hy0 : ∀ x ∈ y0, x < 256)
    (hy1 : ∀ x ∈ y1, x < 256) (hu : ∀ x ∈ u, x < 256) (hv : ∀ x ∈ v, x < 256) {cx ux : Nat}
    (ly0 : cx + 16 ≤ y0.length) (ly1 : cx + 16 ≤ y1.length)
    (lu : ux + chromaStep .yuv420 16 ≤ u.length) (lv : ux + chromaStep .yuv420 16 ≤ v.length)
    (r0 r1 : Buf) :
    cgcoBody420 ch rg y0 y1 u v cx ux (r0, r1) = (do
      let a ← put r0 (cx * ch.count) (stepP (cgcoPx 255 ch) (hdiv .yuv420) 16 y0 u v cx ux)
      let b ← put r1 (cx * ch.count) (stepP (cgcoPx 255 ch) (hdiv .yuv420) 16 y1 u v cx ux)
      return (a, b)) := by
  obtain ⟨yr0, e0, a1, a2⟩ := load_at ly0 hy0
  obtain ⟨yr1, e1, b1, b2⟩ := load_at ly1 hy1
  obtain ⟨c, ec, c1, c2⟩ := planarChroma_at (st := .s16) hb hu hv lu lv
  rw [cgcoBody420, e0, Outcome.bind_ok, e1, Outcome.bind_ok, ec, Outcome.bind_ok]
  simp only [cgcoPut16_eq (a := 255) (ch := ch) (y := subsU8 yr0 (set1_8 rg.biasY)) (by decide)
      (fun i _ => getD_lt (by decide) hy0) (fun i _ => getD_lt (by decide) hu)
      (fun i _ => getD_lt (by decide) hv) (fun i hi => (luma_at hby).trans (a1 i hi)) c1 c2,
    cgcoPut16_eq (a := 255) (ch := ch) (y := subsU8 yr1 (set1_8 rg.biasY)) (by decide)
      (fun i _ => getD_lt (by decide) hy1) (fun i _ => getD_lt (by decide) hu)
      (fun i _ => getD_lt (by decide) hv) (fun i hi => (luma_at hby).trans (b1 i hi)) c1 c2]
  rfl

end

/-- One row of a stack buffer of sixteen pixels: the pixels copied out are those of the row. -/
theorem tailP16 {ch : Channels} {px : Nat → Nat → Nat → Buf} (hpx : ∀ y u v, (px y u v).length = ch.count)
    {w cx ux : Nat} {s : Sampling} {y u v yb ub vb row : Buf}
    (h1 : ux * hdiv s = cx) (h2 : cx ≤ w) (h3 : w ≤ cx + 16)
    (y1 : ∀ i, i < w - cx → yb.getD i 0 = y.getD (cx + i) 0)
    (u1 : ∀ i, i < chromaStep s (w - cx) → ub.getD i 0 = u.getD (ux + i) 0)
    (v1 : ∀ i, i < chromaStep s (w - cx) → vb.getD i 0 = v.getD (ux + i) 0)
    (hw : w * ch.count ≤ row.length) :
    ∃ db, put (List.replicate 64 0) 0 (stepP px (hdiv s) 16 yb ub vb 0 0) = .ok db ∧
      copyOut db ((w - cx) * ch.count) (painted ch.count (rowP px (hdiv s) y u v) cx row)
        (cx * ch.count) = .ok (painted ch.count (rowP px (hdiv s) y u v) w row) := by
  have e2 := copyOut_put (N := 16) (L := 64) (n := w - cx) (cn := ch.count)
    (by have := count_le ch; omega) (by omega)
    (f := fun j => px (yb.getD (0 + j) 0) (ub.getD (0 + j / hdiv s) 0) (vb.getD (0 + j / hdiv s) 0))
    (fun j => hpx _ _ _) (painted ch.count (rowP px (hdiv s) y u v) cx row) (cx * ch.count)
  have e3 : ((List.range (w - cx)).flatMap fun j => px (yb.getD (0 + j) 0)
      (ub.getD (0 + j / hdiv s) 0) (vb.getD (0 + j / hdiv s) 0))
      = (List.range (w - cx)).flatMap fun j => rowP px (hdiv s) y u v (cx + j) := by
    rw [← stepP_row px (hdiv_pos s) _ y u v h1]
    apply range_flatMap_congr
    intro j hj
    have hc : j / hdiv s < chromaStep s (w - cx) := by
      cases s <;> simp only [hdiv, chromaStep, ceil2] <;> omega
    rw [Nat.zero_add, Nat.zero_add, y1 j hj, u1 _ hc, v1 _ hc]
  rw [e3, painted_put (pix := rowP px (hdiv s) y u v) (fun j => hpx _ _ _)
      (by rw [Nat.add_sub_cancel' h2]; exact hw),
    Nat.add_sub_cancel' h2] at e2
  have e4 : (put (List.replicate 64 0) 0 (stepP px (hdiv s) 16 yb ub vb 0 0) >>= fun db =>
      copyOut db ((w - cx) * ch.count) (painted ch.count (rowP px (hdiv s) y u v) cx row)
        (cx * ch.count)) = .ok (painted ch.count (rowP px (hdiv s) y u v) w row) := e2
  cases hp : put (List.replicate 64 0) 0 (stepP px (hdiv s) 16 yb ub vb 0 0) with
  | ok db => rw [hp, Outcome.bind_ok] at e4; exact ⟨db, rfl, e4⟩
  | err x => rw [hp] at e4; cases e4
  | panic => rw [hp] at e4; cases e4

section
variable (hb : rg.biasUv = 128) (hby : rg.biasY = 0)
include hb hby

theorem cgcoTail_ok (s : Sampling) (ch : Channels) {w : Nat} {y u v row : Buf}
    (hy : ∀ x ∈ y, x < 256) (hu : ∀ x ∈ u, x < 256) (hv : ∀ x ∈ v, x < 256)
    (ly : w ≤ y.length) (lu : (w - 1) / hdiv s + 1 ≤ u.length)
    (lv : (w - 1) / hdiv s + 1 ≤ v.length) (hw : w * ch.count ≤ row.length) {cx ux : Nat}
    (h1 : ux * hdiv s = cx) (h2 : cx ≤ w) (h3 : w ≤ cx + 16) :
    ∃ ux', cgcoTail s ch rg w y u v
        (painted ch.count (rowP (cgcoPx 0 ch) (hdiv s) y u v) cx row) cx ux
      = .ok (painted ch.count (rowP (cgcoPx 0 ch) (hdiv s) y u v) w row, w, ux') := by
  unfold cgcoTail
  by_cases hlt : cx < w
  · rw [if_pos hlt]
    have hd : chromaStep s (w - cx) ≤ 16 := by
      cases s <;> simp only [chromaStep, ceil2] <;> omega
    have h8 : chromaStep s 16 ≤ 16 := by cases s <;> decide
    obtain ⟨yb, ey, ly', y1, y2⟩ := copyIn_ok (src := y) (dst := List.replicate 16 0) (p := cx)
      (n := w - cx) (by omega) (by simp; omega)
    obtain ⟨ub, eu, lu', u1, u2⟩ := copyIn_ok (src := u) (dst := List.replicate 16 0) (p := ux)
      (n := chromaStep s (w - cx)) (chroma_tail h1 hlt lu) (by simp; omega)
    obtain ⟨vb, ev, lv', v1, v2⟩ := copyIn_ok (src := v) (dst := List.replicate 16 0) (p := ux)
      (n := chromaStep s (w - cx)) (chroma_tail h1 hlt lv) (by simp; omega)
    rw [List.length_replicate] at ly' lu' lv'
    have e1 := cgcoBody_eq hb hby s ch (y := yb) (u := ub) (v := vb)
      (fun x hx => (y2 x hx).elim (hy x) (z256 _ x)) (fun x hx => (u2 x hx).elim (hu x) (z256 _ x))
      (fun x hx => (v2 x hx).elim (hv x) (z256 _ x)) (cx := 0) (ux := 0)
      (show 0 + 16 ≤ _ by omega) (show 0 + chromaStep s 16 ≤ _ by omega)
      (show 0 + chromaStep s 16 ≤ _ by omega) (List.replicate 64 0)
    rw [Nat.zero_mul] at e1
    obtain ⟨db, p0, q0⟩ := tailP16 (px := cgcoPx 0 ch) cgcoPx_length h1 h2 h3 y1 u1 v1 hw
    refine ⟨ux + chromaStep s (w - cx), ?_⟩
    simp only [ey, eu, ev, e1, Outcome.bind_ok, if_neg (show ¬ 16 < w - cx by omega),
      p0, q0, Nat.add_sub_cancel' h2, Outcome.pure_eq]
  · rw [if_neg hlt]
    obtain rfl : cx = w := by omega
    exact ⟨ux, rfl⟩

theorem cgcoTail420_ok (ch : Channels) {w : Nat} {y0 y1 u v row0 row1 : Buf}
    (hy0 : ∀ x ∈ y0, x < 256) (hy1 : ∀ x ∈ y1, x < 256) (hu : ∀ x ∈ u, x < 256) (hv : ∀ x ∈ v, x < 256)
    (ly0 : w ≤ y0.length) (ly1 : w ≤ y1.length) (lu : (w - 1) / hdiv .yuv420 + 1 ≤ u.length)
    (lv : (w - 1) / hdiv .yuv420 + 1 ≤ v.length) (hw0 : w * ch.count ≤ row0.length)
    (hw1 : w * ch.count ≤ row1.length) {cx ux : Nat}
    (h1 : ux * hdiv .yuv420 = cx) (h2 : cx ≤ w) (h3 : w ≤ cx + 16) :
    ∃ ux', cgcoTail420 ch rg w y0 y1 u v
        (painted ch.count (rowP (cgcoPx 255 ch) (hdiv .yuv420) y0 u v) cx row0,
          painted ch.count (rowP (cgcoPx 255 ch) (hdiv .yuv420) y1 u v) cx row1) cx ux
      = .ok ((painted ch.count (rowP (cgcoPx 255 ch) (hdiv .yuv420) y0 u v) w row0,
          painted ch.count (rowP (cgcoPx 255 ch) (hdiv .yuv420) y1 u v) w row1), w, ux') := by
  unfold cgcoTail420
  by_cases hlt : cx < w
  · rw [if_pos hlt]
    have hd : chromaStep .yuv420 (w - cx) ≤ 16 := by simp only [chromaStep, ceil2]; omega
    have h8 : chromaStep .yuv420 16 ≤ 16 := by decide
    obtain ⟨yb0, ey0, ly0', a1, a2⟩ := copyIn_ok (src := y0) (dst := List.replicate 16 0) (p := cx)
      (n := w - cx) (by omega) (by simp; omega)
    obtain ⟨yb1, ey1, ly1', b1, b2⟩ := copyIn_ok (src := y1) (dst := List.replicate 16 0) (p := cx)
      (n := w - cx) (by omega) (by simp; omega)
    obtain ⟨ub, eu, lu', u1, u2⟩ := copyIn_ok (src := u) (dst := List.replicate 16 0) (p := ux)
      (n := chromaStep .yuv420 (w - cx)) (chroma_tail h1 hlt lu) (by simp; omega)
    obtain ⟨vb, ev, lv', v1, v2⟩ := copyIn_ok (src := v) (dst := List.replicate 16 0) (p := ux)
      (n := chromaStep .yuv420 (w - cx)) (chroma_tail h1 hlt lv) (by simp; omega)
    rw [List.length_replicate] at ly0' ly1' lu' lv'
    have e1 := cgcoBody420_eq hb hby ch (y0 := yb0) (y1 := yb1) (u := ub) (v := vb)
      (fun x hx => (a2 x hx).elim (hy0 x) (z256 _ x)) (fun x hx => (b2 x hx).elim (hy1 x) (z256 _ x))
      (fun x hx => (u2 x hx).elim (hu x) (z256 _ x))
      (fun x hx => (v2 x hx).elim (hv x) (z256 _ x)) (cx := 0) (ux := 0)
      (show 0 + 16 ≤ _ by omega) (show 0 + 16 ≤ _ by omega) (show 0 + chromaStep .yuv420 16 ≤ _ by omega)
      (show 0 + chromaStep .yuv420 16 ≤ _ by omega) (List.replicate 64 0) (List.replicate 64 0)
    rw [Nat.zero_mul] at e1
    obtain ⟨d0, p0, q0⟩ := tailP16 (px := cgcoPx 255 ch) cgcoPx_length h1 h2 h3 a1 u1 v1 hw0
    obtain ⟨d1, p1, q1⟩ := tailP16 (px := cgcoPx 255 ch) cgcoPx_length h1 h2 h3 b1 u1 v1 hw1
    refine ⟨ux + chromaStep .yuv420 (w - cx), ?_⟩
    simp only [ey0, ey1, eu, ev, e1, Outcome.bind_ok, if_neg (show ¬ 16 < w - cx by omega),
      p0, q0, p1, q1, Nat.add_sub_cancel' h2, Outcome.pure_eq]
  · rw [if_neg hlt]
    obtain rfl : cx = w := by omega
    exact ⟨ux, rfl⟩

theorem cgcoRow_ok (s : Sampling) (ch : Channels) {w : Nat} {y u v row : Buf}
    (hy : ∀ x ∈ y, x < 256) (hu : ∀ x ∈ u, x < 256) (hv : ∀ x ∈ v, x < 256)
    (ly : w ≤ y.length) (lu : (w - 1) / hdiv s + 1 ≤ u.length)
    (lv : (w - 1) / hdiv s + 1 ≤ v.length) (hw : w * ch.count ≤ row.length) :
    ∃ ux, cgcoRow s ch rg w y u v row
      = .ok (painted ch.count (rowP (cgcoPx 0 ch) (hdiv s) y u v) w row, w, ux) := by
  obtain ⟨cx, ux, e, -, g1, g2, g3⟩ := paintLoop (step := 16) (ustep := chromaStep s 16) (width := w)
    (cn := ch.count) (hd := hdiv s) (by decide) (chromaStep_hdiv s (by decide))
    (pix := rowP (cgcoPx 0 ch) (hdiv s) y u v) (fun _ => cgcoPx_length ..) (row := row) hw
    (body := cgcoBody s ch rg y u v) (cx0 := 0) (ux0 := 0) (Nat.zero_mul _)
    (fun cx ux r _ hux hlt => by
      rw [cgcoBody_eq hb hby s ch hy hu hv (by omega)
        (chroma_room hux (by decide) (by omega) lu (by decide))
        (chroma_room hux (by decide) (by omega) lv (by decide)) r,
        stepP_row _ (hdiv_pos s) _ _ _ _ hux]) (Nat.zero_le _)
  obtain ⟨ux', e'⟩ := cgcoTail_ok hb hby s ch hy hu hv ly lu lv hw g1 g2 g3
  rw [painted_zero] at e
  exact ⟨ux', by rw [cgcoRow, e, Outcome.bind_ok]; exact e'⟩

theorem cgcoRow420_ok (ch : Channels) {w : Nat} {y0 y1 u v row0 row1 : Buf}
    (hy0 : ∀ x ∈ y0, x < 256) (hy1 : ∀ x ∈ y1, x < 256) (hu : ∀ x ∈ u, x < 256) (hv : ∀ x ∈ v, x < 256)
    (ly0 : w ≤ y0.length) (ly1 : w ≤ y1.length) (lu : (w - 1) / hdiv .yuv420 + 1 ≤ u.length)
    (lv : (w - 1) / hdiv .yuv420 + 1 ≤ v.length) (hw0 : w * ch.count ≤ row0.length)
    (hw1 : w * ch.count ≤ row1.length) :
    ∃ ux, cgcoRow420 ch rg w y0 y1 u v row0 row1
      = .ok ((painted ch.count (rowP (cgcoPx 255 ch) (hdiv .yuv420) y0 u v) w row0,
          painted ch.count (rowP (cgcoPx 255 ch) (hdiv .yuv420) y1 u v) w row1), w, ux) := by
  obtain ⟨cx, ux, e, -, g1, g2, g3⟩ := paintLoop2 (step := 16) (ustep := 8) (width := w)
    (cn := ch.count) (hd := hdiv .yuv420) (by decide) (by decide)
    (pix0 := rowP (cgcoPx 255 ch) (hdiv .yuv420) y0 u v)
    (pix1 := rowP (cgcoPx 255 ch) (hdiv .yuv420) y1 u v) (fun _ => cgcoPx_length ..)
    (fun _ => cgcoPx_length ..) (row0 := row0) (row1 := row1) hw0 hw1
    (body := cgcoBody420 ch rg y0 y1 u v) (cx0 := 0) (ux0 := 0) (Nat.zero_mul _)
    (fun cx ux r0 r1 _ hux hlt => by
      rw [cgcoBody420_eq hb hby ch hy0 hy1 hu hv (by omega) (by omega)
        (chroma_room hux (by decide) (by omega) lu (by decide))
        (chroma_room hux (by decide) (by omega) lv (by decide)) r0 r1,
        stepP_row _ (hdiv_pos .yuv420) _ _ _ _ hux, stepP_row _ (hdiv_pos .yuv420) _ _ _ _ hux])
    (Nat.zero_le _)
  obtain ⟨ux', e'⟩ := cgcoTail420_ok hb hby ch hy0 hy1 hu hv ly0 ly1 lu lv hw0 hw1 g1 g2 g3
  rw [painted_zero, painted_zero] at e
  exact ⟨ux', by rw [cgcoRow420, e, Outcome.bind_ok]; exact e'⟩

end

theorem cgcoHandler_fills (s : Sampling) (ch : Channels) {w : Nat} (px0 : Nat → Nat → Nat → Buf) :
    (cgcoHandler .full s ch w).Fills true 256 ch.count w (hdiv s) px0
      (fun _ y u v p => p = cgcoPx 0 ch y u v) := by
  intro y u v row hy hu hv ly lu lv hw
  obtain ⟨ux, e⟩ := cgcoRow_ok (rg := getYuvRange 8 .full) rfl rfl s ch hy hu hv ly lu lv hw
  exact ⟨_, _, by simp only [cgcoHandler, done, e, Outcome.bind_ok]; rfl,
    painted_done (X86.count_pos ch) (fun _ => cgcoPx_length ..) hw (le_refl _) (.inr rfl)
      fun x hx => rfl, fun x h1 h2 => absurd h1.le (by omega)⟩

theorem cgcoHandler420_fills (ch : Channels) {w : Nat} (px0 : Nat → Nat → Nat → Buf) :
    (cgcoHandler420 .full ch w).Fills 256 ch.count w px0
      (fun _ y u v p => p = cgcoPx 255 ch y u v) := by
  intro y0 y1 u v row0 row1 hy0 hy1 hu hv ly0 ly1 lu lv hw0 hw1
  obtain ⟨ux, e⟩ := cgcoRow420_ok (rg := getYuvRange 8 .full) rfl rfl ch hy0 hy1 hu hv ly0 ly1 lu lv hw0 hw1
  exact ⟨_, _, _, by simp only [cgcoHandler420, e, Outcome.bind_ok]; rfl,
    painted_done (X86.count_pos ch) (fun _ => cgcoPx_length ..) hw0 (le_refl _) (.inr rfl) fun x hx => rfl,
    painted_done (X86.count_pos ch) (fun _ => cgcoPx_length ..) hw1 (le_refl _) (.inr rfl) fun x hx => rfl,
    fun y _ x h1 h2 => absurd h1 (by omega)⟩

end Verif.Neon
