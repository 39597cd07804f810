import Verif.Lemmas.X86DeepAlpha
/-! # Rows of the x86 decoders of 10- and 12-bit images with an alpha plane to 8 bits -/
namespace Verif.X86
open Spec

/-! ## Loops whose stores reach beyond the pixels they complete -/

theorem splice_past {l b : Buf} {p k : Nat} (h : p + b.length ≤ l.length) (hk : p + b.length ≤ k) :
    (splice l p b)[k]? = l[k]? := by
  unfold splice
  rw [List.getElem?_append_right (by simp only [List.length_append, List.length_take]; omega),
    List.getElem?_drop]
  congr 1
  simp only [List.length_append, List.length_take]; omega

/-- A store behind the painted pixels. -/
theorem painted_junk {cn : Nat} {pix : Nat → Buf} (hp : ∀ j, (pix j).length = cn) {n : Nat}
    {mid junk : Buf} (h : n * cn + junk.length ≤ mid.length) :
    put (painted cn pix n mid) (n * cn) junk = .ok (painted cn pix n (splice mid (n * cn) junk)) := by
  have h1 : ((List.range n).flatMap pix).length = n * cn := flatMap_length fun j _ => hp j
  rw [put_ok (by rw [painted_length hp (by omega)]; exact h)]
  congr 1
  unfold painted splice
  have h2 : (mid.take (n * cn)).length = n * cn := by rw [List.length_take]; omega
  rw [List.take_left' h1, List.append_assoc (mid.take _), List.drop_left' h2,
    List.drop_append, List.drop_of_length_le (l := (List.range n).flatMap pix) (by omega), List.nil_append,
    List.drop_drop, h1, List.append_assoc]
  congr 4
  omega

/-- A vector loop whose body stores the next `step` pixels and more behind them, but not past the
end of the image row. -/
theorem paintLoopJ {step ustep width cn : Nat} (hs : 0 < step) {I : Nat → Nat → Prop}
    (hus : ∀ cx ux, I cx ux → I (cx + step) (ux + ustep))
    {pix : Nat → Buf} (hp : ∀ j, (pix j).length = cn) {body : Nat → Nat → Buf → Outcome Buf}
    {row junk : Buf} (hw : width * cn ≤ row.length) {cx0 ux0 : Nat} (h0 : I cx0 ux0)
    (hroom : ∀ cx ux, cx0 ≤ cx → I cx ux → cx + step < width → (cx + step) * cn + junk.length ≤ width * cn)
    (hbody : ∀ cx ux r, cx0 ≤ cx → I cx ux → cx + step < width →
      body cx ux r = put r (cx * cn) (((List.range step).flatMap fun j => pix (cx + j)) ++ junk))
    (hcx : cx0 ≤ width) :
    ∃ mid cx ux, vwhile step ustep width body cx0 ux0 (painted cn pix cx0 row)
        = .ok (painted cn pix cx mid, cx, ux) ∧ SamePast (width * cn) row mid ∧
      cx = loopEnd step width cx0 ∧ I cx ux ∧ cx ≤ width ∧ width ≤ cx + step := by
  obtain ⟨s, cx, ux, h1, ⟨⟨mid, h2, h8⟩, ⟨k, h3, h7⟩, h4, h5⟩, h6⟩ := vwhile_ok (width := width)
    (ustep := ustep) hs (body := body)
    (P := fun cx ux s => (∃ mid, s = painted cn pix cx mid ∧ SamePast (width * cn) row mid) ∧
      (∃ k, cx = cx0 + k * step ∧ (k = 0 ∨ cx < width)) ∧ I cx ux ∧ cx ≤ width)
    (by
      rintro cx ux s ⟨⟨mid, rfl, hm⟩, ⟨k, g1, _⟩, g2, g3⟩ hlt
      have hr := hroom cx ux (by omega) g2 hlt
      have hl : (cx + step) * cn + junk.length ≤ mid.length := by rw [hm.1]; omega
      have hlen : ((List.range step).flatMap fun j => pix (cx + j)).length = step * cn :=
        flatMap_length fun j _ => hp _
      refine ⟨painted cn pix (cx + step) (splice mid ((cx + step) * cn) junk), ?_,
        ⟨_, rfl, by rw [splice_length hl]; exact hm.1, fun k hk => ?_⟩,
        ⟨k + 1, ?_, .inr hlt⟩, hus _ _ g2, by omega⟩
      · rw [hbody cx ux _ (by omega) g2 hlt,
          ← put_put _ _ ((cx + step) * cn) _ _ (by rw [hlen, Nat.add_mul]),
          painted_put hp (by omega), Outcome.bind_ok]
        exact painted_junk hp hl
      · rw [splice_past hl (by omega)]
        exact hm.2 k hk
      · rw [Nat.add_mul]; omega)
    (cx := cx0) (ux := ux0) (s := painted cn pix cx0 row)
    ⟨⟨row, rfl, rfl, fun _ _ => rfl⟩, ⟨0, by omega, .inl rfl⟩, h0, hcx⟩
  subst h2
  exact ⟨mid, cx, ux, h1, h8, loopEnd_eq hs h3 h7 h6, h4, h5, h6⟩

/-! ## Bodies -/

variable {rg : ChromaRange} {t : InvCoef}

/-- The pixel of stored words, with the alpha of the kernels. -/
def alphaPix8 (e : Endianness) (bp : BytesPacking) (d : Nat) (ch : Channels)
    (f : Nat → Nat → Nat → Nat × Nat × Nat) (a y u v : Nat) : Buf :=
  alphaPix e bp d ch f (vecAlpha8 d a) y u v

theorem alphaPix8_length (e : Endianness) (bp : BytesPacking) (d : Nat) (ch : Channels)
    (f : Nat → Nat → Nat → Nat × Nat × Nat) (a y u v : Nat) :
    (alphaPix8 e bp d ch f a y u v).length = ch.count := alphaPix_length ..

/-- The eight pixels stored behind the eight decoded ones. -/
def junk8 (ch : Channels) : Buf := (List.range 8).flatMap fun _ => layout ch 0 0 0 0

theorem junk8_length (ch : Channels) : (junk8 ch).length = 8 * ch.count :=
  flatMap_length fun _ _ => layout_length' ..

theorem packus_zero_high {lo : Reg} {j : Nat} (hj : j < 8) : packus16 lo zero (8 + j) = 0 := by
  unfold packus16
  rw [if_neg (by omega), s16_zero]
  rfl

theorem sseDeepAlpha8Body_eq (s : Sampling) (e : Endianness) (bp : BytesPacking) {d : Nat}
    (hd : d = 10 ∨ d = 12) (ch : Channels) (ht : DeepCoef t) (hby : rg.biasY < 65536)
    (hbu : rg.biasUv < 65536) {y u v a : Buf} (hy : ∀ x ∈ y, x < 65536) (hu : ∀ x ∈ u, x < 65536)
    (hv : ∀ x ∈ v, x < 65536) (ha : ∀ x ∈ a, x < 65536) {cx ux : Nat} (ly : cx + 8 ≤ y.length)
    (lu : ux + chromaStep s 8 ≤ u.length) (lv : ux + chromaStep s 8 ≤ v.length)
    (la : cx + 8 ≤ a.length) (p : Nat) (row : Buf) :
    sseDeepAlpha8Body s e bp d ch rg t y u v a cx ux p row
      = put row p (((List.range 8).flatMap fun j => alphaPix8 e bp d ch (sat8RGB d rg t)
          (a.getD (cx + j) 0) (y.getD (cx + j) 0) (u.getD (ux + j / hdiv s) 0)
          (v.getD (ux + j / hdiv s) 0)) ++ junk8 ch) := by
  have hD : Deep d := hd.elim .inl fun h => .inr (.inl h)
  obtain ⟨yr, e1, a1, a2⟩ := load16_at ly hy
  obtain ⟨ur, e2, b1⟩ := sseDeepChroma_at e bp hD lu hu
  obtain ⟨vr, e3, c1⟩ := sseDeepChroma_at e bp hD lv hv
  obtain ⟨ar, e4, d1, _⟩ := load16_at la ha
  unfold sseDeepAlpha8Body
  rw [e1, Outcome.bind_ok, e2, Outcome.bind_ok, e3, Outcome.bind_ok]
  simp only [e4, Outcome.bind_ok, sseStore_eq]
  unfold pixels junk8
  rw [show (16 : Nat) = 8 + 8 from rfl, range_add_flatMap]
  refine congrArg (put row p) (congrArg₂ (· ++ ·) (range_flatMap_congr fun j hj => ?_)
    (range_flatMap_congr fun j hj => ?_))
  · obtain ⟨h1, h2, h3⟩ := deep8Rgb_at hd ht hbu _ ur vr
      (lumaSat (e := e) (bp := bp) hD (show j < 16 by omega) a2 hby (a1 j hj))
    rw [packus_low hj, packus_low hj, packus_low hj, packus_low hj, h1, h2, h3, storeShr_alpha hd,
      b1 j hj, c1 j hj, d1 j hj]
    rfl
  · rw [packus_zero_high hj, packus_zero_high hj, packus_zero_high hj, packus_zero_high hj]

theorem avx2DeepAlpha8Body_eq (s : Sampling) (e : Endianness) (bp : BytesPacking) {d : Nat}
    (hd : d = 10 ∨ d = 12) (ch : Channels) (ht : DeepCoef t) (hby : rg.biasY < 65536)
    (hbu : rg.biasUv < 65536) {y u v a : Buf} (hy : ∀ x ∈ y, x < 65536) (hu : ∀ x ∈ u, x < 65536)
    (hv : ∀ x ∈ v, x < 65536) (ha : ∀ x ∈ a, x < 65536) {cx ux : Nat} (ly : cx + 16 ≤ y.length)
    (lu : ux + chromaStep s 16 ≤ u.length) (lv : ux + chromaStep s 16 ≤ v.length)
    (la : cx + 16 ≤ a.length) (p : Nat) (row : Buf) :
    avx2DeepAlpha8Body s e bp d ch rg t y u v a cx ux p row
      = put row p ((List.range 16).flatMap fun j => alphaPix8 e bp d ch (sub8RGB d rg t)
          (a.getD (cx + j) 0) (y.getD (cx + j) 0) (u.getD (ux + j / hdiv s) 0)
          (v.getD (ux + j / hdiv s) 0)) := by
  have hD : Deep d := hd.elim .inl fun h => .inr (.inl h)
  obtain ⟨yr, e1, a1, a2⟩ := load16_at ly hy
  obtain ⟨ur, e2, b1⟩ := avx2DeepChroma_at e bp hD lu hu
  obtain ⟨vr, e3, c1⟩ := avx2DeepChroma_at e bp hD lv hv
  obtain ⟨ar, e4, d1, _⟩ := load16_at la ha
  unfold avx2DeepAlpha8Body
  rw [e1, Outcome.bind_ok, e2, Outcome.bind_ok, e3, Outcome.bind_ok]
  simp only [e4, Outcome.bind_ok, avx2StoreHalf_eq]
  unfold pixels
  refine congrArg (put row p) (range_flatMap_congr fun j hj => ?_)
  obtain ⟨h1, h2, h3⟩ := deep8Rgb_at hd ht hbu _ ur vr
    (lumaSub (e := e) (bp := bp) hD hj a2 hby (a1 j hj))
  have h32 : j < 32 := by omega
  rw [avx2PackU16_at _ _ h32, avx2PackU16_at _ _ h32, avx2PackU16_at _ _ h32, avx2PackU16_at _ _ h32,
    if_pos hj, if_pos hj, if_pos hj, if_pos hj, h1, h2, h3, storeShr_alpha hd, b1 j hj, c1 j hj, d1 j hj]
  rfl

theorem avx2DeepAlpha8Body2_eq (s : Sampling) (e : Endianness) (bp : BytesPacking) {d : Nat}
    (hd : d = 10 ∨ d = 12) (ch : Channels) (ht : DeepCoef t) (hby : rg.biasY < 65536)
    (hbu : rg.biasUv < 65536) {y u v a : Buf} (hy : ∀ x ∈ y, x < 65536) (hu : ∀ x ∈ u, x < 65536)
    (hv : ∀ x ∈ v, x < 65536) (ha : ∀ x ∈ a, x < 65536) {cx ux : Nat} (ly : cx + 32 ≤ y.length)
    (lu : ux + chromaStep s 32 ≤ u.length) (lv : ux + chromaStep s 32 ≤ v.length)
    (la : cx + 16 ≤ a.length) (p : Nat) (row : Buf) :
    avx2DeepAlpha8Body2 s e bp d ch rg t y u v a cx ux p row
      = put row p ((List.range 32).flatMap fun j => alphaPix8 e bp d ch (sat8RGB d rg t)
          (a.getD (cx + j % 16) 0) (y.getD (cx + j) 0) (u.getD (ux + j / hdiv s) 0)
          (v.getD (ux + j / hdiv s) 0)) := by
  have hD : Deep d := hd.elim .inl fun h => .inr (.inl h)
  obtain ⟨y0, e0, a1, a2⟩ := load16_at (p := cx) (n := 16) (by omega) hy
  obtain ⟨y1, e1, a3, a4⟩ := load16_at (p := cx + 16) (n := 16) (by omega) hy
  obtain ⟨ur, e2, b1, b2⟩ := avx2DeepChroma2_at e bp hD lu hu
  obtain ⟨vr, e3, c1, c2⟩ := avx2DeepChroma2_at e bp hD lv hv
  obtain ⟨ar, e4, d1, _⟩ := load16_at la ha
  unfold avx2DeepAlpha8Body2
  rw [e0, Outcome.bind_ok, e1, Outcome.bind_ok, e2, Outcome.bind_ok, e3, Outcome.bind_ok]
  simp only [e4, Outcome.bind_ok, avx2Store_eq]
  unfold pixels
  refine congrArg (put row p) (range_flatMap_congr fun j hj => ?_)
  rw [avx2PackU16_at _ _ hj, avx2PackU16_at _ _ hj, avx2PackU16_at _ _ hj, avx2PackU16_at _ _ hj]
  by_cases h16 : j < 16
  · obtain ⟨h1, h2, h3⟩ := deep8Rgb_at hd ht hbu _ ur.1 vr.1
      (lumaSat (e := e) (bp := bp) hD h16 a2 hby (a1 j h16))
    rw [if_pos h16, if_pos h16, if_pos h16, if_pos h16, h1, h2, h3, storeShr_alpha hd, b1 j h16, c1 j h16,
      d1 j h16, Nat.mod_eq_of_lt h16]
    rfl
  · obtain ⟨k, rfl⟩ : ∃ k, j = 16 + k := ⟨j - 16, by omega⟩
    have hk : k < 16 := by omega
    obtain ⟨h1, h2, h3⟩ := deep8Rgb_at hd ht hbu _ ur.2 vr.2
      (lumaSat (e := e) (bp := bp) hD hk a4 hby (a3 k hk))
    rw [if_neg h16, if_neg h16, if_neg h16, if_neg h16, Nat.add_sub_cancel_left, h1, h2, h3,
      storeShr_alpha hd, b2 k hk, c2 k hk, d1 k hk, show (16 + k) % 16 = k by omega, ← Nat.add_assoc]
    rfl

/-! ## Rows -/

theorem sseDeepAlpha8Row_ok (s : Sampling) (e : Endianness) (bp : BytesPacking) {d : Nat}
    (hd : d = 10 ∨ d = 12) (ch : Channels) (ht : DeepCoef t) (hby : rg.biasY < 65536)
    (hbu : rg.biasUv < 65536) {w : Nat} {y u v a row : Buf}
    (hy : ∀ x ∈ y, x < 65536) (hu : ∀ x ∈ u, x < 65536) (hv : ∀ x ∈ v, x < 65536)
    (ha : ∀ x ∈ a, x < 65536)
    (ly : w ≤ y.length) (lu : (w - 1) / hdiv s + 1 ≤ u.length)
    (lv : (w - 1) / hdiv s + 1 ≤ v.length) (la : w ≤ a.length) (hw : w * ch.count ≤ row.length)
    {f : Nat → Nat → Nat → Nat → Nat × Nat × Nat} {src : Nat → Nat} {cx ux : Nat}
    (hf : ∀ x, cx ≤ x → x < vecCols 8 w → f x = sat8RGB d rg t ∧ src x = x)
    (h0 : ux * hdiv s = cx) (hcx : cx ≤ w) (h8 : cx % 8 = 0) (hlt : cx = 0 ∨ cx < w) (wpos : 0 < w)
    (hsafe : w ≤ cx + 8 ∨ w % 8 = 0) :
    ∃ mid ux', sseDeepAlpha8Row s e bp d ch rg t w y u v a
        (painted ch.count (rowA (fun x => alphaPix8 e bp d ch (f x)) src (hdiv s) y u v a) cx row) cx ux
      = .ok (painted ch.count (rowA (fun x => alphaPix8 e bp d ch (f x)) src (hdiv s) y u v a)
          (vecCols 8 w) mid, vecCols 8 w, ux') ∧ SamePast (w * ch.count) row mid := by
  unfold vecCols at *
  obtain ⟨mid, cx', ux', e1, hm, h1, h2, h3, h4⟩ := paintLoopJ (step := 8) (ustep := chromaStep s 8)
    (width := w)
    (cn := ch.count) (I := fun cx ux => ux * hdiv s = cx ∧ cx % 8 = 0) (by decide)
    (fun cx ux g => ⟨by rw [Nat.add_mul, g.1, chromaStep_hdiv s rfl], by omega⟩)
    (pix := rowA (fun x => alphaPix8 e bp d ch (f x)) src (hdiv s) y u v a) (fun _ => alphaPix8_length ..)
    (row := row) (junk := junk8 ch) hw
    (body := fun cx ux row => sseDeepAlpha8Body s e bp d ch rg t y u v a cx ux (cx * ch.count) row)
    (cx0 := cx) (ux0 := ux) ⟨h0, h8⟩
    (by
      intro cx1 ux1 hge hux hlt
      rw [junk8_length, ← Nat.add_mul]
      exact Nat.mul_le_mul_right _ (by omega))
    (by
      intro cx1 ux1 r hge hux hlt
      rw [← stepA_row (hdiv_pos s) hux.1 (p0 := alphaPix8 e bp d ch (sat8RGB d rg t)) (s0 := fun j => j)
        fun j hj => ?_]
      · exact sseDeepAlpha8Body_eq s e bp hd ch ht hby hbu hy hu hv ha (by omega)
          (chroma_room hux.1 rfl (by omega) lu (by decide))
          (chroma_room hux.1 rfl (by omega) lv (by decide)) (by omega) _ _
      · have := hf (cx1 + j) (by omega) (by omega)
        exact ⟨by rw [this.1], this.2⟩)
    hcx
  have e : cx' = 8 * ((w - 1) / 8) := by
    rw [h1, loopEnd]; omega
  rw [← e]
  exact ⟨mid, ux', e1, hm⟩

theorem avx2DeepAlpha8Row_ok (s : Sampling) (e : Endianness) (bp : BytesPacking) {d : Nat}
    (hd : d = 10 ∨ d = 12) (ch : Channels) (ht : DeepCoef t) (hby : rg.biasY < 65536)
    (hbu : rg.biasUv < 65536) {w : Nat} {y u v a row : Buf}
    (hy : ∀ x ∈ y, x < 65536) (hu : ∀ x ∈ u, x < 65536) (hv : ∀ x ∈ v, x < 65536)
    (ha : ∀ x ∈ a, x < 65536)
    (ly : w ≤ y.length) (lu : (w - 1) / hdiv s + 1 ≤ u.length)
    (lv : (w - 1) / hdiv s + 1 ≤ v.length) (la : w ≤ a.length) (hw : w * ch.count ≤ row.length)
    {f : Nat → Nat → Nat → Nat → Nat × Nat × Nat}
    (hf : ∀ x, (x < vecCols 32 w → f x = sat8RGB d rg t) ∧
      (vecCols 32 w ≤ x → x < vecCols 16 w → f x = sub8RGB d rg t)) (wpos : 0 < w) :
    ∃ ux, avx2DeepAlpha8Row s e bp d ch rg t w y u v a row 0 0
      = .ok (painted ch.count (rowA (fun x => alphaPix8 e bp d ch (f x)) (pairedCol w) (hdiv s) y u v a)
          (vecCols 16 w) row, vecCols 16 w, ux) ∧ ux * hdiv s = vecCols 16 w := by
  unfold vecCols at *
  obtain ⟨cx, ux, e1, h1, h2, h3, h4⟩ := paintLoopI (step := 32) (ustep := chromaStep s 32) (width := w)
    (cn := ch.count) (I := fun cx ux => ux * hdiv s = cx ∧ cx % 32 = 0) (by decide)
    (fun cx ux g => ⟨by rw [Nat.add_mul, g.1, chromaStep_hdiv s rfl], by omega⟩)
    (pix := rowA (fun x => alphaPix8 e bp d ch (f x)) (pairedCol w) (hdiv s) y u v a)
    (fun _ => alphaPix8_length ..) (row := row) hw
    (body := fun cx ux row => avx2DeepAlpha8Body2 s e bp d ch rg t y u v a cx ux (cx * ch.count) row)
    (cx0 := 0) (ux0 := 0) ⟨Nat.zero_mul _, rfl⟩
    (by
      intro cx1 ux1 r _ hux hlt
      rw [← stepA_row (hdiv_pos s) hux.1 (p0 := alphaPix8 e bp d ch (sat8RGB d rg t))
        (s0 := fun j => j % 16) fun j hj => ?_]
      · exact avx2DeepAlpha8Body2_eq s e bp hd ch ht hby hbu hy hu hv ha (by omega)
          (chroma_room hux.1 rfl (by omega) lu (by decide))
          (chroma_room hux.1 rfl (by omega) lv (by decide)) (by omega) _ _
      · refine ⟨by rw [(hf (cx1 + j)).1 (by omega)], ?_⟩
        unfold pairedCol vecCols
        split <;> omega)
    (Nat.zero_le _)
  rw [painted_zero] at e1
  have e32 : cx = 32 * ((w - 1) / 32) := by rw [h1, loopEnd]; omega
  obtain ⟨cx', ux', e2, g1, g2, g3, g4⟩ := paintLoopI (step := 16) (ustep := chromaStep s 16) (width := w)
    (cn := ch.count) (I := fun cx ux => ux * hdiv s = cx ∧ cx % 16 = 0) (by decide)
    (fun cx ux g => ⟨by rw [Nat.add_mul, g.1, chromaStep_hdiv s rfl], by omega⟩)
    (pix := rowA (fun x => alphaPix8 e bp d ch (f x)) (pairedCol w) (hdiv s) y u v a)
    (fun _ => alphaPix8_length ..) (row := row) hw
    (body := fun cx ux row => avx2DeepAlpha8Body s e bp d ch rg t y u v a cx ux (cx * ch.count) row)
    (cx0 := cx) (ux0 := ux) ⟨h2.1, by omega⟩
    (by
      intro cx1 ux1 r hge hux hlt
      rw [← stepA_row (hdiv_pos s) hux.1 (p0 := alphaPix8 e bp d ch (sub8RGB d rg t))
        (s0 := fun j => j) fun j hj => ?_]
      · exact avx2DeepAlpha8Body_eq s e bp hd ch ht hby hbu hy hu hv ha (by omega)
          (chroma_room hux.1 rfl (by omega) lu (by decide))
          (chroma_room hux.1 rfl (by omega) lv (by decide)) (by omega) _ _
      · refine ⟨by rw [(hf (cx1 + j)).2 (by omega) (by omega)], ?_⟩
        unfold pairedCol vecCols
        rw [if_neg (by omega)])
    h3
  have e3 : cx' = 16 * ((w - 1) / 16) := by
    rw [g1, h1]; unfold loopEnd; omega
  unfold avx2DeepAlpha8Row
  rw [e1, Outcome.bind_ok, ← e3]
  exact ⟨ux', e2, g2.1⟩

/-! ## The contract -/

/-- The pixel of stored words in column `x` of a row of `w` pixels; `px` is the portable
decoding. -/
def cpuDeepAlpha8 (cpu : Cpu) (e : Endianness) (bp : BytesPacking) (d : Nat) (ch : Channels)
    (rg : ChromaRange) (t : InvCoef) (w : Nat) (px : Nat → Nat → Nat → Nat → Buf) (x y u v a : Nat) : Buf :=
  if cpu ≠ .plain ∧ x < vecCols 8 w then alphaPix8 e bp d ch (deepAlpha8RGB cpu d rg t w x) a y u v
  else px y u v a

theorem deepAlpha8Handler_fills (cpu : Cpu) (s : Sampling) (e : Endianness) (bp : BytesPacking) {d : Nat}
    (hd : d = 10 ∨ d = 12) (ch : Channels) (ht : DeepCoef t) (hby : rg.biasY < 65536)
    (hbu : rg.biasUv < 65536) {w : Nat} (wpos : 0 < w) (hsafe : SafeWidth8 cpu w)
    (px : Nat → Nat → Nat → Nat → Buf) :
    (deepAlpha8Handler cpu s e bp d ch rg t w).FillsFrom (deepAlpha8Src cpu w) false 65536 ch.count w
      (hdiv s) px (fun x y u v a p => p = cpuDeepAlpha8 cpu e bp d ch rg t w px x y u v a) := by
  intro y u v a row hy hu hv ha ly lu lv la hw
  by_cases hc1 : cpu = .plain
  · subst hc1
    exact ⟨row, row, 0, rfl, ⟨rfl, fun _ _ => rfl⟩, ⟨Nat.zero_le _, .inl (Nat.zero_mod _), rfl,
      fun x _ hx => absurd hx (Nat.not_lt_zero _), fun _ _ => rfl⟩, fun x _ _ => rfl⟩
  have key : ∃ mid ux, deepAlpha8Handler cpu s e bp d ch rg t w y u v a row
      = done (.ok (painted ch.count (rowA (fun x => alphaPix8 e bp d ch (deepAlpha8RGB cpu d rg t w x))
          (deepAlpha8Src cpu w) (hdiv s) y u v a) (vecCols 8 w) mid, vecCols 8 w, ux)) ∧
      SamePast (w * ch.count) row mid := by
    cases cpu with
    | plain => exact absurd rfl hc1
    | sse41 =>
      obtain ⟨mid, ux, e1, hm⟩ := sseDeepAlpha8Row_ok s e bp hd ch ht hby hbu hy hu hv ha ly lu lv la hw
        (f := deepAlpha8RGB .sse41 d rg t w) (src := deepAlpha8Src .sse41 w) (cx := 0) (ux := 0)
        (fun x _ _ => ⟨rfl, rfl⟩)
        (Nat.zero_mul _) (Nat.zero_le _) rfl (.inl rfl) wpos
        (hsafe.elim (fun h => .inl (by omega)) .inr)
      rw [painted_zero] at e1
      exact ⟨mid, ux, congrArg done e1, hm⟩
    | avx2 =>
      obtain ⟨ux, e1, h1⟩ := avx2DeepAlpha8Row_ok s e bp hd ch ht hby hbu hy hu hv ha ly lu lv la hw
        (f := deepAlpha8RGB .avx2 d rg t w)
        (fun x => ⟨fun h => if_neg (by rintro ⟨-, h2, -⟩; omega), fun h h' => if_pos ⟨rfl, h, h'⟩⟩) wpos
      have hs : w % 16 ≤ 8 := hsafe
      obtain ⟨mid, ux', e2, hm⟩ := sseDeepAlpha8Row_ok s e bp hd ch ht hby hbu hy hu hv ha ly lu lv la hw
        (f := deepAlpha8RGB .avx2 d rg t w) (src := pairedCol w) (cx := vecCols 16 w) (ux := ux)
        (fun x h h' => by
          constructor
          · exact if_neg (by rintro ⟨-, -, h2⟩; omega)
          · unfold pairedCol vecCols at *
            rw [if_neg (by rintro ⟨h2, -⟩; omega)])
        h1 (by unfold vecCols; omega) (by unfold vecCols; omega) (by unfold vecCols; omega) wpos
        (by unfold vecCols; omega)
      refine ⟨mid, ux', ?_, hm⟩
      have hs : deepAlpha8Src .avx2 w = pairedCol w := by
        funext x; exact if_pos rfl
      rw [hs, ← e2]
      show done (avx2DeepAlpha8Row s e bp d ch rg t w y u v a row 0 0 >>= _) = _
      rw [e1, Outcome.bind_ok]
  obtain ⟨mid, ux, e1, hm⟩ := key
  rw [e1]
  refine ⟨mid, _, _, rfl, hm, painted_done (count_pos ch)
    (fun _ => alphaPix8_length ..) (by rw [hm.1]; exact hw) (by unfold vecCols; omega) (.inl ?_)
    fun x hx => ?_, fun x h1 h2 => ?_⟩
  · unfold vecCols; cases s <;> simp only [hdiv] <;> omega
  · simp only [cpuDeepAlpha8, if_pos (And.intro hc1 hx)]
    try rfl
  · have hx : ¬ x < vecCols 8 w := by
      intro h3
      rcases h1 with h1 | ⟨-, h1⟩
      · exact absurd h3 (Nat.not_lt.2 h1)
      · unfold vecCols at h3; omega
    have hs : deepAlpha8Src cpu w x = x := by
      unfold deepAlpha8Src pairedCol
      have : ¬ x < vecCols 32 w := by unfold vecCols at *; omega
      split
      · rw [if_neg (fun h => this h.1)]
      · rfl
    rw [hs]
    simp only [cpuDeepAlpha8, if_neg (fun h : cpu ≠ .plain ∧ x < vecCols 8 w => hx h.2)]

theorem deepAlpha8Src_lt (cpu : Cpu) (w x : Nat) (h : x < w) : deepAlpha8Src cpu w x < w := by
  unfold deepAlpha8Src pairedCol
  split
  · split <;> omega
  · exact h

/-! ## Stores outside the row -/

theorem whileGo_panic {σ : Type} {step ustep width : Nat} {body : Nat → Nat → σ → Outcome σ}
    (hs : 0 < step) {P : Nat → Nat → σ → Prop}
    (hbody : ∀ cx ux s, P cx ux s → cx + step < width ∧
      (body cx ux s = .panic ∨ ∃ s', body cx ux s = .ok s' ∧ P (cx + step) (ux + ustep) s')) :
    ∀ n cx ux s, width ≤ cx + n → P cx ux s → whileGo step ustep width body n cx ux s = .panic := by
  intro n
  induction n with
  | zero =>
    intro cx ux s hn hP
    have := (hbody cx ux s hP).1
    omega
  | succ n ih =>
    intro cx ux s hn hP
    obtain ⟨h1, h2⟩ := hbody cx ux s hP
    unfold whileGo
    rw [if_pos h1]
    rcases h2 with h2 | ⟨s', h2, h3⟩
    · rw [h2]; rfl
    · rw [h2]
      exact ih _ _ _ (by omega) h3

theorem sseDeepAlpha8Row_panics (s : Sampling) (e : Endianness) (bp : BytesPacking) {d : Nat}
    (hd : d = 10 ∨ d = 12) (ch : Channels) (ht : DeepCoef t) (hby : rg.biasY < 65536)
    (hbu : rg.biasUv < 65536) {w : Nat} {y u v a row : Buf}
    (hy : ∀ x ∈ y, x < 65536) (hu : ∀ x ∈ u, x < 65536) (hv : ∀ x ∈ v, x < 65536)
    (ha : ∀ x ∈ a, x < 65536)
    (ly : w ≤ y.length) (lu : (w - 1) / hdiv s + 1 ≤ u.length)
    (lv : (w - 1) / hdiv s + 1 ≤ v.length) (la : w ≤ a.length) (hw : row.length = w * ch.count)
    {cx ux : Nat} (h0 : ux * hdiv s = cx) (h8 : cx % 8 = 0) (hbad : cx + 8 < w ∧ w % 8 ≠ 0) :
    sseDeepAlpha8Row s e bp d ch rg t w y u v a row cx ux = .panic := by
  unfold sseDeepAlpha8Row vwhile
  refine whileGo_panic (by decide) (P := fun cx ux r => ux * hdiv s = cx ∧ cx % 8 = 0 ∧ cx + 8 < w ∧
    r.length = w * ch.count) ?_ _ _ _ _ (by omega) ⟨h0, h8, hbad.1, hw⟩
  rintro cx ux r ⟨g1, g2, g3, g4⟩
  refine ⟨g3, ?_⟩
  rw [sseDeepAlpha8Body_eq s e bp hd ch ht hby hbu hy hu hv ha (by omega)
    (chroma_room g1 rfl (by omega) lu (by decide)) (chroma_room g1 rfl (by omega) lv (by decide))
    (by omega)]
  generalize hb : ((List.range 8).flatMap fun j => alphaPix8 e bp d ch (sat8RGB d rg t)
          (a.getD (cx + j) 0) (y.getD (cx + j) 0) (u.getD (ux + j / hdiv s) 0)
          (v.getD (ux + j / hdiv s) 0)) ++ junk8 ch = b
  have hl : b.length = 16 * ch.count := by
    rw [← hb, List.length_append, junk8_length, flatMap_length fun j _ => alphaPix8_length ..,
      ← Nat.add_mul]
  by_cases hp : cx * ch.count + b.length ≤ r.length
  · refine .inr ⟨_, put_ok hp, ?_, by omega, ?_, by rw [splice_length hp, g4]⟩
    · rw [Nat.add_mul, g1, chromaStep_hdiv s rfl]
    · rw [hl, g4, ← Nat.add_mul] at hp
      have := Nat.le_of_mul_le_mul_right hp (count_pos ch)
      omega
  · exact .inl (if_neg hp)

theorem deepAlpha8Handler_panics (cpu : Cpu) (s : Sampling) (e : Endianness) (bp : BytesPacking)
    {d : Nat} (hd : d = 10 ∨ d = 12) (ch : Channels) (ht : DeepCoef t) (hby : rg.biasY < 65536)
    (hbu : rg.biasUv < 65536) {w : Nat} (wpos : 0 < w) (hbad : ¬ SafeWidth8 cpu w) {y u v a row : Buf}
    (hy : ∀ x ∈ y, x < 65536) (hu : ∀ x ∈ u, x < 65536) (hv : ∀ x ∈ v, x < 65536)
    (ha : ∀ x ∈ a, x < 65536)
    (ly : w ≤ y.length) (lu : (w - 1) / hdiv s + 1 ≤ u.length)
    (lv : (w - 1) / hdiv s + 1 ≤ v.length) (la : w ≤ a.length) (hw : row.length = w * ch.count) :
    deepAlpha8Handler cpu s e bp d ch rg t w y u v a row = .panic := by
  cases cpu with
  | plain => exact absurd trivial hbad
  | sse41 =>
    have h : ¬ (w ≤ 8 ∨ w % 8 = 0) := hbad
    show done (sseDeepAlpha8Row s e bp d ch rg t w y u v a row 0 0) = _
    rw [sseDeepAlpha8Row_panics s e bp hd ch ht hby hbu hy hu hv ha ly lu lv la hw (Nat.zero_mul _)
      rfl (by omega)]
    rfl
  | avx2 =>
    have h : ¬ w % 16 ≤ 8 := hbad
    obtain ⟨ux, e1, h1⟩ := avx2DeepAlpha8Row_ok s e bp hd ch ht hby hbu hy hu hv ha ly lu lv la
      (Nat.le_of_eq hw.symm) (f := deepAlpha8RGB .avx2 d rg t w)
      (fun x => ⟨fun h => if_neg (by rintro ⟨-, h2, -⟩; omega), fun h h' => if_pos ⟨rfl, h, h'⟩⟩) wpos
    show done (avx2DeepAlpha8Row s e bp d ch rg t w y u v a row 0 0 >>= _) = _
    rw [e1, Outcome.bind_ok]
    have hl : ∀ x, (rowA (fun x => alphaPix8 e bp d ch (deepAlpha8RGB .avx2 d rg t w x)) (pairedCol w)
        (hdiv s) y u v a x).length = ch.count := fun x => alphaPix8_length ..
    have hle : vecCols 16 w * ch.count ≤ row.length := by
      rw [hw]; exact Nat.mul_le_mul_right _ (by unfold vecCols; omega)
    simp only
    rw [sseDeepAlpha8Row_panics s e bp hd ch ht hby hbu hy hu hv ha ly lu lv la
      ((painted_length hl hle).trans hw) h1 (by unfold vecCols; omega) (by unfold vecCols; omega)]
    rfl

end Verif.X86
