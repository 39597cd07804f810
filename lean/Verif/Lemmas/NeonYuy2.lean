import Verif.Model.NeonYuy2
import Verif.Spec.NeonYuy2
import Verif.Lemmas.X86Yuy2Unpack
/-! # The NEON packers to and unpackers from packed 4:2:2 -/
namespace Verif.Neon
open Spec X86

/-! ## Packing: steps -/

theorem packLuma_at {n : Nat} (hn : n = 16 ∨ n = 8) (y : Reg) {i : Nat} (h : i < n) :
    (packLuma n y).1 i = y (2 * i) ∧ (packLuma n y).2 i = y (2 * i + 1) := by
  rcases hn with rfl | rfl
  · interval_cases i <;> exact ⟨rfl, rfl⟩
  · interval_cases i <;> exact ⟨rfl, rfl⟩

theorem pack_eq {n : Nat} (hn : n = 16 ∨ n = 8) {s : Sampling} {t : Yuy2} {y u v : Buf} {cx ux : Nat}
    {ru rv : Nat → Nat} (he : cx % 2 = 0) (ly : cx + 2 * n ≤ y.length)
    (hu : PairsAt n ru (cx / 2) (packChroma n s u ux))
    (hv : PairsAt n rv (cx / 2) (packChroma n s v ux)) (yuy : Buf) :
    pack n s t y u v cx ux yuy
      = put yuy (cx / 2 * 4) ((List.range n).flatMap fun k => packPix t y ru rv (cx / 2 + k)) := by
  obtain ⟨cu, eu, hu⟩ := hu
  obtain ⟨cv, ev, hv⟩ := hv
  unfold pack
  rw [load_ld (by omega), eu, ev]
  simp only [Outcome.bind_ok]
  rw [show cx * 2 = cx / 2 * 4 by omega]
  refine congrArg (put yuy (cx / 2 * 4)) ?_
  apply range_flatMap_congr
  intro k hk
  rw [yuyOrder_at, hu k hk, hv k hk, (packLuma_at hn _ hk).1, (packLuma_at hn _ hk).2, ld_at (by omega),
    ld_at (by omega)]
  unfold packPix
  rw [show cx + 2 * k = 2 * (cx / 2 + k) by omega, show cx + (2 * k + 1) = 2 * (cx / 2 + k) + 1 by omega]

/-- What the registers of the two kinds of steps must hold in a row of `w` columns. -/
structure PackRegs (s : Sampling) (w : Nat) (c : Buf) (r : Nat → Nat) : Prop where
  wide : ∀ m, 32 * m + 32 < w → PairsAt 16 r (16 * m) (packChroma 16 s c (yuyStep s (32 * m)))
  half : ∀ m, 16 * m + 16 < w → (w - 1) / 32 * 32 ≤ 16 * m →
    PairsAt 8 r (8 * m) (packChroma 8 s c (yuyStep s (16 * m)))

theorem packer_row {s : Sampling} {t : Yuy2} {w : Nat} {y u v row : Buf}
    {ru rv : Nat → Nat} (ly : w ≤ y.length) (hw : w / 2 * 4 ≤ row.length)
    (hu : PackRegs s w u ru) (hv : PackRegs s w v rv) :
    packer s t w row y u v
      = .ok (painted 4 (packPix t y ru rv) (yuyVecEnd .sse41 w / 2) row, yuyVecEnd .sse41 w) := by
  have hp : ∀ j, (packPix t y ru rv j).length = 4 := fun j => quad_length ..
  have y0 : yuyStep s 0 = 0 := by cases s <;> rfl
  have e1 : loopEnd 32 w 0 = (w - 1) / 32 * 32 := by unfold loopEnd; omega
  have e2 : loopEnd 16 w ((w - 1) / 32 * 32) = (w - 1) / 16 * 16 := by unfold loopEnd; omega
  unfold packer
  have a := packLoop (s := s) (n := 16) (w := w) (by omega) hp (row := row) hw (cx0 := 0) (by omega)
    (body := fun cx ux yuy => pack 16 s t y u v cx ux yuy) (fun m r hm => by
      have hu' := hu.wide m (by omega)
      have hv' := hv.wide m (by omega)
      rw [show 32 * m = 0 + m * (2 * 16) by omega,
        show 16 * m = (0 + m * (2 * 16)) / 2 by omega] at hu' hv'
      exact pack_eq (.inl rfl) (by omega) (by omega) hu' hv' r) (by omega)
  rw [show 2 * 16 = 32 by rfl, e1, y0, painted_zero] at a
  rw [a, Outcome.bind_ok]
  have b := packLoop (s := s) (n := 8) (w := w) (by omega) hp (row := row) hw
    (cx0 := (w - 1) / 32 * 32) (by omega)
    (body := fun cx ux yuy => pack 8 s t y u v cx ux yuy) (fun m r hm => by
      have hu' := hu.half ((w - 1) / 32 * 2 + m) (by omega) (by omega)
      have hv' := hv.half ((w - 1) / 32 * 2 + m) (by omega) (by omega)
      rw [show 16 * ((w - 1) / 32 * 2 + m) = (w - 1) / 32 * 32 + m * (2 * 8) by omega,
        show 8 * ((w - 1) / 32 * 2 + m) = ((w - 1) / 32 * 32 + m * (2 * 8)) / 2 by omega] at hu' hv'
      exact pack_eq (.inr rfl) (by omega) (by omega) hu' hv' r) (by omega)
  rw [show 2 * 8 = 16 by rfl, e2] at b
  rw [b, Outcome.bind_ok]
  rfl

/-! ## 4:2:2 and 4:2:0 -/

theorem packRegs422 {s : Sampling} (hs : s ≠ .yuv444) {w : Nat} {c : Buf}
    (h : w / 2 ≤ c.length) : PackRegs s w c (fun j => c.getD j 0) := by
  have hy : ∀ n, yuyStep s n = n / 2 := by cases s <;> simp_all [yuyStep]
  have e : ∀ n ux, packChroma n s c ux = load n c ux := by cases s <;> simp_all [packChroma]
  refine ⟨fun m hm => ?_, fun m hm _ => ?_⟩
  · rw [e, hy, load_ld (by omega)]
    exact ⟨_, rfl, fun k hk => by rw [ld_at hk]; congr 1; omega⟩
  · rw [e, hy, load_ld (by omega)]
    exact ⟨_, rfl, fun k hk => by rw [ld_at hk]; congr 1; omega⟩

theorem packer_ok422 {s : Sampling} (hs : s ≠ .yuv444) (t : Yuy2) (w : Nat) :
    (packer s t w).Ok w (ceil2 w) t chroma422 := by
  intro yuy y u v hl hy hu hv
  have lc : ceil2 w = (w + 1) / 2 := rfl
  have := yuyVecEnd_le .sse41 w
  refine ⟨_, _, packer_row hy (by omega) (packRegs422 hs (by omega)) (packRegs422 hs (by omega)), ?_⟩
  exact painted_done (by omega) (fun j => quad_length ..) (by omega) (by omega) (.inl (Nat.mod_one _))
    (fun j _ => rfl)

/-! ## 4:4:4 -/

theorem packRegs444 {w : Nat} {c : Buf} (h : w ≤ c.length) :
    PackRegs .yuv444 w c (neonChroma444 w (fun x => c.getD x 0)) := by
  refine ⟨fun m hm => ?_, fun m hm ha => ?_⟩
  · simp only [packChroma, yuyStep]
    rw [load_ld (by omega)]
    refine ⟨_, rfl, fun k hk => ?_⟩
    unfold rhadd upper neonChroma444 mean2
    rw [if_pos (by omega), ld_at (by omega), ld_at (by omega),
      show (16 * m + k) / 16 * 32 + (16 * m + k) % 16 = 32 * m + k by omega,
      show 32 * m + (16 + k) = 32 * m + k + 16 by omega]
  · simp only [packChroma, yuyStep]
    rw [load_ld (by omega)]
    refine ⟨_, rfl, fun k hk => ?_⟩
    unfold rhadd upper neonChroma444 mean2
    rw [if_neg (by omega), ld_at (by omega), ld_at (by omega),
      show (8 * m + k) / 8 * 16 + (8 * m + k) % 8 = 16 * m + k by omega,
      show 16 * m + (8 + k) = 16 * m + k + 8 by omega]

/-- Quad `j` of a 4:4:4 row packed with NEON. -/
def neonRowQuad (w : Nat) (t : Yuy2) (y u v row : Buf) (j : Nat) : Buf :=
  if 2 * j < yuyVecEnd .sse41 w then
    packPix t y (neonChroma444 w (fun x => u.getD x 0)) (neonChroma444 w (fun x => v.getD x 0)) j
  else if yuyVecEnd .sse41 w = 0 ∨ 2 * j + 1 = w then quad444 t w y u v j
  else chunk 4 row j

theorem neonPackRow444 {w : Nat} {t : Yuy2} {row y u v : Buf} (hw : 0 < w)
    (ly : y.length = w) (lr : row.length = ceil2 w * 4) (lu : u.length = w) (lv : v.length = w)
    :
    RowOk 4 (ceil2 w) (fun j p => p = neonRowQuad w t y u v row j) row
      (packRow w t fetch444 id (packer .yuv444 t w) row y u v) := by
  have lc : ceil2 w = (w + 1) / 2 := rfl
  have hE := yuyVecEnd_le .sse41 w
  have hv16 := yuyVecEnd_even .sse41 w
  unfold packRow
  rw [packer_row (ru := neonChroma444 w (fun x => u.getD x 0))
    (rv := neonChroma444 w (fun x => v.getD x 0)) (by omega) (by omega)
    (packRegs444 (by omega)) (packRegs444 (by omega)), Outcome.bind_ok]
  simp only [id]
  by_cases h0 : yuyVecEnd .sse41 w = 0
  · rw [h0, painted_zero]
    have := packRest444 (t := t) (s := 0) hw ly lr (by omega) lu lv
    rw [paintRow_zero] at this
    rw [this]
    refine ⟨quad444 t w y u v, fun j => quad_length .., fun j _ => ?_, rfl⟩
    show _ = neonRowQuad w t y u v row j
    unfold neonRowQuad
    rw [if_neg (by omega), if_pos (.inl h0)]
  · have hhalf : w / 2 ≤ yuyVecEnd .sse41 w := by
      simp only [yuyVecEnd] at h0 ⊢; omega
    rw [painted_paintRow (w := w / 2) (pix := packPix t y (neonChroma444 w fun x => u.getD x 0)
      (neonChroma444 w fun x => v.getD x 0)) (cx := yuyVecEnd .sse41 w / 2) (row := row) (by omega)
      (fun j => quad_length ..) (by omega) (by omega)]
    generalize hpx : packPix t y (neonChroma444 w fun x => u.getD x 0)
      (neonChroma444 w fun x => v.getD x 0) = px
    have hpl : ∀ j, (px j).length = 4 := fun j => by rw [← hpx]; exact quad_length ..
    generalize hG : yuyVecEnd .sse41 w = e at *
    generalize hP : (fun (j : Nat) (c : Buf) => if 2 * j < e then px j
      else if 2 * j + 1 = w then quad444 t w y u v j else c) = P
    have hK : KeepsLen 4 P := fun j c hc => by
      rw [← hP]; simp only
      split
      · exact hpl j
      split
      · exact quad_length ..
      · exact hc
    have s1 : paintRow 4 (e / 2) px row = mapChunks 4 0 (w / 2) P row := by
      rw [← mapChunks_mapChunks (a := 0) (b := e / 2) (c := w / 2) (by omega) hK (by omega) (by omega)
        (by omega)]
      rw [mapChunks_congr (Q := fun _ c => c) (l := mapChunks 4 0 (e / 2) P row)
        (by rw [mapChunks_length hK (by omega) (by omega)]; omega) (fun j c h1 h2 _ => by
          rw [← hP]; simp only; rw [if_neg (by omega), if_neg (by omega)]),
        mapChunks_id (by omega) (by omega) (by rw [mapChunks_length hK (by omega) (by omega)]; omega)]
      refine mapChunks_congr (by omega) (fun j c h1 h2 _ => ?_)
      rw [← hP]; simp only; rw [if_pos (by omega)]
    have l1 : (mapChunks 4 0 (w / 2) P row).length = ceil2 w * 4 := by
      rw [mapChunks_length hK (by omega) (by omega), lr]
    have key : packRest w t fetch444 e (paintRow 4 (e / 2) px row) y u v
        = .ok (mapChunks 4 0 (ceil2 w) P row) := by
      unfold packRest
      rw [s1, l1, eachChunk_ok (by omega) (P := fun _ c => c)
        (by rw [l1, ly]; simp only [min4, fetch444]; omega)
        (fun j c h1 h2 h3 => by
          have h4 : j < w / 2 := by
            refine Nat.lt_of_lt_of_le h2 ?_
            rw [ly]; simp only [min4]; omega
          omega)]
      simp only [Outcome.bind_ok]
      have ee : min4 (ceil2 w * 4 / 4) (y.length / 2) (fetch444.count u) (fetch444.count v) = w / 2 := by
        rw [ly]; simp only [min4, fetch444]; omega
      rw [ee]
      have hid : mapChunks 4 e (w / 2) (fun _ c => c) (mapChunks 4 0 (w / 2) P row)
          = mapChunks 4 0 (w / 2) P row := by
        by_cases he : e = w / 2
        · rw [he]; exact mapChunks_id (by omega) (by omega) (by omega)
        · unfold mapChunks
          rw [show w / 2 - e = 0 by omega]
          simp only [mapGo]
          exact List.take_append_drop ..
      rw [hid]
      by_cases hodd : w % 2 = 0
      · rw [if_pos hodd, show ceil2 w = w / 2 by omega]; rfl
      · rw [if_neg hodd]
        rw [onLastChunk_ok (k := ceil2 w) (by omega) (by omega) (by rw [l1]; omega)
          (P := P) (fun c hc => by
            rw [lastElem_ok (by omega), lastElem_ok (by omega), lastElem_ok (by omega)]
            simp only [Outcome.bind_ok]
            rw [putQuad_ok _ _ _ _ _ hc, ← hP]
            simp only
            rw [if_neg (by omega), if_pos (by omega)]
            unfold quad444
            rw [if_neg (by omega), if_neg (by omega), if_neg (by omega), ly, lu, lv,
              show 2 * (ceil2 w - 1) = w - 1 by omega])]
        rw [show ceil2 w - 1 = w / 2 by omega,
          mapChunks_mapChunks (by omega) hK (by omega) (by omega) (by omega)]
    rw [key]
    refine ⟨fun j => if j < ceil2 w then neonRowQuad w t y u v row j else [0, 0, 0, 0],
      fun j => ?_, fun j hj => if_pos hj, ?_⟩
    · simp only
      split
      · unfold neonRowQuad
        split
        · exact quad_length ..
        split
        · exact quad_length ..
        · exact chunk_length (by omega)
      · rfl
    · congr 1
      refine mapChunks_chunk (by omega) hK (by omega) (fun j => ?_) (fun j hj => ?_)
      · show (if j < ceil2 w then neonRowQuad w t y u v row j else [0, 0, 0, 0]).length = 4
        split
        · unfold neonRowQuad
          split
          · exact quad_length ..
          split
          · exact quad_length ..
          · exact chunk_length (by omega)
        · rfl
      · simp only [if_pos hj]
        rw [← hP]
        unfold neonRowQuad
        rw [hG, hpx]
        simp only
        by_cases c1 : 2 * j < e
        · rw [if_pos c1, if_pos c1]
        · rw [if_neg c1, if_neg c1]
          by_cases c2 : 2 * j + 1 = w
          · rw [if_pos c2, if_pos (.inr c2)]
          · rw [if_neg c2, if_neg (by omega)]

theorem neonChroma444_congr {w j : Nat} {c c' : Nat → Nat} (hj : 2 * j < (w - 1) / 16 * 16)
    (h : ∀ x, x < w → c x = c' x) : neonChroma444 w c j = neonChroma444 w c' j := by
  unfold neonChroma444
  by_cases h1 : 2 * j < (w - 1) / 32 * 32
  · rw [if_pos h1, if_pos h1, h _ (by omega), h _ (by omega)]
  · rw [if_neg h1, if_neg h1, h _ (by omega), h _ (by omega)]

/-! ## Frames -/

theorem neonPackRows444_rel {t : Yuy2} {i : Planar} {d : Packed} {B B' : Nat}
    (hp : PlanarRows i .yuv444 B) (hd' : GoodPacked d B') (hw : i.width = d.width)
    (hhh : i.height = d.height) :
    FrameOk d.yuyStride i.height 4 (ceil2 i.width)
      (fun j y p => p = neonQuad444 t i (pixelAt d.yuy d.yuyStride 4 j y) j y) d.yuy
      (packRows i.width t fetch444 id (packer .yuv444 t i.width) i d.yuy d.yuyStride) := by
  have hs := hd'.stride'
  have hsp := hd'.spos
  have hf := hd'.full
  have h1 := hp.wpos
  have h2 := hp.yw
  have h3 := hp.uw
  have h4 := hp.vw
  have lc : ceil2 i.width = (i.width + 1) / 2 := rfl
  simp only [Sampling.chromaWidth] at h3 h4
  rw [← hw] at hs
  rw [← hhh] at hf
  unfold packRows
  rw [if_neg (by omega), fullRows_div hf, fullRows_div hp.yr, fullRows_div hp.ur, fullRows_div hp.vr,
    show min4 i.height i.height (Sampling.yuv444.chromaHeight i.height)
      (Sampling.yuv444.chromaHeight i.height) = i.height by simp [min4, Sampling.chromaHeight]]
  refine eachChunk_rows_at hsp (by omega) (by omega) (by rw [Nat.mul_comm]; exact hf.1) ?_
  intro r _ hr
  have ly := chunk_length (fullRows_row hp.yr hr)
  have lu := chunk_length (fullRows_row hp.ur hr)
  have lv := chunk_length (fullRows_row hp.vr hr)
  have lr := chunk_length (fullRows_row hf hr)
  unfold packSlice
  rw [slice_take (by omega), slice_take (by omega), slice_take (by omega)]
  simp only [Outcome.bind_ok]
  rw [yuy2Width_eq, onPrefix_all (by omega)]
  refine RowOk.mono (neonPackRow444 h1 (by rw [List.length_take]; omega) (by omega)
    (by rw [List.length_take]; omega) (by rw [List.length_take]; omega)) ?_
  intro j p hj
  rintro rfl
  have hE := yuyVecEnd_le .sse41 i.width
  unfold neonRowQuad neonQuad444
  by_cases c1 : 2 * j < yuyVecEnd .sse41 i.width
  · have c1' : 2 * j < (i.width - 1) / 16 * 16 := by
      simp only [yuyVecEnd] at c1 ⊢; omega
    rw [if_pos c1, if_pos c1']
    unfold packPix
    rw [neonChroma444_congr (c := fun x => ((chunk i.uStride i.u r).take i.width).getD x 0)
        (c' := fun x => Planar.U i .yuv444 x r) c1' (fun x hx => by
        simp only [Planar.U, hdiv, vdiv, Nat.div_one]; exact row_getD hx h3),
      neonChroma444_congr (c := fun x => ((chunk i.vStride i.v r).take i.width).getD x 0)
        (c' := fun x => Planar.V i .yuv444 x r) c1' (fun x hx => by
        simp only [Planar.V, hdiv, vdiv, Nat.div_one]; exact row_getD hx h4),
      row_getD (by omega) hp.yw, row_getD (by omega) hp.yw]
    rfl
  · rw [if_neg c1, if_neg (show ¬ 2 * j < (i.width - 1) / 16 * 16 from c1)]
    have h16 : yuyVecEnd .sse41 i.width = 0 ↔ i.width ≤ 16 := by simp only [yuyVecEnd]; omega
    simp only [h16]
    by_cases c2 : i.width ≤ 16 ∨ 2 * j + 1 = i.width
    · rw [if_pos c2, if_pos c2]
      unfold quad444 planarQuad444 Planar.Y Planar.U Planar.V chroma444
      simp only [hdiv, vdiv, Nat.div_one]
      rw [row_getD (by omega) hp.yw, row_getD (by omega) h3, row_getD (by omega) h4]
      by_cases h : 2 * j + 1 < i.width
      · rw [if_pos h, if_pos h, if_pos h, if_pos h, if_pos h, if_pos h, row_getD h hp.yw, row_getD h h3,
          row_getD h h4]
      · rw [if_neg h, if_neg h, if_neg h, if_neg h, if_neg h, if_neg h]
    · rw [if_neg c2, if_neg c2]
      apply List.ext_getElem?
      intro k
      unfold pixelAt
      rw [chunk_getElem?, List.getElem?_take]
      by_cases hk : k < 4
      · rw [if_pos hk, if_pos hk, chunk_getElem?, if_pos (by omega), List.getElem?_drop]
        congr 1; omega
      · rw [if_neg hk, if_neg hk]


/-! ## Unpacking -/

theorem store_congr {n : Nat} {r r' : Reg} (h : ∀ i, i < n → r i = r' i) (p : Nat) (l : Buf) :
    store n r p l = store n r' p l := by
  unfold store bytes
  refine congrArg (put l p) (List.map_congr_left fun i hi => h i (List.mem_range.1 hi))

theorem bytes_combine (n : Nat) (a b : Reg) : bytes (2 * n) (combine n a b) = bytes n a ++ bytes n b := by
  apply List.ext_getElem?
  intro i
  unfold bytes combine
  rw [List.getElem?_append]
  simp only [List.length_map, List.length_range, List.getElem?_map]
  by_cases h1 : i < n
  · rw [if_pos h1, List.getElem?_range (by omega), List.getElem?_range h1]
    simp [h1]
  · rw [if_neg h1]
    by_cases h2 : i < 2 * n
    · rw [List.getElem?_range h2, List.getElem?_range (by omega)]
      simp [h1]
    · rw [List.getElem?_eq_none (by simpa using h2), List.getElem?_eq_none (by simp; omega)]
      simp

theorem store_store (n : Nat) (a b : Reg) (p : Nat) (l : Buf) :
    (store n a p l >>= fun l => store n b (p + n) l) = store (2 * n) (combine n a b) p l := by
  unfold store
  rw [put_put _ _ _ _ _ (by simp [bytes]), bytes_combine]

theorem zipBoth16 (a b a' b' : Reg) (ha : ∀ i, i < 16 → a i = a' i) (hb : ∀ i, i < 16 → b i = b' i)
    (p : Nat) (l : Buf) :
    store (2 * 16) (zipBoth 16 a b) p l
      = (store 16 (unpacklo 1 a' b') p l >>= fun l => store 16 (unpackhi 1 a' b') (p + 16) l) := by
  rw [store_store]
  refine store_congr (fun i hi => ?_) p l
  unfold zipBoth combine
  by_cases h : i < 16
  · rw [if_pos h, if_pos h, (sseIn2_at a' b' h).1]
    unfold zip1
    rw [ha _ (by omega), hb _ (by omega)]
  · rw [if_neg h, if_neg h, (sseIn2_at a' b' (show i - 16 < 16 by omega)).2]
    unfold zip2
    rw [ha _ (by omega), hb _ (by omega)]

theorem zipBoth8 (a b a' b' : Reg) (ha : ∀ i, i < 8 → a i = a' i) (hb : ∀ i, i < 8 → b i = b' i)
    (p : Nat) (l : Buf) : store (2 * 8) (zipBoth 8 a b) p l = store 16 (unpacklo 1 a' b') p l := by
  refine store_congr (fun i hi => ?_) p l
  have hi : i < 16 := hi
  unfold zipBoth combine
  rw [(sseIn2_at a' b' hi).1]
  by_cases h : i < 8
  · rw [if_pos h]
    unfold zip1
    rw [ha _ (by omega), hb _ (by omega)]
  · rw [if_neg h]
    unfold zip2
    rw [ha _ (by omega), hb _ (by omega), show (i - 8) % 2 = i % 2 by omega,
      show 8 / 2 + (i - 8) / 2 = i / 2 by omega]

theorem putChroma16 (s : Sampling) (c c' : Reg) (h : ∀ i, i < 16 → c i = c' i) (ux : Nat) (l : Buf) :
    putChroma 16 s c ux l = ssePutChroma s c' ux l := by
  cases s <;> simp only [putChroma, ssePutChroma]
  · exact store_congr h ux l
  · exact store_congr h ux l
  · exact zipBoth16 c c c' c' h h ux l

theorem putChroma8 (s : Sampling) (c c' : Reg) (h : ∀ i, i < 8 → c i = c' i) (ux : Nat) (l : Buf) :
    putChroma 8 s c ux l = ssePutChromaHalf s c' ux l := by
  cases s <;> simp only [putChroma, ssePutChromaHalf]
  · exact store_congr h ux l
  · exact store_congr h ux l
  · exact zipBoth8 c c c' c' h h ux l

/-- An outcome that is a value or a panic. -/
def Plain {α : Type} (o : Outcome α) : Prop := o = .panic ∨ ∃ a, o = .ok a

theorem put_plain (l : Buf) (p : Nat) (b : Buf) : Plain (put l p b) := by
  unfold put
  split
  · exact .inr ⟨_, rfl⟩
  · exact .inl rfl

theorem Plain.bind {α β : Type} {o : Outcome α} {f : α → Outcome β} (h : Plain o) (hf : ∀ a, Plain (f a)) :
    Plain (o >>= f) := by
  rcases h with rfl | ⟨a, rfl⟩
  · exact .inl rfl
  · exact hf a

theorem store_plain (n : Nat) (r : Reg) (p : Nat) (l : Buf) : Plain (store n r p l) := put_plain ..

theorem ssePutChroma_plain (s : Sampling) (c : Reg) (ux : Nat) (l : Buf) : Plain (ssePutChroma s c ux l) := by
  cases s <;> simp only [ssePutChroma]
  · exact store_plain ..
  · exact store_plain ..
  · exact (store_plain ..).bind fun _ => store_plain ..

/-- Independent stores can be made in any order. -/
theorem plain_swap {α β γ δ : Type} {a : Outcome α} {b : Outcome β} {c : Outcome γ} (f : α → β → γ → δ)
    (ha : Plain a) (hb : Plain b) (hc : Plain c) :
    (do let x ← a; let y ← b; let z ← c; return f x y z)
      = (do let y ← b; let z ← c; let x ← a; return f x y z) := by
  rcases ha with rfl | ⟨x, rfl⟩ <;> rcases hb with rfl | ⟨y, rfl⟩ <;> rcases hc with rfl | ⟨z, rfl⟩ <;> rfl

theorem yuyPick_congr {t : Yuy2} {p q : Reg × Reg × Reg × Reg} {n : Nat}
    (h : ∀ i, i < n → p.1 i = q.1 i ∧ p.2.1 i = q.2.1 i ∧ p.2.2.1 i = q.2.2.1 i ∧ p.2.2.2 i = q.2.2.2 i) :
    ∀ i, i < n → (yuyPick t p).1 i = (yuyPick t q).1 i ∧ (yuyPick t p).2.1 i = (yuyPick t q).2.1 i ∧
      (yuyPick t p).2.2.1 i = (yuyPick t q).2.2.1 i ∧ (yuyPick t p).2.2.2 i = (yuyPick t q).2.2.2 i := by
  intro i hi
  obtain ⟨h1, h2, h3, h4⟩ := h i hi
  cases t <;> exact ⟨by assumption, by assumption, by assumption, by assumption⟩

theorem load_panic {n : Nat} {l : Buf} {p : Nat} (h : ¬ p + n ≤ l.length) : load n l p = .panic := if_neg h

theorem de16 (yuy : Buf) (p : Nat) (t : Yuy2) : ∀ i, i < 16 →
    (yuyPick t (deinterleave4 (ld 64 yuy p))).1 i = (yuyPick t (sseDeRgba (ld 16 yuy p) (ld 16 yuy (p + 16))
      (ld 16 yuy (p + 32)) (ld 16 yuy (p + 48)))).1 i ∧
    (yuyPick t (deinterleave4 (ld 64 yuy p))).2.1 i = (yuyPick t (sseDeRgba (ld 16 yuy p)
      (ld 16 yuy (p + 16)) (ld 16 yuy (p + 32)) (ld 16 yuy (p + 48)))).2.1 i ∧
    (yuyPick t (deinterleave4 (ld 64 yuy p))).2.2.1 i = (yuyPick t (sseDeRgba (ld 16 yuy p)
      (ld 16 yuy (p + 16)) (ld 16 yuy (p + 32)) (ld 16 yuy (p + 48)))).2.2.1 i ∧
    (yuyPick t (deinterleave4 (ld 64 yuy p))).2.2.2 i = (yuyPick t (sseDeRgba (ld 16 yuy p)
      (ld 16 yuy (p + 16)) (ld 16 yuy (p + 32)) (ld 16 yuy (p + 48)))).2.2.2 i := by
  refine yuyPick_congr fun i hi => ?_
  obtain ⟨h1, h2, h3⟩ := sseDeRgba_at (ld 16 yuy p) (ld 16 yuy (p + 16))
      (ld 16 yuy (p + 2 * 16)) (ld 16 yuy (p + 3 * 16)) hi
  have h4 := sseDeRgba_a (ld 16 yuy p) (ld 16 yuy (p + 16))
      (ld 16 yuy (p + 2 * 16)) (ld 16 yuy (p + 3 * 16)) hi
  rw [cat4 (by omega)] at h1 h2 h3 h4
  simp only [show 2 * 16 = 32 by rfl, show 3 * 16 = 48 by rfl] at h1 h2 h3 h4
  rw [h1, h2, h3, h4]
  unfold deinterleave4
  exact ⟨ld_at (by omega), ld_at (by omega), ld_at (by omega), ld_at (by omega)⟩

theorem de8 (yuy : Buf) (p : Nat) (t : Yuy2) : ∀ i, i < 8 →
    (yuyPick t (deinterleave4 (ld 32 yuy p))).1 i = (yuyPick t (sseDeRgba (ld 16 yuy p) (ld 16 yuy (p + 16))
      X86.zero X86.zero)).1 i ∧
    (yuyPick t (deinterleave4 (ld 32 yuy p))).2.1 i = (yuyPick t (sseDeRgba (ld 16 yuy p)
      (ld 16 yuy (p + 16)) X86.zero X86.zero)).2.1 i ∧
    (yuyPick t (deinterleave4 (ld 32 yuy p))).2.2.1 i = (yuyPick t (sseDeRgba (ld 16 yuy p)
      (ld 16 yuy (p + 16)) X86.zero X86.zero)).2.2.1 i ∧
    (yuyPick t (deinterleave4 (ld 32 yuy p))).2.2.2 i = (yuyPick t (sseDeRgba (ld 16 yuy p)
      (ld 16 yuy (p + 16)) X86.zero X86.zero)).2.2.2 i := by
  refine yuyPick_congr fun i hi => ?_
  obtain ⟨h1, h2, h3⟩ := sseDeRgba_at (ld 16 yuy p) (ld 16 yuy (p + 16)) X86.zero X86.zero
    (show i < 16 by omega)
  have h4 := sseDeRgba_a (ld 16 yuy p) (ld 16 yuy (p + 16)) X86.zero X86.zero (show i < 16 by omega)
  rw [cat_zeros (by omega)] at h1 h2 h3 h4
  rw [h1, h2, h3, h4]
  unfold deinterleave4
  exact ⟨ld_at (by omega), ld_at (by omega), ld_at (by omega), ld_at (by omega)⟩

theorem unpack16_eq (s : Sampling) (t : Yuy2) (yuy : Buf) (cx ux : Nat) (p : Buf × Buf × Buf) :
    unpack 16 s t yuy cx ux p = sseUnpack s t yuy cx ux p := by
  unfold unpack sseUnpack
  by_cases hl : cx * 2 + 64 ≤ yuy.length
  · have hq := de16 yuy (cx * 2) t
    rw [show 4 * 16 = 64 by rfl, load_ld hl, load_ld (by omega), load_ld (by omega), load_ld (by omega),
      load_ld (by omega)]
    simp only [Outcome.bind_ok]
    generalize yuyPick t (deinterleave4 _) = q at hq ⊢
    generalize yuyPick t _ = q' at hq ⊢
    rw [zipBoth16 _ _ q'.1 q'.2.1 (fun i hi => (hq i hi).1) (fun i hi => (hq i hi).2.1),
      putChroma16 _ _ q'.2.2.1 (fun i hi => (hq i hi).2.2.1),
      putChroma16 _ _ q'.2.2.2 (fun i hi => (hq i hi).2.2.2)]
    rw [plain_swap (fun y u v => (y, u, v)) ((store_plain ..).bind fun _ => store_plain ..)
      (ssePutChroma_plain ..) (ssePutChroma_plain ..)]
    simp only [bind_assoc']
  · rw [show 4 * 16 = 64 by rfl, load_panic hl]
    by_cases h0 : cx * 2 + 16 ≤ yuy.length
    · rw [load_ld h0]
      by_cases h1 : cx * 2 + 16 + 16 ≤ yuy.length
      · rw [load_ld h1]
        by_cases h2 : cx * 2 + 32 + 16 ≤ yuy.length
        · rw [load_ld h2, load_panic (p := cx * 2 + 48) (by omega)]; rfl
        · rw [load_panic h2]; rfl
      · rw [load_panic h1]; rfl
    · rw [load_panic h0]; rfl

theorem unpack8_eq (s : Sampling) (t : Yuy2) (yuy : Buf) (cx ux : Nat) (p : Buf × Buf × Buf) :
    unpack 8 s t yuy cx ux p = sseUnpackHalf s t yuy cx ux p := by
  unfold unpack sseUnpackHalf
  by_cases hl : cx * 2 + 32 ≤ yuy.length
  · have hq := de8 yuy (cx * 2) t
    rw [show 4 * 8 = 32 by rfl, load_ld hl, load_ld (by omega), load_ld (by omega)]
    simp only [Outcome.bind_ok]
    generalize yuyPick t (deinterleave4 _) = q at hq ⊢
    generalize yuyPick t _ = q' at hq ⊢
    rw [zipBoth8 _ _ q'.1 q'.2.1 (fun i hi => (hq i hi).1) (fun i hi => (hq i hi).2.1),
      putChroma8 _ _ q'.2.2.1 (fun i hi => (hq i hi).2.2.1),
      putChroma8 _ _ q'.2.2.2 (fun i hi => (hq i hi).2.2.2)]
  · rw [show 4 * 8 = 32 by rfl, load_panic hl]
    by_cases h0 : cx * 2 + 16 ≤ yuy.length
    · rw [load_ld h0, load_panic (p := cx * 2 + 16) (by omega)]; rfl
    · rw [load_panic h0]; rfl

/-- The NEON and the SSE4.1 unpackers are the same function. -/
theorem unpacker_eq (s : Sampling) (t : Yuy2) (w : Nat) : unpacker s t w = X86.unpacker .sse41 s t w := by
  funext y u v yuy
  unfold unpacker X86.unpacker sseUnpackRow
  simp only [unpack16_eq, unpack8_eq, bind_assoc']

end Verif.Neon
