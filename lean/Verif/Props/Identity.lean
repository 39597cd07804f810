import Verif.Spec.Identity
import Verif.Props.Gray
/-!
# C33: the identity matrix (GBR planes)
-/
namespace Verif
open Spec

/-! ## Arithmetic -/

theorem gbrCoefs : (∀ d ∈ allDepth, (d, gbrInvCoef d, gbrFwdCoef d) ∈
    [(8, (9539 : Int), (7035 : Int)), (10, 9567, 7015), (12, 9574, 7010), (14, 9575, 7008),
      (16, 9576, 7008)]) := by decide +kernel

theorem gbrCoef_cases {d : Nat} (hd : Depth d) :
    (d = 8 ∧ gbrInvCoef d = 9539 ∧ gbrFwdCoef d = 7035) ∨
    (d = 10 ∧ gbrInvCoef d = 9567 ∧ gbrFwdCoef d = 7015) ∨
    (d = 12 ∧ gbrInvCoef d = 9574 ∧ gbrFwdCoef d = 7010) ∨
    (d = 14 ∧ gbrInvCoef d = 9575 ∧ gbrFwdCoef d = 7008) ∨
    (d = 16 ∧ gbrInvCoef d = 9576 ∧ gbrFwdCoef d = 7008) := by
  have := gbrCoefs d (mem_allDepth hd)
  simp only [List.mem_cons, Prod.mk.injEq, List.not_mem_nil, or_false] at this
  exact this

theorem narrowDiff_ok' {d y b : Nat} (hd : Depth d) (hy : y < 2 ^ d) (hb : b ≤ 2 ^ (d - 4)) :
    narrowDiff d y b = .ok ((y : Int) - b) := by
  by_cases h8 : d = 8
  · subst h8
    have hy' : y < 256 := hy
    have hb' : b ≤ 16 := hb
    have e : asI16 (y : Int) = y := by unfold asI16; omega
    unfold narrowDiff chk16
    rw [if_neg (by decide), e, if_pos (by omega)]
  · exact narrowDiff_ok (by unfold Depth at hd; unfold Deep; omega) hy hb

theorem asSample_eq {d : Nat} (hd : Depth d) {x : Int} (h0 : 0 ≤ x) (h1 : x < 2 ^ d) :
    asSample d x = x.toNat := by
  rcases hd with h | h | h | h | h <;> subst h <;> norm_num at h1 <;>
    simp only [asSample, asU8, asU16] <;> norm_num <;> omega

theorem sat_bounds (d : Nat) (hd : Depth d) (x : Int) :
    0 ≤ max (min x (2 ^ d - 1)) 0 ∧ max (min x (2 ^ d - 1)) 0 < 2 ^ d := by
  have : (1 : Int) ≤ 2 ^ d := by
    rcases hd with h | h | h | h | h <;> subst h <;> norm_num
  omega

theorem gbrDecodeVal_ok {d : Nat} (hd : Depth d) (rg : YuvRange) {s : Nat} (hs : s < 2 ^ d) :
    gbrDecodeVal d rg s = .ok (gbrLevel d rg s) := by
  cases rg with
  | full => rfl
  | limited =>
    have hb := grayBias hd
    have h1 := narrowDiff_ok' hd hs (show (getYuvRange d .limited).biasY ≤ 2 ^ (d - 4) by
      rw [hb]; rcases hd with h | h | h | h | h <;> subst h <;> decide)
    have hbnd : -1000000000 ≤ ((s : Int) - (getYuvRange d .limited).biasY) * gbrInvCoef d ∧
        ((s : Int) - (getYuvRange d .limited).biasY) * gbrInvCoef d ≤ 1000000000 := by
      rw [hb]
      rcases gbrCoef_cases hd with ⟨rfl, e, -⟩ | ⟨rfl, e, -⟩ | ⟨rfl, e, -⟩ | ⟨rfl, e, -⟩ |
        ⟨rfl, e, -⟩ <;> rw [e] <;> norm_num at hs ⊢ <;> omega
    simp only [gbrDecodeVal, h1, Outcome.bind_ok]
    rw [mul32_ok (by omega) (by omega)]
    simp only [Outcome.bind_ok]
    rw [qrshr_ok (by norm_num; omega) (by norm_num; omega)]
    simp only [Outcome.bind_ok, Outcome.pure_eq, qr]
    obtain ⟨s0, s1⟩ := sat_bounds d hd
      ((((s : Int) - (getYuvRange d .limited).biasY) * gbrInvCoef d + (2 ^ (13 - 1) - 1)) / 2 ^ 13)
    rw [asSample_eq hd s0 s1, hb]
    simp only [gbrLevel]
    push_cast
    rfl

theorem gbrEncodeVal_ok {d : Nat} (hd : Depth d) (rg : YuvRange) {s : Nat} (hs : s < 2 ^ d) :
    gbrEncodeVal d rg s = .ok (gbrCode d rg s) ∧ gbrCode d rg s < 2 ^ d := by
  cases rg with
  | full => exact ⟨rfl, hs⟩
  | limited =>
    have hb := grayBias hd
    have hsum : 0 ≤ (s : Int) * gbrFwdCoef d ∧ (s : Int) * gbrFwdCoef d ≤ 1000000000 ∧
        (s : Int) * gbrFwdCoef d + 16 * 2 ^ (d - 8) * 2 ^ 13 + (2 ^ 12 - 1) < 2 ^ d * 2 ^ 13 ∧
        (16 : Int) * 2 ^ (d - 8) ≤ 4096 := by
      rcases gbrCoef_cases hd with ⟨rfl, -, e⟩ | ⟨rfl, -, e⟩ | ⟨rfl, -, e⟩ | ⟨rfl, -, e⟩ |
        ⟨rfl, -, e⟩ <;> rw [e] <;> norm_num at hs ⊢ <;> omega
    have hp : (0 : Int) ≤ 16 * 2 ^ (d - 8) := by positivity
    obtain ⟨h1, h2, h3, h4⟩ := hsum
    have hc : (((16 * 2 ^ (d - 8) : Nat) : Int)) = 16 * 2 ^ (d - 8) := by push_cast; rfl
    simp only [gbrEncodeVal, gbrCode, hb]
    rw [mul32_ok (by omega) (by omega)]
    simp only [Outcome.bind_ok, hc]
    rw [add32_ok (by norm_num; omega) (by norm_num; omega)]
    simp only [Outcome.bind_ok]
    rw [qrshr_ok (by norm_num; omega) (by norm_num; omega)]
    simp only [Outcome.bind_ok, Outcome.pure_eq, qr]
    have hx : 0 ≤ ((s : Int) * gbrFwdCoef d + 16 * 2 ^ (d - 8) * 2 ^ 13 + (2 ^ (13 - 1) - 1)) / 2 ^ 13 :=
      Int.ediv_nonneg (by norm_num; omega) (by norm_num)
    have hy : ((s : Int) * gbrFwdCoef d + 16 * 2 ^ (d - 8) * 2 ^ 13 + (2 ^ (13 - 1) - 1)) / 2 ^ 13
        < 2 ^ d := Int.ediv_lt_of_lt_mul (by norm_num) h3
    have e12 : (13 - 1 : Nat) = 12 := rfl
    rw [e12] at hx hy ⊢
    generalize ((s : Int) * gbrFwdCoef d + 16 * 2 ^ (d - 8) * 2 ^ 13 + (2 ^ 12 - 1)) / 2 ^ 13 = X at hx hy ⊢
    have hm : max (min X (2 ^ d - 1)) 0 = X := by omega
    rw [hm, asSample_eq hd hx hy]
    refine ⟨rfl, ?_⟩
    have hn : ((2 ^ d : Nat) : Int) = 2 ^ d := by push_cast; rfl
    omega

/-- C33: a component that is encoded and decoded in limited range comes back within one code value
(two at 14 bits). -/
theorem c33_component_round_trip (d : Nat) (hd : Depth d) (s : Nat) (hs : s < 2 ^ d) :
    gbrLevel d .limited (gbrCode d .limited s) ≤ s + gbrError d ∧
    s ≤ gbrLevel d .limited (gbrCode d .limited s) + gbrError d := by
  simp only [gbrLevel, gbrCode]
  rcases gbrCoef_cases hd with ⟨rfl, e1, e2⟩ | ⟨rfl, e1, e2⟩ | ⟨rfl, e1, e2⟩ | ⟨rfl, e1, e2⟩ |
      ⟨rfl, e1, e2⟩ <;> rw [e1, e2] <;> norm_num [gbrError] at hs ⊢ <;> omega

/-- At 14 bits the error of two does occur. -/
theorem c33_14bit_off_by_two : ∃ s, s < 2 ^ 14 ∧
    s = gbrLevel 14 .limited (gbrCode 14 .limited s) + 2 := by
  refine ⟨8576, by decide, by decide +kernel⟩

theorem gbr_gray_coef : ∀ d ∈ allDepth, ∀ m ∈ allMatrix,
    (searchInverse 13 d .limited m).y = gbrInvCoef d := by decide +kernel

/-- The level of a component is the grey level of a luma sample. -/
theorem gbrLevel_eq {d : Nat} (hd : Depth d) (rg : YuvRange) (m : Matrix) (s : Nat) :
    gbrLevel d rg s = grayLevel d rg m s := by
  cases rg with
  | full => rfl
  | limited =>
    simp only [gbrLevel, grayLevel, gbr_gray_coef d (mem_allDepth hd) m (mem_allMatrix m),
      grayBias hd]
    push_cast
    rfl

/-- C33: the decoded component is the expansion of the sample from the luma range, rounded to nearest
up to the coefficient error. -/
theorem c33_level_close (d : Nat) (hd : Depth d) (rg : YuvRange) (s : Nat) (hs : s < 2 ^ d) :
    |(gbrLevel d rg s : Rat) - satQ d (maxV d * normY d rg s)| ≤ 1 / 2 + 2 ^ d / 2 ^ 13 := by
  rw [gbrLevel_eq hd rg .bt709]
  exact c26_level_close d hd rg .bt709 s hs

/-- C33: the encoded sample is the compression of the component to the luma range, rounded to nearest
up to the coefficient error. -/
theorem c33_code_close (d : Nat) (hd : Depth d) (rg : YuvRange) (s : Nat) (hs : s < 2 ^ d) :
    |(gbrCode d rg s : Rat) - (offY d rg + gainY d rg * ((s : Rat) / maxV d))| ≤ 1 / 2 + 2 ^ d / 2 ^ 14 := by
  cases rg with
  | full =>
    have e : offY d .full + gainY d .full * ((s : Rat) / maxV d) = s := by
      unfold offY gainY maxV
      rcases hd with h | h | h | h | h <;> subst h <;> norm_num <;> ring
    rw [e]
    simp only [gbrCode, sub_self, abs_zero]
    positivity
  | limited =>
    have key : ∀ (k S : Int) (q : Int), 0 ≤ q →
        q = ((s : Int) * k + S * 2 ^ 13 + (2 ^ 12 - 1)) / 2 ^ 13 → 0 ≤ s →
        ∀ (g : Rat), |g * 2 ^ 13 - k| ≤ 1 / 2 →
        |(q.toNat : Rat) - (S + g * s)| ≤ 1 / 2 + s / 2 ^ 14 := by
      intro k S q hq0 hq _ g hg
      have h1 : q * 8192 ≤ s * k + S * 8192 + 4095 := by norm_num at hq; omega
      have h2 : (s : Int) * k + S * 8192 - 4096 ≤ q * 8192 := by norm_num at hq; omega
      have h1' : (q : Rat) * 8192 ≤ s * k + S * 8192 + 4095 := by exact_mod_cast h1
      have h2' : (s : Rat) * k + S * 8192 - 4096 ≤ q * 8192 := by exact_mod_cast h2
      have hc : ((q.toNat : Nat) : Rat) = (q : Rat) := by
        have : ((q.toNat : Nat) : Int) = q := by omega
        exact_mod_cast this
      have hs0 : (0 : Rat) ≤ s := by positivity
      obtain ⟨g1, g2⟩ := abs_le.1 hg
      have m1 := mul_le_mul_of_nonneg_left g1 hs0
      have m2 := mul_le_mul_of_nonneg_left g2 hs0
      rw [hc, abs_le]
      constructor <;> norm_num at * <;> linarith
    have hs' : (s : Rat) ≤ 2 ^ d := by exact_mod_cast hs.le
    refine le_trans ?_ (show (1 : Rat) / 2 + s / 2 ^ 14 ≤ 1 / 2 + 2 ^ d / 2 ^ 14 by
      have := div_le_div_of_nonneg_right hs' (show (0 : Rat) ≤ 2 ^ 14 by positivity)
      linarith)
    have hb := grayBias hd
    have hpos : 0 ≤ ((s : Int) * gbrFwdCoef d + 16 * 2 ^ (d - 8) * 2 ^ 13 + (2 ^ 12 - 1)) / 2 ^ 13 := by
      refine Int.ediv_nonneg ?_ (by norm_num)
      have : 0 ≤ gbrFwdCoef d := by
        rcases gbrCoef_cases hd with ⟨-, -, e⟩ | ⟨-, -, e⟩ | ⟨-, -, e⟩ | ⟨-, -, e⟩ |
          ⟨-, -, e⟩ <;> rw [e] <;> norm_num
      have := mul_nonneg (Int.natCast_nonneg s) this
      positivity
    have := key (gbrFwdCoef d) (16 * 2 ^ (d - 8)) _ hpos rfl (Nat.zero_le s)
      (gainY d .limited / maxV d) (by
        unfold gainY maxV
        rcases gbrCoef_cases hd with ⟨rfl, -, e⟩ | ⟨rfl, -, e⟩ | ⟨rfl, -, e⟩ | ⟨rfl, -, e⟩ |
          ⟨rfl, -, e⟩ <;> rw [e, abs_le] <;> constructor <;> norm_num)
    have e : offY d .limited + gainY d .limited * ((s : Rat) / maxV d)
        = ((16 * 2 ^ (d - 8) : Int) : Rat) + gainY d .limited / maxV d * s := by
      unfold offY
      push_cast
      ring
    rw [e]
    exact this

/-! ## Frames -/

theorem planes444 {i : Planar} {B : Nat} (h : GoodPlanar i .yuv444 B) :
    GoodPlane i.u i.uStride i.width i.height B ∧ GoodPlane i.v i.vStride i.width i.height B := by
  have hu := h.u
  have hv := h.v
  simp only [hdiv, vdiv, cover, Nat.div_one, Nat.sub_add_cancel h.wpos, Nat.sub_add_cancel h.hpos]
    at hu hv
  exact ⟨hu, hv⟩

theorem gbrBody_ok {B a : Nat} {v : Nat → Outcome Nat} {V : Nat → Nat} {ch : Channels}
    {s t u : Src} {rest : List Src} (hs : 0 < s.cn) (ht : 0 < t.cn) (hu : 0 < u.cn)
    (hv : ∀ y, y < B → v y = .ok (V y)) :
    BodyOk B ch.count (s :: t :: u :: rest) (gbrBody v ch a)
      (fun px => layout ch (V (comp px 2 0)) (V (comp px 0 0)) (V (comp px 1 0)) a) where
  len px := layout_length ..
  ok px c hp hc := by
    obtain ⟨h1, h2⟩ := hp.comp (j := 0) (k := 0) rfl hs
    obtain ⟨h3, h4⟩ := hp.comp (j := 1) (k := 0) rfl ht
    obtain ⟨h5, h6⟩ := hp.comp (j := 2) (k := 0) rfl hu
    unfold gbrBody
    rw [h1, h3, h5]
    simp only [Outcome.bind_ok]
    rw [hv _ h2, hv _ h4, hv _ h6]
    exact storePix_ok hc

theorem gbrAlphaBody_ok {B : Nat} {v : Nat → Outcome Nat} {V : Nat → Nat} {ch : Channels}
    {s t u a : Src} {rest : List Src} (hs : 0 < s.cn) (ht : 0 < t.cn) (hu : 0 < u.cn) (ha : 0 < a.cn)
    (hv : ∀ y, y < B → v y = .ok (V y)) :
    BodyOk B ch.count (s :: t :: u :: a :: rest) (gbrAlphaBody v ch)
      (fun px => layout ch (V (comp px 2 0)) (V (comp px 0 0)) (V (comp px 1 0)) (comp px 3 0)) where
  len px := layout_length ..
  ok px c hp hc := by
    obtain ⟨h1, h2⟩ := hp.comp (j := 0) (k := 0) rfl hs
    obtain ⟨h3, h4⟩ := hp.comp (j := 1) (k := 0) rfl ht
    obtain ⟨h5, h6⟩ := hp.comp (j := 2) (k := 0) rfl hu
    obtain ⟨h7, h8⟩ := hp.comp (j := 3) (k := 0) rfl ha
    unfold gbrAlphaBody
    rw [h1, h3, h5, h7]
    simp only [Outcome.bind_ok]
    rw [hv _ h2, hv _ h4, hv _ h6]
    exact storePix_ok hc

theorem toGbrBody_ok {B off : Nat} {v : Nat → Outcome Nat} {V : Nat → Nat} {s : Src}
    {rest : List Src} (hs : off < s.cn) (hv : ∀ y, y < B → v y = .ok (V y)) :
    BodyOk B 1 (s :: rest) (toGbrBody v off) (fun px => [V ((px.getD 0 []).getD off 0)]) where
  len px := rfl
  ok px c hp hc := by
    obtain ⟨h1, h2⟩ := hp.comp (j := 0) (k := off) rfl hs
    unfold toGbrBody
    rw [h1]
    simp only [Outcome.bind_ok]
    rw [hv _ h2]
    match c, hc with
    | [_], _ => rfl

/-- The three planes as sources of the decoder's loop. -/
abbrev gbrSrc (i : Planar) : List Src :=
  [⟨i.y, i.yStride, 1, true⟩, ⟨i.u, i.uStride, 1, false⟩, ⟨i.v, i.vStride, 1, false⟩]

/-- C33, decode: red from V, green from Y, blue from U, opaque alpha (or what the vector code
guarantees), nothing else is written. -/
theorem c33_gbr_decode (d : Nat) (hD : Depth d) (ch : Channels) (i : Planar) (rgba : Buf)
    (stride : Nat) (rg : YuvRange) (hi : GoodPlanar i .yuv444 (2 ^ d))
    (hd : GoodDst rgba.length stride i.width i.height ch.count)
    (R : YuvRange → List Buf → Buf → Prop) (hl hf : MapHandler)
    (hhl : hl.Ok (2 ^ d) i.width ch.count (gbrSrc i) (R .limited))
    (hhf : hf.Ok (2 ^ d) i.width ch.count (gbrSrc i) (R .full)) :
    ∃ out, gbrToRgbx x64 d ch hl hf i rgba stride rg = .ok out ∧
      FrameRel out rgba stride i.width i.height ch.count (fun x y p =>
        let Y := at' i.y i.yStride x y
        let U := at' i.u i.uStride x y
        let V := at' i.v i.vStride x y
        p = layout ch (gbrLevel d rg V) (gbrLevel d rg Y) (gbrLevel d rg U) (2 ^ d - 1) ∨
          R rg [[Y], [U], [V]] p) := by
  have hcn := count_pos ch
  obtain ⟨hu, hv⟩ := planes444 hi
  have hs : ∀ s ∈ gbrSrc i, GoodSrc s i.width i.height (2 ^ d) := by
    intro s hs
    simp only [List.mem_cons, List.not_mem_nil, or_false] at hs
    rcases hs with rfl | rfl | rfl
    · exact goodSrc_plane hi.y
    · exact goodSrc_plane hu
    · exact goodSrc_plane hv
  unfold gbrToRgbx
  rw [hd.accepted hi.wpos hi.hpos hi.w32 hi.h32 hcn (count_le ch), hi.accepted]
  simp only [Outcome.bind_ok]
  have hh : (match rg with | .limited => hl | .full => hf : MapHandler).Ok (2 ^ d) i.width ch.count
      (gbrSrc i) (R rg) := by cases rg <;> assumption
  obtain ⟨out, e, h⟩ := mapFrame_spec (cutDst := false) hi.wpos hcn hs
    (gbrBody_ok (a := 2 ^ d - 1) (ch := ch) Nat.one_pos Nat.one_pos Nat.one_pos
      (fun y hy => gbrDecodeVal_ok hD rg hy)) hh
    hd.cols_le hd.full (Or.inr ⟨_, List.mem_cons_self, rfl⟩)
  refine ⟨out, e, h.1, fun x y hx hy => ?_, h.2.2⟩
  have := h.2.1 x y hx hy
  simp only [pixelsAt, List.map_cons, List.map_nil, pixelAt_one hx hy hi.y, pixelAt_one hx hy hu,
    pixelAt_one hx hy hv] at this
  exact this

/-- C33, decode without vector code. -/
theorem c33_gbr_decode_exact (d : Nat) (hD : Depth d) (ch : Channels) (i : Planar) (rgba : Buf)
    (stride : Nat) (rg : YuvRange) (hi : GoodPlanar i .yuv444 (2 ^ d))
    (hd : GoodDst rgba.length stride i.width i.height ch.count) :
    ∃ out, gbrToRgbx x64 d ch noMap noMap i rgba stride rg = .ok out ∧
      FrameSpec out rgba stride i.width i.height ch.count (fun x y =>
        layout ch (gbrLevel d rg (at' i.v i.vStride x y)) (gbrLevel d rg (at' i.y i.yStride x y))
          (gbrLevel d rg (at' i.u i.uStride x y)) (2 ^ d - 1)) := by
  obtain ⟨out, e, h⟩ := c33_gbr_decode d hD ch i rgba stride rg hi hd (fun _ _ _ => False) noMap
    noMap noMap_ok noMap_ok
  exact ⟨out, e, frameRel_or_eq h fun x y p _ _ hp => hp.resolve_right id⟩

theorem Spec.GoodPlanarAlpha.accepted {i : PlanarAlpha} {s : Sampling} {B : Nat}
    (h : GoodPlanarAlpha i s B) : i.check x64 s = .ok () := by
  have hp : GoodPlanar ⟨i.y, i.yStride, i.u, i.uStride, i.v, i.vStride, i.width, i.height⟩ s B :=
    ⟨h.wpos, h.hpos, h.w32, h.h32, h.y, h.u, h.v⟩
  have hg : GoodGrayAlpha ⟨i.y, i.yStride, i.a, i.aStride, i.width, i.height⟩ B :=
    ⟨h.wpos, h.hpos, h.w32, h.h32, h.y, h.a⟩
  have e1 := hp.accepted
  have e2 := hg.accepted
  simp only [Planar.check, GrayAlpha.check] at e1 e2
  unfold PlanarAlpha.check
  cases a : checkY8 x64 i.y.length i.yStride i.width i.height with
  | ok r =>
    rw [a] at e1 e2
    simp only [Outcome.bind_ok] at e1 e2 ⊢
    rw [e2]
    exact e1
  | err _ => rw [a] at e2; cases e2
  | panic => rw [a] at e2; cases e2

/-- C33, decode with an alpha plane: alpha is copied. -/
theorem c33_gbr_alpha_decode (d : Nat) (hD : Depth d) (ch : Channels) (ha : ch.hasAlpha = true)
    (i : PlanarAlpha) (rgba : Buf) (stride : Nat) (rg : YuvRange)
    (hi : GoodPlanarAlpha i .yuv444 (2 ^ d))
    (hd : GoodDst rgba.length stride i.width i.height ch.count) :
    ∃ out, gbrAlphaToRgbx x64 d ch i rgba stride rg = .ok out ∧
      FrameSpec out rgba stride i.width i.height ch.count (fun x y =>
        layout ch (gbrLevel d rg (at' i.v i.vStride x y)) (gbrLevel d rg (at' i.y i.yStride x y))
          (gbrLevel d rg (at' i.u i.uStride x y)) (at' i.a i.aStride x y)) := by
  have hcn := count_pos ch
  obtain ⟨hu, hv⟩ := planes444 (i := ⟨i.y, i.yStride, i.u, i.uStride, i.v, i.vStride, i.width,
    i.height⟩) ⟨hi.wpos, hi.hpos, hi.w32, hi.h32, hi.y, hi.u, hi.v⟩
  simp only at hu hv
  have hs : ∀ s ∈ [(⟨i.y, i.yStride, 1, true⟩ : Src), ⟨i.u, i.uStride, 1, false⟩,
      ⟨i.v, i.vStride, 1, false⟩, ⟨i.a, i.aStride, 1, false⟩],
      GoodSrc s i.width i.height (2 ^ d) := by
    intro s hs
    simp only [List.mem_cons, List.not_mem_nil, or_false] at hs
    rcases hs with rfl | rfl | rfl | rfl
    · exact goodSrc_plane hi.y
    · exact goodSrc_plane hu
    · exact goodSrc_plane hv
    · exact goodSrc_plane hi.a
  unfold gbrAlphaToRgbx
  rw [if_neg (by simp [ha]), hd.accepted hi.wpos hi.hpos hi.w32 hi.h32 hcn (count_le ch), hi.accepted]
  simp only [Outcome.bind_ok]
  obtain ⟨out, e, h⟩ := mapFrame_spec (cutDst := false) hi.wpos hcn hs
    (gbrAlphaBody_ok (ch := ch) Nat.one_pos Nat.one_pos Nat.one_pos Nat.one_pos
      (fun y hy => gbrDecodeVal_ok hD rg hy)) (noMap_ok (R := fun _ _ => False))
    hd.cols_le hd.full (Or.inr ⟨_, List.mem_cons_self, rfl⟩)
  refine ⟨out, e, frameRel_or_eq h fun x y p hx hy hp => ?_⟩
  rw [hp.resolve_right id]
  simp only [pixelsAt, List.map_cons, List.map_nil, pixelAt_one hx hy hi.y, pixelAt_one hx hy hu,
    pixelAt_one hx hy hv, pixelAt_one hx hy hi.a]
  rfl

/-- The planes of a GBR image that encodes the pixels of `rgba`. -/
structure GbrSpec (d : Nat) (ch : Channels) (rg : YuvRange) (rgba : Buf) (stride : Nat)
    (i out : Planar) : Prop where
  geometry : out.width = i.width ∧ out.height = i.height ∧ out.yStride = i.yStride ∧
    out.uStride = i.uStride ∧ out.vStride = i.vStride
  y : FrameSpec out.y i.y i.yStride i.width i.height 1 fun x y =>
    [gbrCode d rg (green ch (pixelAt rgba stride ch.count x y))]
  u : FrameSpec out.u i.u i.uStride i.width i.height 1 fun x y =>
    [gbrCode d rg (blue ch (pixelAt rgba stride ch.count x y))]
  v : FrameSpec out.v i.v i.vStride i.width i.height 1 fun x y =>
    [gbrCode d rg (red ch (pixelAt rgba stride ch.count x y))]

/-- C33, encode: the Y, U and V planes receive green, blue and red of every pixel, nothing else is
written. -/
theorem c33_gbr_encode (d : Nat) (hD : Depth d) (ch : Channels) (i : Planar) (rgba : Buf)
    (stride : Nat) (rg : YuvRange) (hi : GoodPlanar i .yuv444 (2 ^ d))
    (hd : GoodDst rgba.length stride i.width i.height ch.count) (hb : ∀ a ∈ rgba, a < 2 ^ d) :
    ∃ out, rgbxToGbr x64 d ch i rgba stride rg = .ok out ∧ GbrSpec d ch rg rgba stride i out := by
  have hcn := count_pos ch
  obtain ⟨hu, hv⟩ := planes444 hi
  have g0 : GoodSrc ⟨rgba, stride, ch.count, false⟩ i.width i.height (2 ^ d) :=
    goodSrc_packed hcn hd hb
  have g1 : GoodSrc ⟨i.y, i.yStride, 1, true⟩ i.width i.height (2 ^ d) := goodSrc_plane hi.y
  have g2 : GoodSrc ⟨i.u, i.uStride, 1, true⟩ i.width i.height (2 ^ d) := goodSrc_plane hu
  have g3 : GoodSrc ⟨i.v, i.vStride, 1, true⟩ i.width i.height (2 ^ d) := goodSrc_plane hv
  have key : ∀ (off : Nat) (dst : Buf) (st : Nat) (a b : Src), off < ch.count →
      GoodPlane dst st i.width i.height (2 ^ d) → GoodSrc a i.width i.height (2 ^ d) →
      GoodSrc b i.width i.height (2 ^ d) →
      ∃ out, mapFrame true i.width 1 noMap (toGbrBody (gbrEncodeVal d rg) off)
          [⟨rgba, stride, ch.count, false⟩, a, b] dst st = .ok out ∧
        FrameSpec out dst st i.width i.height 1 fun x y =>
          [gbrCode d rg ((pixelAt rgba stride ch.count x y).getD off 0)] := by
    intro off dst st a b hoff hdst ha hb
    have hs : ∀ s ∈ [(⟨rgba, stride, ch.count, false⟩ : Src), a, b],
        GoodSrc s i.width i.height (2 ^ d) := by
      intro s hs
      simp only [List.mem_cons, List.not_mem_nil, or_false] at hs
      rcases hs with rfl | rfl | rfl <;> assumption
    obtain ⟨out, e, h⟩ := mapFrame_spec (cutDst := true) hi.wpos Nat.one_pos hs
      (toGbrBody_ok (off := off) hoff (fun y hy => (gbrEncodeVal_ok hD rg hy).1))
      (noMap_ok (R := fun _ _ => False)) (by rw [Nat.mul_one]; exact hdst.cols_le) hdst.full
      (Or.inl rfl)
    exact ⟨out, e, frameRel_or_eq h fun x y p _ _ hp => hp.resolve_right id⟩
  obtain ⟨v, e1, h1⟩ := key ch.rOff i.v i.vStride _ _ (by cases ch <;> decide) hv g1 g2
  obtain ⟨y, e2, h2⟩ := key ch.gOff i.y i.yStride _ _ (by cases ch <;> decide) hi.y g2 g3
  obtain ⟨u, e3, h3⟩ := key ch.bOff i.u i.uStride _ _ (by cases ch <;> decide) hu g1 g3
  have er : ∀ px, px.getD ch.rOff 0 = red ch px := by intro px; cases ch <;> rfl
  have eg : ∀ px, px.getD ch.gOff 0 = green ch px := by intro px; cases ch <;> rfl
  have eb : ∀ px, px.getD ch.bOff 0 = blue ch px := by intro px; cases ch <;> rfl
  simp only [er] at h1
  simp only [eg] at h2
  simp only [eb] at h3
  refine ⟨{ i with y := y, u := u, v := v }, ?_, ⟨rfl, rfl, rfl, rfl, rfl⟩, h2, h3, h1⟩
  unfold rgbxToGbr
  rw [hd.accepted hi.wpos hi.hpos hi.w32 hi.h32 hcn (count_le ch), hi.accepted]
  simp only [Outcome.bind_ok, e1, e2, e3]
  rfl

theorem GbrSpec.good {d : Nat} (hD : Depth d) {ch : Channels} {rg : YuvRange} {rgba : Buf}
    {stride : Nat} {i out : Planar} (h : GbrSpec d ch rg rgba stride i out)
    (hi : GoodPlanar i .yuv444 (2 ^ d)) (hb : ∀ a ∈ rgba, a < 2 ^ d) :
    GoodPlanar out .yuv444 (2 ^ d) := by
  obtain ⟨g1, g2, g3, g4, g5⟩ := h.geometry
  obtain ⟨hu, hv⟩ := planes444 hi
  have hlt : ∀ x y, gbrCode d rg (green ch (pixelAt rgba stride ch.count x y)) < 2 ^ d ∧
      gbrCode d rg (blue ch (pixelAt rgba stride ch.count x y)) < 2 ^ d ∧
      gbrCode d rg (red ch (pixelAt rgba stride ch.count x y)) < 2 ^ d := by
    intro x y
    obtain ⟨a, b, c⟩ := comps_lt (Nat.two_pow_pos d) ch (mem_pixelAt (stride := stride)
      (cn := ch.count) (x := x) (y := y) hb)
    exact ⟨(gbrEncodeVal_ok hD rg b).2, (gbrEncodeVal_ok hD rg c).2, (gbrEncodeVal_ok hD rg a).2⟩
  have e1 := frameSpec_bound h.y hi.y.bound fun x y => (hlt x y).1
  have e2 := frameSpec_bound h.u hu.bound fun x y => (hlt x y).2.1
  have e3 := frameSpec_bound h.v hv.bound fun x y => (hlt x y).2.2
  refine ⟨g1 ▸ hi.wpos, g2 ▸ hi.hpos, g1 ▸ hi.w32, g2 ▸ hi.h32, ?_, ?_, ?_⟩
  · rw [g1, g2, g3]
    exact ⟨hi.y.stride32, hi.y.cols_le, by rw [h.y.1]; exact hi.y.full, e1⟩
  · rw [g1, g2, g4]
    exact ⟨hi.u.stride32, hi.u.cols_le, by rw [h.u.1]; exact hi.u.full, e2⟩
  · rw [g1, g2, g5]
    exact ⟨hi.v.stride32, hi.v.cols_le, by rw [h.v.1]; exact hi.v.full, e3⟩

/-- One pixel of a frame described component by component. -/
theorem frameSpec_pixel {out dst : Buf} {st w h cn x y : Nat} {f : Nat → Nat → Buf}
    (hs : FrameSpec out dst st w h cn f) (hx : x < w) (hy : y < h) (hl : (f x y).length = cn) :
    pixelAt out st cn x y = f x y := by
  apply List.ext_getElem?
  intro c
  unfold pixelAt
  rw [List.getElem?_take]
  by_cases hc : c < cn
  · rw [if_pos hc, List.getElem?_drop, Nat.add_assoc, hs.2.1 x y c hx hy hc]
  · rw [if_neg hc, List.getElem?_eq_none (by omega)]

/-- C33, RGB to GBR and back: every pixel comes back through the level of its code; alpha becomes
opaque.  In full range this is the pixel itself (`c33_full_lossless`), in limited range it is within
`gbrError` (`c33_limited_round_trip`). -/
theorem c33_round_trip (d : Nat) (hD : Depth d) (ch ch' : Channels) (i : Planar) (rgba dst : Buf)
    (stride stride' : Nat) (rg : YuvRange) (hi : GoodPlanar i .yuv444 (2 ^ d))
    (hs : GoodDst rgba.length stride i.width i.height ch.count) (hb : ∀ a ∈ rgba, a < 2 ^ d)
    (hd : GoodDst dst.length stride' i.width i.height ch'.count) :
    ∃ mid out, rgbxToGbr x64 d ch i rgba stride rg = .ok mid ∧
      gbrToRgbx x64 d ch' noMap noMap mid dst stride' rg = .ok out ∧
      FrameSpec out dst stride' i.width i.height ch'.count (fun x y =>
        let px := pixelAt rgba stride ch.count x y
        layout ch' (gbrLevel d rg (gbrCode d rg (red ch px))) (gbrLevel d rg (gbrCode d rg (green ch px)))
          (gbrLevel d rg (gbrCode d rg (blue ch px))) (2 ^ d - 1)) := by
  obtain ⟨mid, e1, h1⟩ := c33_gbr_encode d hD ch i rgba stride rg hi hs hb
  obtain ⟨g1, g2, g3, g4, g5⟩ := h1.geometry
  have hg := h1.good hD hi hb
  obtain ⟨out, e2, h2⟩ := c33_gbr_decode_exact d hD ch' mid dst stride' rg hg (by rw [g1, g2]; exact hd)
  rw [g1, g2] at h2
  refine ⟨mid, out, e1, e2, h2.1, fun x y c hx hy hc => ?_, h2.2.2⟩
  rw [h2.2.1 x y c hx hy hc]
  simp only [g3, g4, g5]
  rw [frameSpec_at h1.y hx hy, frameSpec_at h1.u hx hy, frameSpec_at h1.v hx hy]

/-- C33: in full range RGB to GBR and back is the identity on the colours of every pixel. -/
theorem c33_full_lossless (d : Nat) (hD : Depth d) (ch ch' : Channels) (i : Planar) (rgba dst : Buf)
    (stride stride' : Nat) (hi : GoodPlanar i .yuv444 (2 ^ d))
    (hs : GoodDst rgba.length stride i.width i.height ch.count) (hb : ∀ a ∈ rgba, a < 2 ^ d)
    (hd : GoodDst dst.length stride' i.width i.height ch'.count) :
    ∃ mid out, rgbxToGbr x64 d ch i rgba stride .full = .ok mid ∧
      gbrToRgbx x64 d ch' noMap noMap mid dst stride' .full = .ok out ∧
      FrameSpec out dst stride' i.width i.height ch'.count (fun x y =>
        let px := pixelAt rgba stride ch.count x y
        layout ch' (red ch px) (green ch px) (blue ch px) (2 ^ d - 1)) :=
  c33_round_trip d hD ch ch' i rgba dst stride stride' .full hi hs hb hd

/-- C33: in limited range every colour component comes back within one code value, two at 14 bits. -/
theorem c33_limited_round_trip (d : Nat) (hD : Depth d) (ch ch' : Channels) (i : Planar)
    (rgba dst : Buf) (stride stride' : Nat) (hi : GoodPlanar i .yuv444 (2 ^ d))
    (hs : GoodDst rgba.length stride i.width i.height ch.count) (hb : ∀ a ∈ rgba, a < 2 ^ d)
    (hd : GoodDst dst.length stride' i.width i.height ch'.count) :
    ∃ mid out, rgbxToGbr x64 d ch i rgba stride .limited = .ok mid ∧
      gbrToRgbx x64 d ch' noMap noMap mid dst stride' .limited = .ok out ∧
      ∀ x y, x < i.width → y < i.height → ∃ r g b,
        pixelAt out stride' ch'.count x y = layout ch' r g b (2 ^ d - 1) ∧
        let px := pixelAt rgba stride ch.count x y
        (r ≤ red ch px + gbrError d ∧ red ch px ≤ r + gbrError d) ∧
        (g ≤ green ch px + gbrError d ∧ green ch px ≤ g + gbrError d) ∧
        (b ≤ blue ch px + gbrError d ∧ blue ch px ≤ b + gbrError d) := by
  obtain ⟨mid, out, e1, e2, h⟩ :=
    c33_round_trip d hD ch ch' i rgba dst stride stride' .limited hi hs hb hd
  refine ⟨mid, out, e1, e2, fun x y hx hy => ?_⟩
  · obtain ⟨a, b, c⟩ := comps_lt (Nat.two_pow_pos d) ch (mem_pixelAt (stride := stride)
      (cn := ch.count) (x := x) (y := y) hb)
    exact ⟨_, _, _, frameSpec_pixel h hx hy (layout_length ..), c33_component_round_trip d hD _ a, c33_component_round_trip d hD _ b,
      c33_component_round_trip d hD _ c⟩

theorem at_lt {B : Nat} {l : Buf} {st x y : Nat} (hB : 0 < B) (h : ∀ s ∈ l, s < B) :
    at' l st x y < B := by
  unfold at'
  rw [List.getD_eq_getElem?_getD]
  cases e : l[y * st + x]? with
  | none => exact hB
  | some a => exact h a (List.mem_of_getElem? e)

/-- C33: in full range GBR planes to RGB and back restores every sample of the three planes. -/
theorem c33_full_lossless_planes (d : Nat) (hD : Depth d) (ch : Channels) (i j : Planar) (rgba : Buf)
    (stride : Nat) (hi : GoodPlanar i .yuv444 (2 ^ d)) (hj : GoodPlanar j .yuv444 (2 ^ d))
    (hw : j.width = i.width) (hh : j.height = i.height) (hb : ∀ a ∈ rgba, a < 2 ^ d)
    (hs : GoodDst rgba.length stride i.width i.height ch.count) :
    ∃ mid out, gbrToRgbx x64 d ch noMap noMap i rgba stride .full = .ok mid ∧
      rgbxToGbr x64 d ch j mid stride .full = .ok out ∧
      ∀ x y, x < i.width → y < i.height →
        at' out.y j.yStride x y = at' i.y i.yStride x y ∧
        at' out.u j.uStride x y = at' i.u i.uStride x y ∧
        at' out.v j.vStride x y = at' i.v i.vStride x y := by
  obtain ⟨mid, e1, h1⟩ := c33_gbr_decode_exact d hD ch i rgba stride .full hi hs
  obtain ⟨pu, pv⟩ := planes444 hi
  have hp := Nat.two_pow_pos d
  have hm : ∀ a ∈ mid, a < 2 ^ d := frameSpec_bound' h1 hb fun x y _ _ a ha =>
    layout_bound (B := 2 ^ d) ch (at_lt hp pv.bound) (at_lt hp hi.y.bound) (at_lt hp pu.bound)
      (Nat.sub_lt hp Nat.one_pos) a ha
  obtain ⟨out, e2, h2⟩ := c33_gbr_encode d hD ch j mid stride .full hj
    (by rw [hw, hh, h1.1]; exact hs) hm
  refine ⟨mid, out, e1, e2, fun x y hx hy => ?_⟩
  have epx := frameSpec_pixel h1 hx hy (layout_length ..)
  have e := layout_colours ch (at' i.v i.vStride x y) (at' i.y i.yStride x y)
    (at' i.u i.uStride x y) (2 ^ d - 1)
  rw [frameSpec_at h2.y (hw ▸ hx) (hh ▸ hy), frameSpec_at h2.u (hw ▸ hx) (hh ▸ hy),
    frameSpec_at h2.v (hw ▸ hx) (hh ▸ hy), epx]
  exact ⟨e.2.1, e.2.2, e.1⟩

/-! ## C05 -/

theorem NoErr.narrowDiff {d y b : Nat} : NoErr (Verif.narrowDiff d y b) := by
  unfold Verif.narrowDiff
  exact .ite .sub32 .chk16

theorem NoErr.gbrDecodeVal (d : Nat) (rg : YuvRange) (s : Nat) : NoErr (gbrDecodeVal d rg s) := by
  unfold Verif.gbrDecodeVal
  cases rg
  · no_err [NoErr.narrowDiff, NoErr.qrshr]
  · exact .ok

theorem NoErr.gbrEncodeVal (d : Nat) (rg : YuvRange) (s : Nat) : NoErr (gbrEncodeVal d rg s) := by
  unfold Verif.gbrEncodeVal
  cases rg
  · no_err [NoErr.qrshr]
  · exact .ok

/-- C05, GBR decode: the error value is returned exactly for sizes that do not fit. -/
theorem c05_gbr_decode_rejects (d : Nat) (ch : Channels) (hl hf : MapHandler)
    (h1 : ∀ a b, NoErr (hl a b)) (h2 : ∀ a b, NoErr (hf a b))
    (i : Planar) (rgba : Buf) (stride : Nat) (rg : YuvRange)
    (hi : U32 i.yStride ∧ U32 i.uStride ∧ U32 i.vStride ∧ U32 i.width ∧ U32 i.height) (hs : U32 stride) :
    (∃ e, gbrToRgbx x64 d ch hl hf i rgba stride rg = .err e) ↔
      ¬ (PlanarFits i .yuv444 ∧ RgbFits rgba.length stride i.width i.height ch.count) := by
  have hcn : 0 < ch.count ∧ ch.count ≤ 4 := by cases ch <;> decide
  obtain ⟨a, b, c, hw, hh⟩ := hi
  refine rejects_iff ?_ (c01_planar_check_no_panic i .yuv444 ⟨a, b, c, hw, hh⟩)
    (checkRgba_no_panic hs hw hh hcn.1 hcn.2) (c01_planar_check_iff i .yuv444 ⟨a, b, c, hw, hh⟩)
    (c02_rgba_check_iff _ _ _ _ _ hs hw hh hcn.1 hcn.2)
  refine .mapFrame (fun _ _ => by cases rg <;> apply_assumption) fun px c => ?_
  unfold gbrBody
  no_err [NoErr.gbrDecodeVal, NoErr.storePix]

/-- C05, GBR encode. -/
theorem c05_gbr_encode_rejects (d : Nat) (ch : Channels)
    (i : Planar) (rgba : Buf) (stride : Nat) (rg : YuvRange)
    (hi : U32 i.yStride ∧ U32 i.uStride ∧ U32 i.vStride ∧ U32 i.width ∧ U32 i.height) (hs : U32 stride) :
    (∃ e, rgbxToGbr x64 d ch i rgba stride rg = .err e) ↔
      ¬ (PlanarFits i .yuv444 ∧ RgbFits rgba.length stride i.width i.height ch.count) := by
  have hcn : 0 < ch.count ∧ ch.count ≤ 4 := by cases ch <;> decide
  obtain ⟨a, b, c, hw, hh⟩ := hi
  refine rejects_iff ?_ (c01_planar_check_no_panic i .yuv444 ⟨a, b, c, hw, hh⟩)
    (checkRgba_no_panic hs hw hh hcn.1 hcn.2) (c01_planar_check_iff i .yuv444 ⟨a, b, c, hw, hh⟩)
    (c02_rgba_check_iff _ _ _ _ _ hs hw hh hcn.1 hcn.2)
  have hm : ∀ off a b c, NoErr (mapFrame true i.width 1 noMap (toGbrBody (gbrEncodeVal d rg) off) a b c) :=
    fun off a b c => .mapFrame (fun _ _ => .ok) fun px c => by
      unfold toGbrBody
      no_err [NoErr.gbrEncodeVal]
  exact .bind (hm _ _ _ _) fun _ => .bind (hm _ _ _ _) fun _ => .bind (hm _ _ _ _) fun _ => .ok

/-- A 2×2 4:4:4 image with padded planes. -/
def demoGbr : Planar := ⟨[1, 2, 9, 3, 4, 9], 3, [5, 6, 7, 8], 2, [10, 20, 30, 40], 2, 2, 2⟩

example : GoodPlanar demoGbr .yuv444 (2 ^ 8) where
  wpos := by decide
  hpos := by decide
  w32 := by unfold U32; decide
  h32 := by unfold U32; decide
  y := ⟨by unfold U32; decide, by decide, by unfold FullRows; decide, by decide⟩
  u := ⟨by unfold U32; decide, by decide, by unfold FullRows; decide, by decide⟩
  v := ⟨by unfold U32; decide, by decide, by unfold FullRows; decide, by decide⟩
example : gbrToRgbx x64 8 .rgb noMap noMap demoGbr (List.replicate 14 0) 7 .full
    = .ok [10, 1, 5, 20, 2, 6, 0, 30, 3, 7, 40, 4, 8, 0] := by decide +kernel
example : rgbxToGbr x64 8 .rgba demoGbr
    [255, 0, 128, 9, 10, 20, 30, 9, 1, 2, 3, 9, 4, 5, 6, 9] 8 .limited
    = .ok ⟨[16, 33, 9, 18, 20, 9], 3, [126, 42, 19, 21], 2, [235, 25, 17, 19], 2, 2, 2⟩ := by
  decide +kernel

end Verif
