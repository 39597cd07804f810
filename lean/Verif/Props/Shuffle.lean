import Verif.Spec.Shuffle
import Verif.Props.Identity
/-!
# C40: channel shuffles; C38: 30-bit RGB
-/
namespace Verif
open Spec

/-! ## C40 -/

theorem length_four {l : Buf} (h : l.length = 4) : ∃ a b c d, l = [a, b, c, d] := by
  match l, h with
  | [a, b, c, d], _ => exact ⟨a, b, c, d, rfl⟩

theorem shuffleBody_ok {B : Nat} {sc dc : Channels} {s : Src} {rest : List Src}
    (hs : s.cn = sc.count) :
    BodyOk B dc.count (s :: rest) (shuffleBody sc dc)
      (fun px => let p := px.getD 0 []
        layout dc (red sc p) (green sc p) (blue sc p) (alphaOr 255 sc p)) where
  len px := layout_length ..
  ok px c hp hc := by
    obtain ⟨hl, -⟩ := hp.pixel (j := 0) (s := s) rfl
    rw [hs] at hl
    unfold shuffleBody
    generalize px.getD 0 [] = p at hl ⊢
    cases sc <;> cases dc <;> simp only [Channels.count] at hl hc <;>
      (first
        | obtain ⟨_, _, _, rfl⟩ := List.length_eq_three.1 hl
        | obtain ⟨_, _, _, _, rfl⟩ := length_four hl) <;>
      (first
        | obtain ⟨_, _, _, rfl⟩ := List.length_eq_three.1 hc
        | obtain ⟨_, _, _, _, rfl⟩ := length_four hc) <;> rfl

/-- C40: every pixel receives the colours of the same source pixel in its own order, and the source
alpha, or 255 when the source has none (or what the vector code guarantees); nothing else is
written. -/
theorem c40_shuffle (sc dc : Channels) (src : Buf) (sStride : Nat) (dst : Buf) (dStride w h : Nat)
    (hw : 0 < w) (hh : 0 < h) (hw32 : U32 w) (hh32 : U32 h)
    (hs : GoodDst src.length sStride w h sc.count) (hb : Bytes src)
    (hd : GoodDst dst.length dStride w h dc.count)
    (R : List Buf → Buf → Prop) (hnd : MapHandler)
    (hok : hnd.Ok 256 w dc.count [⟨src, sStride, sc.count, true⟩] R) :
    ∃ out, shuffle x64 sc dc hnd src sStride dst dStride w h = .ok out ∧
      FrameRel out dst dStride w h dc.count (fun x y p =>
        let s := pixelAt src sStride sc.count x y
        p = layout dc (red sc s) (green sc s) (blue sc s) (alphaOr 255 sc s) ∨ R [s] p) := by
  have hg : ∀ s ∈ [(⟨src, sStride, sc.count, true⟩ : Src)], GoodSrc s w h 256 := by
    intro s hs'
    rw [List.mem_singleton] at hs'
    subst hs'
    exact goodSrc_packed (count_pos sc) hs hb
  unfold shuffle
  rw [hs.accepted hw hh hw32 hh32 (count_pos sc) (count_le sc),
    hd.accepted hw hh hw32 hh32 (count_pos dc) (count_le dc)]
  simp only [Outcome.bind_ok]
  exact mapFrame_spec (cutDst := true) hw (count_pos dc) hg (shuffleBody_ok rfl) hok hd.cols_le
    hd.full (Or.inl rfl)

/-- C40 without vector code. -/
theorem c40_shuffle_exact (sc dc : Channels) (src : Buf) (sStride : Nat) (dst : Buf)
    (dStride w h : Nat) (hw : 0 < w) (hh : 0 < h) (hw32 : U32 w) (hh32 : U32 h)
    (hs : GoodDst src.length sStride w h sc.count) (hb : Bytes src)
    (hd : GoodDst dst.length dStride w h dc.count) :
    ∃ out, shuffle x64 sc dc noMap src sStride dst dStride w h = .ok out ∧
      FrameSpec out dst dStride w h dc.count (fun x y =>
        let s := pixelAt src sStride sc.count x y
        layout dc (red sc s) (green sc s) (blue sc s) (alphaOr 255 sc s)) := by
  obtain ⟨out, e, h⟩ := c40_shuffle sc dc src sStride dst dStride w h hw hh hw32 hh32 hs hb hd
    (fun _ _ => False) noMap noMap_ok
  exact ⟨out, e, frameRel_or_eq h fun x y p _ _ hp => hp.resolve_right id⟩

/-- Writing colours in one layout and reading them back. -/
theorem layout_alpha (ch : Channels) (r g b a o : Nat) :
    alphaOr o ch (layout ch r g b a) = if ch.hasAlpha then a else o := by cases ch <;> rfl

theorem layout_of_pixel (ch : Channels) (p : Buf) (hp : p.length = ch.count) (o : Nat) :
    layout ch (red ch p) (green ch p) (blue ch p) (alphaOr o ch p) = p := by
  cases ch <;> simp only [Channels.count] at hp
  · match p, hp with
    | [_, _, _], _ => rfl
  · match p, hp with
    | [_, _, _, _], _ => rfl
  · match p, hp with
    | [_, _, _, _], _ => rfl
  · match p, hp with
    | [_, _, _], _ => rfl

theorem GoodDst_pixel {buf : Buf} {stride w h cn x y : Nat} (g : GoodDst buf.length stride w h cn)
    (hx : x < w) (hy : y < h) : (pixelAt buf stride cn x y).length = cn := by
  have h1 := fullRows_row g.full hy
  have h2 := succ_mul_le_of_lt cn hx
  have h3 := g.cols_le
  simp only [pixelAt, List.length_take, List.length_drop]
  omega

/-- C40: converting from one layout to another and back returns every pixel: the colours always,
alpha if both layouts have it, otherwise 255. -/
theorem c40_round_trip (sc dc : Channels) (src : Buf) (sStride : Nat) (mid : Buf) (mStride : Nat)
    (dst : Buf) (dStride w h : Nat) (hw : 0 < w) (hh : 0 < h) (hw32 : U32 w) (hh32 : U32 h)
    (hs : GoodDst src.length sStride w h sc.count) (hb : Bytes src) (hb' : Bytes mid)
    (hm : GoodDst mid.length mStride w h dc.count) (hd : GoodDst dst.length dStride w h sc.count) :
    ∃ m out, shuffle x64 sc dc noMap src sStride mid mStride w h = .ok m ∧
      shuffle x64 dc sc noMap m mStride dst dStride w h = .ok out ∧
      ∀ x y, x < w → y < h →
        let s := pixelAt src sStride sc.count x y
        pixelAt out dStride sc.count x y
          = layout sc (red sc s) (green sc s) (blue sc s)
              (if dc.hasAlpha then alphaOr 255 sc s else 255) ∧
        (dc.hasAlpha = true ∨ sc.hasAlpha = false → pixelAt out dStride sc.count x y = s) := by
  obtain ⟨m, e1, h1⟩ := c40_shuffle_exact sc dc src sStride mid mStride w h hw hh hw32 hh32 hs hb hm
  have hmb : Bytes m := frameSpec_bound' h1 hb' fun x y hx hy => by
    have hp : ∀ a ∈ pixelAt src sStride sc.count x y, a < 256 := mem_pixelAt hb
    obtain ⟨c1, c2, c3⟩ := comps_lt (by decide) sc hp
    refine layout_bound dc c1 c2 c3 ?_
    cases sc <;> simp only [alphaOr] <;> try decide
    all_goals
      rw [List.getD_eq_getElem?_getD]
      cases e : (pixelAt src sStride _ x y)[3]? with
      | none => decide
      | some a => exact hp a (List.mem_of_getElem? e)
  obtain ⟨out, e2, h2⟩ := c40_shuffle_exact dc sc m mStride dst dStride w h hw hh hw32 hh32
    (by rw [h1.1]; exact hm) hmb hd
  refine ⟨m, out, e1, e2, fun x y hx hy => ?_⟩
  have a1 := frameSpec_pixel h1 hx hy (layout_length ..)
  have a2 := frameSpec_pixel h2 hx hy (layout_length ..)
  simp only [a1] at a2
  generalize hp : pixelAt src sStride sc.count x y = s at a2
  have hlen : s.length = sc.count := by rw [← hp]; exact GoodDst_pixel hs hx hy
  obtain ⟨c1, c2, c3⟩ := layout_colours dc (red sc s) (green sc s) (blue sc s) (alphaOr 255 sc s)
  rw [c1, c2, c3, layout_alpha] at a2
  refine ⟨a2, fun hor => ?_⟩
  rw [a2]
  rcases hor with h | h
  · rw [h, if_pos rfl]
    exact layout_of_pixel sc s hlen 255
  · have : layout sc (red sc s) (green sc s) (blue sc s) (if dc.hasAlpha then alphaOr 255 sc s else 255)
        = layout sc (red sc s) (green sc s) (blue sc s) (alphaOr 255 sc s) := by
      cases sc <;> first | rfl | cases h
    rw [this]
    exact layout_of_pixel sc s hlen 255

/-- C05, shuffles: the error value is returned exactly for sizes that do not fit. -/
theorem c05_shuffle_rejects (sc dc : Channels) (hnd : MapHandler) (h0 : ∀ a b, NoErr (hnd a b))
    (src : Buf) (sStride : Nat) (dst : Buf) (dStride w h : Nat) (hs : U32 sStride) (hd : U32 dStride)
    (hw : U32 w) (hh : U32 h) :
    (∃ e, shuffle x64 sc dc hnd src sStride dst dStride w h = .err e) ↔
      ¬ (RgbFits src.length sStride w h sc.count ∧ RgbFits dst.length dStride w h dc.count) := by
  refine rejects_iff ?_ (checkRgba_no_panic hs hw hh (count_pos sc) (count_le sc))
    (checkRgba_no_panic hd hw hh (count_pos dc) (count_le dc))
    (c02_rgba_check_iff _ _ _ _ _ hs hw hh (count_pos sc) (count_le sc))
    (c02_rgba_check_iff _ _ _ _ _ hd hw hh (count_pos dc) (count_le dc))
  refine .mapFrame h0 fun px c => ?_
  unfold shuffleBody
  no_err

example : shuffle x64 .rgb .bgra noMap [1, 2, 3, 4, 5, 6, 0, 7, 8, 9, 10, 11, 12, 0] 7
    (List.replicate 18 77) 9 2 2
    = .ok [3, 2, 1, 255, 6, 5, 4, 255, 77, 9, 8, 7, 255, 12, 11, 10, 255, 77] := by decide
example : GoodDst 14 7 2 2 3 ∧ GoodDst 18 9 2 2 4 :=
  ⟨⟨by unfold U32; decide, by decide, by unfold FullRows; decide, by decide⟩,
    by unfold U32; decide, by decide, by unfold FullRows; decide, by decide⟩

/-! ## C38: words -/

theorem or_fields {a b c d j k : Nat} (hd : d < 2 ^ j) (hc : c * 2 ^ j + d < 2 ^ k)
    (hb : b * 2 ^ k + (c * 2 ^ j + d) < 2 ^ l) :
    ((a <<< l) ||| (b <<< k)) ||| ((c <<< j) ||| d)
      = a * 2 ^ l + b * 2 ^ k + c * 2 ^ j + d := by
  rw [Nat.or_assoc, ← Nat.shiftLeft_add_eq_or_of_lt hd, Nat.shiftLeft_eq c,
    ← Nat.shiftLeft_add_eq_or_of_lt hc, Nat.shiftLeft_eq b, ← Nat.shiftLeft_add_eq_or_of_lt hb,
    Nat.shiftLeft_eq a]
  omega

theorem word30_lt (l : Rgb30) {r g b a : Nat} (hr : r < 1024) (hg : g < 1024) (hb : b < 1024)
    (ha : a < 4) : word30 l r g b a < 2 ^ 32 := by
  cases l <;> simp only [word30] <;> omega

/-- The word `pack_w_a` builds, before the byte order is applied. -/
theorem packWA_host (e : HostOrder) (l : Rgb30) {r g b a : Nat} (hr : r < 1024) (hg : g < 1024)
    (hb : b < 1024) (ha : a < 4) : l.packWA e .host r g b a = word30 l r g b a := by
  have hlt := word30_lt l hr hg hb ha
  have hA : ∀ r g b a, r < 1024 → g < 1024 → b < 1024 → ((a <<< 30) ||| (b <<< 20) ||| (g <<< 10) ||| r)
      = a * 2 ^ 30 + b * 2 ^ 20 + g * 2 ^ 10 + r := by
    intro r g b a hr hg hb
    rw [Nat.or_assoc, or_fields (by norm_num; omega) (by norm_num; omega) (by norm_num; omega)]
  have hR : ∀ r g b a, a < 4 → g < 1024 → b < 1024 → ((r <<< 22) ||| (g <<< 12) ||| (b <<< 2) ||| a)
      = r * 2 ^ 22 + g * 2 ^ 12 + b * 2 ^ 2 + a := by
    intro r g b a hr hg hb
    rw [Nat.or_assoc, or_fields (by norm_num; omega) (by norm_num; omega) (by norm_num; omega)]
  unfold Rgb30.packWA
  cases l <;> simp only [word30] at hlt ⊢
  · rw [hA _ _ _ _ hr hg hb, Nat.mod_eq_of_lt hlt]
  · rw [hA _ _ _ _ hb hg hr, Nat.mod_eq_of_lt hlt]
  · rw [hR _ _ _ _ ha hg hb, Nat.mod_eq_of_lt hlt]
  · rw [hR _ _ _ _ ha hg hr, Nat.mod_eq_of_lt hlt]

theorem pack_eq (e : HostOrder) (o : ByteOrder30) (l : Rgb30) (r g b : Nat) :
    l.pack e o r g b = l.packWA e o r g b 3 := by
  cases l <;> simp only [Rgb30.pack, Rgb30.packWA, Nat.or_assoc]

theorem packWA_net (e : HostOrder) (l : Rgb30) (r g b a : Nat) :
    l.packWA e .network r g b a = toBe e (l.packWA e .host r g b a) := rfl

theorem digits {v : Nat} (hv : v < 2 ^ 32) : ∃ a b c d, a < 256 ∧ b < 256 ∧ c < 256 ∧ d < 256 ∧
    v = a + 256 * b + 65536 * c + 16777216 * d :=
  ⟨v % 256, v / 256 % 256, v / 65536 % 256, v / 16777216, by omega, by omega, by omega, by omega,
    by omega⟩

theorem digit_eqs {a b c d : Nat} (ha : a < 256) (hb : b < 256) (hc : c < 256) (hd : d < 256) :
    (a + 256 * b + 65536 * c + 16777216 * d) % 256 = a ∧
    (a + 256 * b + 65536 * c + 16777216 * d) / 256 % 256 = b ∧
    (a + 256 * b + 65536 * c + 16777216 * d) / 65536 % 256 = c ∧
    (a + 256 * b + 65536 * c + 16777216 * d) / 16777216 % 256 = d ∧
    (a + 256 * b + 65536 * c + 16777216 * d) / 16777216 = d := by omega

theorem swap_digits {a b c d : Nat} (ha : a < 256) (hb : b < 256) (hc : c < 256) (hd : d < 256) :
    swap32 (a + 256 * b + 65536 * c + 16777216 * d) = d + 256 * c + 65536 * b + 16777216 * a := by
  obtain ⟨h0, h1, h2, h3, -⟩ := digit_eqs ha hb hc hd
  unfold swap32
  rw [h0, h1, h2, h3]
  rfl

/-- C38: the bytes stored for a pixel are those of its word, most significant first in network order
on every machine. -/
theorem c38_bytes (e : HostOrder) (o : ByteOrder30) (l : Rgb30) {r g b a : Nat} (hr : r < 1024)
    (hg : g < 1024) (hb : b < 1024) (ha : a < 4) :
    neBytes e (l.packWA e o r g b a) = pixel30 e o l r g b a := by
  have hlt := word30_lt l hr hg hb ha
  have key : ∀ v < 2 ^ 32, neBytes e (match o with | .host => v | .network => toBe e v)
      = bytes30 (bigFirst e o) v := by
    intro v hv
    obtain ⟨a, b, c, d, ha, hb, hc, hd, rfl⟩ := digits hv
    obtain ⟨h0, h1, h2, h3, h4⟩ := digit_eqs ha hb hc hd
    obtain ⟨g0, g1, g2, g3, g4⟩ := digit_eqs hd hc hb ha
    have e8 : 2 ^ 8 = 256 := rfl
    have e16 : 2 ^ 16 = 65536 := rfl
    have e24 : 2 ^ 24 = 16777216 := rfl
    cases e <;> cases o <;>
      simp only [neBytes, leBytes, toBe, swap_digits ha hb hc hd, bytes30, bigFirst, e8, e16, e24, h0,
        h1, h2, h4, g0, g1, g2, g4, Nat.mod_eq_of_lt hd, Nat.mod_eq_of_lt ha] <;> rfl
  have hp := packWA_host e l hr hg hb ha
  have := key _ hlt
  cases o
  · rw [hp]; exact this
  · rw [packWA_net, hp]; exact this

theorem unpack_word (e : HostOrder) (l : Rgb30) {v : Nat} (hv : v < 2 ^ 32) :
    ∃ r g b a, r < 1024 ∧ g < 1024 ∧ b < 1024 ∧ a < 4 ∧ v = word30 l r g b a ∧
      l.unpack e .host v = (r, g, b, a) := by
  have h1 : ∀ x, x &&& 0x3ff = x % 1024 := fun x => Nat.and_two_pow_sub_one_eq_mod x 10
  have h2 : ∀ x, x &&& 3 = x % 4 := fun x => Nat.and_two_pow_sub_one_eq_mod x 2
  cases l <;> simp only [Rgb30.unpack, h1, h2, Nat.shiftRight_eq_div_pow, word30] <;>
    refine ⟨_, _, _, _, ?_, ?_, ?_, ?_, ?_, rfl⟩ <;> omega

theorem word30_inj (l : Rgb30) {r g b a r' g' b' a' : Nat} (hr : r < 1024) (hg : g < 1024)
    (hb : b < 1024) (ha : a < 4) (hr' : r' < 1024) (hg' : g' < 1024) (hb' : b' < 1024) (ha' : a' < 4)
    (h : word30 l r g b a = word30 l r' g' b' a') : r = r' ∧ g = g' ∧ b = b' ∧ a = a' := by
  cases l <;> simp only [word30] at h <;> omega

/-- C38: unpacking a packed pixel returns its fields, for every layout, byte order and machine. -/
theorem c38_unpack_pack (e : HostOrder) (o : ByteOrder30) (l : Rgb30) {r g b a : Nat} (hr : r < 1024)
    (hg : g < 1024) (hb : b < 1024) (ha : a < 4) :
    l.unpack e o (l.packWA e o r g b a) = (r, g, b, a) := by
  have hlt := word30_lt l hr hg hb ha
  have hp := packWA_host e l hr hg hb ha
  have hu : l.unpack e .host (word30 l r g b a) = (r, g, b, a) := by
    obtain ⟨r', g', b', a', q1, q2, q3, q4, q5, q6⟩ := unpack_word e l hlt
    obtain ⟨rfl, rfl, rfl, rfl⟩ := word30_inj l hr hg hb ha q1 q2 q3 q4 q5
    exact q6
  have hbe : ∀ v < 2 ^ 32, toBe e (toBe e v) = v := by
    intro v hv
    cases e
    · obtain ⟨a, b, c, d, ha, hb, hc, hd, rfl⟩ := digits hv
      simp only [toBe]
      rw [swap_digits ha hb hc hd, swap_digits hd hc hb ha]
    · rfl
  cases o
  · rw [hp, hu]
  · have : l.unpack e .network (l.packWA e .network r g b a)
        = l.unpack e .host (toBe e (toBe e (word30 l r g b a))) := by
      rw [packWA_net, hp]
      rfl
    rw [this, hbe _ hlt, hu]

/-! ## C38: frames -/

theorem to10_eq {d x : Nat} (hd : d = 8 ∨ d = 10 ∨ d = 12) (hx : x < 2 ^ d) :
    to10 d x = comp10 d x ∧ comp10 d x < 1024 := by
  rcases hd with rfl | rfl | rfl <;> simp only [to10, comp10, Nat.shiftRight_eq_div_pow] <;>
    norm_num at hx ⊢ <;> omega

theorem to2_eq {d x : Nat} (hd : d = 8 ∨ d = 10 ∨ d = 12) (hx : x < 2 ^ d) :
    to2 d x = x / 2 ^ (d - 2) ∧ x / 2 ^ (d - 2) < 4 := by
  rcases hd with rfl | rfl | rfl <;> simp only [to2, Nat.shiftRight_eq_div_pow] <;>
    norm_num at hx ⊢ <;> omega

theorem store4_ok {e : HostOrder} {v : Nat} {c : Buf} (hc : c.length = 4) :
    store4 e v c = .ok (neBytes e v) := by
  match c, hc with
  | [_, _, _, _], _ => cases e <;> rfl

theorem pixel30_length (e : HostOrder) (o : ByteOrder30) (l : Rgb30) (r g b a : Nat) :
    (pixel30 e o l r g b a).length = 4 := by
  unfold pixel30 bytes30
  cases bigFirst e o <;> rfl

theorem idx_comps {ch : Channels} {p : Buf} {o : Nat} (hl : p.length = ch.count) :
    idx p ch.rOff = .ok (red ch p) ∧ idx p ch.gOff = .ok (green ch p) ∧
    idx p ch.bOff = .ok (blue ch p) ∧ (ch.hasAlpha = true → idx p 3 = .ok (alphaOr o ch p)) := by
  cases ch <;> simp only [Channels.count] at hl <;>
    (first
      | obtain ⟨_, _, _, rfl⟩ := List.length_eq_three.1 hl
      | obtain ⟨_, _, _, _, rfl⟩ := length_four hl) <;>
    refine ⟨rfl, rfl, rfl, fun h => ?_⟩ <;> first | rfl | cases h

theorem toAr30Body_ok {e : HostOrder} {o : ByteOrder30} {l : Rgb30} {d : Nat} {ch : Channels}
    {s : Src} (hd : d = 8 ∨ d = 10 ∨ d = 12) (hs : s.cn = ch.count) :
    BodyOk (2 ^ d) 4 [s] (toAr30Body e o l d ch)
      (fun px => let p := px.getD 0 []
        pixel30 e o l (comp10 d (red ch p)) (comp10 d (green ch p)) (comp10 d (blue ch p))
          (alphaOr (2 ^ d - 1) ch p / 2 ^ (d - 2))) where
  len px := pixel30_length ..
  ok px c hp hc := by
    obtain ⟨hl, hb⟩ := hp.pixel (j := 0) (s := s) rfl
    rw [hs] at hl
    unfold toAr30Body
    generalize px.getD 0 [] = p at hl hb ⊢
    obtain ⟨c1, c2, c3⟩ := comps_lt (Nat.two_pow_pos d) ch hb
    obtain ⟨r1, r2⟩ := to10_eq hd c1
    obtain ⟨g1, g2⟩ := to10_eq hd c2
    obtain ⟨b1, b2⟩ := to10_eq hd c3
    have ho : (2 ^ d - 1) / 2 ^ (d - 2) = 3 := by rcases hd with rfl | rfl | rfl <;> rfl
    have hA : alphaOr (2 ^ d - 1) ch p < 2 ^ d := by
      have : 2 ^ d - 1 < 2 ^ d := Nat.sub_lt (Nat.two_pow_pos d) Nat.one_pos
      cases ch <;> simp only [alphaOr] <;> try exact this
      all_goals
        rw [List.getD_eq_getElem?_getD]
        cases e : p[3]? with
        | none => exact this
        | some a => exact hb a (List.mem_of_getElem? e)
    obtain ⟨a1, a2⟩ := to2_eq hd hA
    have key := c38_bytes e o l r2 g2 b2 a2
    rw [← key]
    obtain ⟨i1, i2, i3, i4⟩ := idx_comps hl
    simp only [i1, i2, i3, Outcome.bind_ok]
    cases ha : ch.hasAlpha with
    | true =>
      rw [if_pos rfl, i4 ha]
      simp only [Outcome.bind_ok]
      rw [r1, g1, b1, a1]
      exact store4_ok hc
    | false =>
      have hz : alphaOr (2 ^ d - 1) ch p = 2 ^ d - 1 := by cases ch <;> first | rfl | cases ha
      rw [if_neg (by decide), r1, g1, b1, pack_eq, hz, ho]
      exact store4_ok hc

/-- C38, packing an image: every pixel's word holds its colours in 10 bits and its alpha in 2 (3 when
there is none); nothing else is written. -/
theorem c38_pack_image (e : HostOrder) (o : ByteOrder30) (l : Rgb30) (d : Nat)
    (hD : d = 8 ∨ d = 10 ∨ d = 12) (ch : Channels) (ar30 : Buf) (aStride : Nat) (rgba : Buf)
    (stride w h : Nat) (hw : 0 < w) (hh : 0 < h) (hw32 : U32 w) (hh32 : U32 h)
    (ha : GoodDst ar30.length aStride w h 4) (hs : GoodDst rgba.length stride w h ch.count)
    (hb : ∀ a ∈ rgba, a < 2 ^ d) :
    ∃ out, rgbxToAr30 x64 e o l d ch ar30 aStride rgba stride w h = .ok out ∧
      FrameSpec out ar30 aStride w h 4 (fun x y =>
        let p := pixelAt rgba stride ch.count x y
        pixel30 e o l (comp10 d (red ch p)) (comp10 d (green ch p)) (comp10 d (blue ch p))
          (alphaOr (2 ^ d - 1) ch p / 2 ^ (d - 2))) := by
  have hg : ∀ s ∈ [(⟨rgba, stride, ch.count, true⟩ : Src)], GoodSrc s w h (2 ^ d) := by
    intro s hs'
    rw [List.mem_singleton] at hs'
    subst hs'
    exact goodSrc_packed (count_pos ch) hs hb
  unfold rgbxToAr30
  rw [ha.accepted hw hh hw32 hh32 (by decide) (by decide),
    hs.accepted hw hh hw32 hh32 (count_pos ch) (count_le ch)]
  simp only [Outcome.bind_ok]
  obtain ⟨out, e1, h1⟩ := mapFrame_spec (cutDst := true) hw (by decide) hg
    (toAr30Body_ok (e := e) (o := o) (l := l) hD rfl)
    (noMap_ok (R := fun _ _ => False)) ha.cols_le ha.full (Or.inl rfl)
  exact ⟨out, e1, frameRel_or_eq h1 fun x y p _ _ hp => hp.resolve_right id⟩

theorem alpha_expand : ∀ a < 4, ((a <<< 6) ||| (a <<< 4) ||| (a <<< 2) ||| a) % 256 = 85 * a := by
  decide

theorem fromAr30Body_ok {e : HostOrder} {o : ByteOrder30} {l : Rgb30} {ch : Channels}
    {s : Src} (hs : s.cn = 4) :
    BodyOk 256 ch.count [s] (fromAr30Body e o l ch)
      (fun px =>
        let u := l.unpack e .host (wordAt30 (bigFirst e o) (px.getD 0 []))
        layout ch (u.1 / 4) (u.2.1 / 4) (u.2.2.1 / 4) (85 * u.2.2.2)) where
  len px := layout_length ..
  ok px c hp hc := by
    obtain ⟨hl, hb⟩ := hp.pixel (j := 0) (s := s) rfl
    rw [hs] at hl
    unfold fromAr30Body
    generalize px.getD 0 [] = p at hl hb ⊢
    match p, hl with
    | [x, y, z, t], _ =>
      have hx := hb x (by simp)
      have hy := hb y (by simp)
      have hz := hb z (by simp)
      have ht := hb t (by simp)
      simp only [idx, List.getElem?_cons_zero, List.getElem?_cons_succ, Outcome.bind_ok]
      have hword : l.unpack e o (fromNe e x y z t)
          = l.unpack e .host (wordAt30 (bigFirst e o) [x, y, z, t]) := by
        cases e <;> cases o <;>
          simp only [Rgb30.unpack, fromNe, wordAt30, bigFirst, toBe, swap32, if_true, if_false,
            List.reverse_cons, List.reverse_nil, List.nil_append, List.cons_append,
            List.getD_cons_zero, List.getD_cons_succ, Bool.false_eq_true]
        · rw [show x + 256 * y + 65536 * z + 16777216 * t
            = t * 2 ^ 24 + z * 2 ^ 16 + y * 2 ^ 8 + x by omega]
        · rw [show (x + 256 * y + 65536 * z + 16777216 * t) / 16777216 % 256 +
            256 * ((x + 256 * y + 65536 * z + 16777216 * t) / 65536 % 256) +
            65536 * ((x + 256 * y + 65536 * z + 16777216 * t) / 256 % 256) +
            16777216 * ((x + 256 * y + 65536 * z + 16777216 * t) % 256)
            = x * 2 ^ 24 + y * 2 ^ 16 + z * 2 ^ 8 + t by omega]
        · rw [show t + 256 * z + 65536 * y + 16777216 * x
            = x * 2 ^ 24 + y * 2 ^ 16 + z * 2 ^ 8 + t by omega]
        · rw [show t + 256 * z + 65536 * y + 16777216 * x
            = x * 2 ^ 24 + y * 2 ^ 16 + z * 2 ^ 8 + t by omega]
      rw [hword]
      have hv : wordAt30 (bigFirst e o) [x, y, z, t] < 2 ^ 32 := by
        unfold wordAt30
        cases bigFirst e o <;> simp <;> omega
      obtain ⟨r, g, b, a, q1, q2, q3, q4, -, q6⟩ := unpack_word e l hv
      rw [q6]
      simp only [Nat.shiftRight_eq_div_pow]
      rw [alpha_expand a q4, Nat.mod_eq_of_lt (show r / 2 ^ 2 < 256 by omega),
        Nat.mod_eq_of_lt (show g / 2 ^ 2 < 256 by omega),
        Nat.mod_eq_of_lt (show b / 2 ^ 2 < 256 by omega)]
      exact storePix_ok hc

/-- C38, unpacking an image to 8 bits: every colour keeps its 8 high bits, alpha is scaled to 0, 85,
170 or 255; nothing else is written. -/
theorem c38_unpack_image (e : HostOrder) (o : ByteOrder30) (l : Rgb30) (ch : Channels) (ar30 : Buf)
    (aStride : Nat) (rgba : Buf) (stride w h : Nat) (hw : 0 < w) (hh : 0 < h) (hw32 : U32 w)
    (hh32 : U32 h) (ha : GoodDst ar30.length aStride w h 4) (hb : Bytes ar30)
    (hs : GoodDst rgba.length stride w h ch.count) :
    ∃ out, ar30ToRgbx x64 e o l ch ar30 aStride rgba stride w h = .ok out ∧
      FrameRel out rgba stride w h ch.count (fun x y p =>
        ∃ r g b a, r < 1024 ∧ g < 1024 ∧ b < 1024 ∧ a < 4 ∧
          wordAt30 (bigFirst e o) (pixelAt ar30 aStride 4 x y) = word30 l r g b a ∧
          p = layout ch (r / 4) (g / 4) (b / 4) (85 * a)) := by
  have hg : ∀ s ∈ [(⟨ar30, aStride, 4, true⟩ : Src)], GoodSrc s w h 256 := by
    intro s hs'
    rw [List.mem_singleton] at hs'
    subst hs'
    exact goodSrc_packed (by decide) ha hb
  unfold ar30ToRgbx
  rw [ha.accepted hw hh hw32 hh32 (by decide) (by decide),
    hs.accepted hw hh hw32 hh32 (count_pos ch) (count_le ch)]
  simp only [Outcome.bind_ok]
  obtain ⟨out, e1, h1⟩ := mapFrame_spec (cutDst := true) hw (count_pos ch) hg
    (fromAr30Body_ok (e := e) (o := o) (l := l) (ch := ch) rfl)
    (noMap_ok (R := fun _ _ => False)) hs.cols_le hs.full (Or.inl rfl)
  refine ⟨out, e1, h1.1, fun x y hx hy => ?_, h1.2.2⟩
  have hp := (h1.2.1 x y hx hy).resolve_right id
  have hl := GoodDst_pixel ha hx hy
  have hpb : ∀ a ∈ pixelAt ar30 aStride 4 x y, a < 256 := mem_pixelAt hb
  have hv : wordAt30 (bigFirst e o) (pixelAt ar30 aStride 4 x y) < 2 ^ 32 := by
    generalize pixelAt ar30 aStride 4 x y = p at hl hpb
    match p, hl with
    | [x, y, z, t], _ =>
      have hx := hpb x (by simp)
      have hy := hpb y (by simp)
      have hz := hpb z (by simp)
      have ht := hpb t (by simp)
      unfold wordAt30
      cases bigFirst e o <;> simp <;> omega
  obtain ⟨r, g, b, a, q1, q2, q3, q4, q5, q6⟩ := unpack_word e l hv
  refine ⟨r, g, b, a, q1, q2, q3, q4, q5, ?_⟩
  rw [hp]
  show (let u := l.unpack e .host (wordAt30 (bigFirst e o) (pixelAt ar30 aStride 4 x y))
    layout ch (u.1 / 4) (u.2.1 / 4) (u.2.2.1 / 4) (85 * u.2.2.2)) = _
  rw [q6]

theorem wordAt30_bytes30 {big : Bool} {v : Nat} (hv : v < 2 ^ 32) : wordAt30 big (bytes30 big v) = v := by
  cases big <;> simp [wordAt30, bytes30] <;> omega

theorem bytes30_lt {big : Bool} {v : Nat} (hv : v < 2 ^ 32) : ∀ a ∈ bytes30 big v, a < 256 := by
  cases big <;> simp [bytes30] <;> omega

/-- C38: 8-bit RGB to any 30-bit layout and byte order and back returns the same colours; alpha comes
back with its two high bits repeated. -/
theorem c38_round_trip (e : HostOrder) (o : ByteOrder30) (l : Rgb30) (ch ch' : Channels) (ar30 : Buf)
    (aStride : Nat) (rgba : Buf) (stride : Nat) (dst : Buf) (stride' w h : Nat) (hw : 0 < w)
    (hh : 0 < h) (hw32 : U32 w) (hh32 : U32 h) (ha : GoodDst ar30.length aStride w h 4)
    (hab : Bytes ar30) (hs : GoodDst rgba.length stride w h ch.count) (hb : Bytes rgba)
    (hd : GoodDst dst.length stride' w h ch'.count) :
    ∃ mid out, rgbxToAr30 x64 e o l 8 ch ar30 aStride rgba stride w h = .ok mid ∧
      ar30ToRgbx x64 e o l ch' mid aStride dst stride' w h = .ok out ∧
      FrameRel out dst stride' w h ch'.count (fun x y p =>
        let s := pixelAt rgba stride ch.count x y
        p = layout ch' (red ch s) (green ch s) (blue ch s) (85 * (alphaOr 255 ch s / 64))) := by
  obtain ⟨mid, e1, h1⟩ := c38_pack_image e o l 8 (Or.inl rfl) ch ar30 aStride rgba stride w h hw hh
    hw32 hh32 ha hs hb
  have hf : ∀ x y, x < w → y < h →
      let p := pixelAt rgba stride ch.count x y
      comp10 8 (red ch p) < 1024 ∧ comp10 8 (green ch p) < 1024 ∧ comp10 8 (blue ch p) < 1024 ∧
      alphaOr (2 ^ 8 - 1) ch p / 2 ^ (8 - 2) < 4 ∧ red ch p < 256 ∧ green ch p < 256 ∧
      blue ch p < 256 := by
    intro x y hx hy p
    have hp : ∀ a ∈ p, a < 256 := mem_pixelAt hb
    obtain ⟨c1, c2, c3⟩ := comps_lt (by decide) ch hp
    have hA : alphaOr 255 ch p < 256 := by
      cases ch <;> simp only [alphaOr] <;> try decide
      all_goals
        rw [List.getD_eq_getElem?_getD]
        cases e : p[3]? with
        | none => decide
        | some a => exact hp a (List.mem_of_getElem? e)
    refine ⟨(to10_eq (Or.inl rfl) c1).2, (to10_eq (Or.inl rfl) c2).2, (to10_eq (Or.inl rfl) c3).2,
      ?_, c1, c2, c3⟩
    norm_num
    omega
  have hmb : Bytes mid := frameSpec_bound' h1 hab fun x y hx hy => by
    obtain ⟨k1, k2, k3, k4, -⟩ := hf x y hx hy
    exact bytes30_lt (word30_lt l k1 k2 k3 k4)
  obtain ⟨out, e2, h2⟩ := c38_unpack_image e o l ch' mid aStride dst stride' w h hw hh hw32 hh32
    (by rw [h1.1]; exact ha) hmb hd
  refine ⟨mid, out, e1, e2, h2.1, fun x y hx hy => ?_, h2.2.2⟩
  obtain ⟨r, g, b, a, q1, q2, q3, q4, q5, q6⟩ := h2.2.1 x y hx hy
  obtain ⟨k1, k2, k3, k4, k5, k6, k7⟩ := hf x y hx hy
  rw [frameSpec_pixel h1 hx hy (pixel30_length ..)] at q5
  simp only at q5
  unfold pixel30 at q5
  rw [wordAt30_bytes30 (word30_lt l k1 k2 k3 k4)] at q5
  obtain ⟨rfl, rfl, rfl, rfl⟩ := word30_inj l k1 k2 k3 k4 q1 q2 q3 q4 q5
  have hc : ∀ v < 256, comp10 8 v / 4 = v := by
    intro v hv
    simp only [comp10, if_true]
    omega
  rw [q6, hc _ k5, hc _ k6, hc _ k7]
  rfl

example : rgbxToAr30 x64 .little .network .ar30 8 .rgba (List.replicate 4 0) 4 [255, 128, 1, 200] 4 1 1
    = .ok [192, 72, 11, 255] := by decide +kernel
example : ar30ToRgbx x64 .little .network .ar30 .rgba [192, 72, 11, 255] 4 (List.replicate 4 0) 4 1 1
    = .ok [255, 128, 1, 255] := by decide +kernel

end Verif
