import Verif.Lemmas.NeonAr30
import Verif.Props.NeonNvP10
import Verif.Props.Ar30
/-!
# C146, C147: P010 and P210 to 30-bit RGB on 64-bit ARM
-/
namespace Verif
open Spec X86 Neon

/-! ## C146 -/

theorem ar30Coef_search (rg : YuvRange) (m : Matrix) : Ar30Coef (searchInverse 14 10 rg m) := by
  unfold Ar30Coef
  cases m <;> cases rg <;> decide +kernel

/-- What the fields red, green, blue of a 30-bit pixel receive for the components `r`, `g`, `b`. -/
def armFields (l : Rgb30) (r g b : Nat) : Nat × Nat × Nat :=
  match l with
  | .ar30 => (r ||| 3, g, b)
  | .ab30 => (r, g, b ||| 3)
  | .ra30 => (b ||| 768, g, r)
  | .ba30 => (b, g, r ||| 768)

/-- The pixel of native samples on 64-bit ARM; its alpha is 0. -/
def ar30Arm (ob : ByteOrder30) (l : Rgb30) (rg : YuvRange) (m : Matrix) (y u v : Nat) : Buf :=
  let c := neonAr30RGB (getYuvRange 10 rg) (searchInverse 14 10 rg m) y u v
  let f := armFields l c.1 c.2.1 c.2.2
  pixel30 .little ob l f.1 f.2.1 f.2.2 0

theorem or_lt_1024 {a b : Nat} (ha : a < 1024) (hb : b < 1024) : a ||| b < 1024 :=
  Nat.or_lt_two_pow (n := 10) ha hb

theorem or_swap (B G r n : Nat) : n ||| B ||| G ||| r = 0 <<< 30 ||| B ||| G ||| (r ||| n) := by
  rw [Nat.zero_shiftLeft, Nat.zero_or]; ac_rfl

theorem or_top (x G R : Nat) : 3 <<< 30 ||| x <<< 22 ||| G ||| R = (x ||| 768) <<< 22 ||| G ||| R ||| 0 := by
  rw [Nat.or_zero, Nat.shiftLeft_or_distrib, Nat.or_comm (x <<< 22) (768 <<< 22),
    show (768 <<< 22 : Nat) = 3 <<< 30 by decide]

/-- A word in the chosen byte order. -/
def ordered (ob : ByteOrder30) (v : Nat) : Nat :=
  match ob with
  | .host => v % 2 ^ 32
  | .network => toBe .little (v % 2 ^ 32)

theorem zip_bytes (ob : ByteOrder30) (l : Rgb30) {r g b : Nat} (hr : r < 1024) (hg : g < 1024) (hb : b < 1024) :
    neBytes .little (zipAr30 ob l r g b)
      = pixel30 .little ob l (armFields l r g b).1 (armFields l r g b).2.1 (armFields l r g b).2.2 0 := by
  have key : zipAr30 ob l r g b = l.packWA .little ob (armFields l r g b).1 (armFields l r g b).2.1
      (armFields l r g b).2.2 0 := by
    cases l
    · exact congrArg (ordered ob) (or_swap (b <<< 20) (g <<< 10) r 3)
    · exact congrArg (ordered ob) (or_swap (r <<< 20) (g <<< 10) b 3)
    · exact congrArg (ordered ob) (or_top b (g <<< 12) (r <<< 2))
    · exact congrArg (ordered ob) (or_top r (g <<< 12) (b <<< 2))
  rw [key]
  refine c38_bytes .little ob l ?_ ?_ ?_ (by decide) <;> cases l <;> simp only [armFields] <;>
    first | assumption | exact or_lt_1024 (by assumption) (by decide)

/-- The pixel at `(x, y)`. -/
def ar30ArmPixel (ob : ByteOrder30) (l : Rgb30) (o : NVOrder) (e : Endianness) (s : Sampling) (i : BiPlanar)
    (rg : YuvRange) (m : Matrix) (x y : Nat) : Buf :=
  ar30Arm ob l rg m (nativeSample e .msb 10 (BiPlanar.Y i x y)) (nativeSample e .msb 10 (BiPlanar.U i s o x y))
    (nativeSample e .msb 10 (BiPlanar.V i s o x y))

/-- C146: on 64-bit ARM the decoders of P010 and P210 to 30-bit RGB succeed on every good image and destination,
whatever the words stored in the image — no load or store of the vector code leaves its slice — and write exactly
the pixels of the image, each the stated function of the samples shown at it. -/
theorem c146_neon_ar30 (ob : ByteOrder30) (l : Rgb30) (o : NVOrder) (e : Endianness) (s : Sampling)
    (i : BiPlanar) (rgba : Buf) (stride : Nat) (rg : YuvRange) (m : Matrix) (hi : GoodBiPlanar i s 65536)
    (hdst : GoodDst rgba.length stride i.width i.height 4) :
    ∃ out, Neon.nvP10ToAr30 ob l o e .msb s i rgba stride rg m = .ok out ∧
      FrameRel out rgba stride i.width i.height 4 (fun x y p => p = ar30ArmPixel ob l o e s i rg m x y) := by
  have hcn : 0 < 4 := by decide
  have hst : 0 < stride := Nat.lt_of_lt_of_le (Nat.mul_pos hi.wpos hcn) hdst.cols_le
  obtain ⟨hby, hbu⟩ := deep_bias (d := 10) (.inl rfl) rg
  obtain ⟨px, hp, -⟩ := putAr30_nv (.inl rfl) e .little ob l rg m
  have hf := ar30Handler_fills (w := i.width) (ar30Coef_search rg m) hby hbu ob l o s e px
  unfold Neon.nvP10ToAr30 nvP16ToAr30
  rw [hdst.accepted hi.wpos hi.hpos hi.w32 hi.h32 hcn (by decide), hi.accepted]
  simp only [Outcome.bind_ok]
  obtain ⟨out, e1, h⟩ := (nvDeepFrame_row hi.rows hcn hp hf
    hdst.cols_le hdst.full).spec hcn hst hdst.cols_le hdst.full.1
  refine ⟨out, e1, h.1, fun x y hx hy => ?_, h.2.2⟩
  have hq : _ = ar30Px _ _ _ _ _ _ _ _ := h.2.1 x y hx hy
  have z := fun Y U V : Nat =>
    zip_bytes ob l (r := (neonAr30RGB (getYuvRange 10 rg) (searchInverse 14 10 rg m) Y U V).1)
      (g := (neonAr30RGB (getYuvRange 10 rg) (searchInverse 14 10 rg m) Y U V).2.1)
      (b := (neonAr30RGB (getYuvRange 10 rg) (searchInverse 14 10 rg m) Y U V).2.2)
      (saturate_lt 10 _) (saturate_lt 10 _) (saturate_lt 10 _)
  exact hq.trans ((z _ _ _).trans (by cases o <;> rfl))

/-! ## C147 -/

/-- C147 fails: whatever the image, the matrix, the range and the layout, every pixel has alpha 0 (fully
transparent) where the portable code writes 3 (opaque). -/
theorem c147_violated_transparent (ob : ByteOrder30) (l : Rgb30) (o : NVOrder) (e : Endianness) (s : Sampling)
    (i : BiPlanar) (rgba : Buf) (stride : Nat) (rg : YuvRange) (m : Matrix) (hi : GoodBiPlanar i s 65536)
    (hdst : GoodDst rgba.length stride i.width i.height 4) :
    ∃ out, Neon.nvP10ToAr30 ob l o e .msb s i rgba stride rg m = .ok out ∧
      ∀ x y, x < i.width → y < i.height → ∃ r g b, pixelAt out stride 4 x y = pixel30 .little ob l r g b 0 := by
  obtain ⟨out, e1, h⟩ := c146_neon_ar30 ob l o e s i rgba stride rg m hi hdst
  exact ⟨out, e1, fun x y hx hy => ⟨_, _, _, h.2.1 x y hx hy⟩⟩

/-- C147, what holds: green, for luma not below black, is that of the portable decoder or one above it (the NEON code
rounds up).  Missing: red, blue and alpha, where the claim is false, and luma below black. -/
theorem c147_green_partial (rg : YuvRange) (m : Matrix) (y u v : Nat) (h : (getYuvRange 10 rg).biasY ≤ y) :
    ar30G 10 rg m y u v ≤ (neonAr30RGB (getYuvRange 10 rg) (searchInverse 14 10 rg m) y u v).2.1 ∧
    (neonAr30RGB (getYuvRange 10 rg) (searchInverse 14 10 rg m) y u v).2.1 ≤ ar30G 10 rg m y u v + 1 := by
  have e : ((y - (getYuvRange 10 rg).biasY : Nat) : Int) = (y : Int) - (getYuvRange 10 rg).biasY := by omega
  unfold neonAr30RGB ar30G ar30Comp neonAr30Comp linG
  simp only [e]
  generalize getYuvRange 10 rg = c
  generalize searchInverse 14 10 rg m = t
  rw [Int.mul_comm ((v : Int) - _) t.g1, Int.mul_comm ((u : Int) - _) t.g2, Int.mul_comm _ t.y]
  unfold saturate roundShift
  norm_num only
  generalize t.y * ((y : Int) - c.biasY) = L
  generalize t.g1 * ((v : Int) - c.biasUv) = A
  generalize t.g2 * ((u : Int) - c.biasUv) = B
  constructor <;> omega

/-- C147 fails, colours: in `Ra30` a saturated blue comes out with its red field full and its blue field empty: red
and blue are exchanged. -/
theorem c147_violated_exchanged :
    ar30Arm .host .ra30 .full .bt709 73 1023 465 = pixel30 .little .host .ra30 1022 0 0 0 ∧
    ar30Pixel .little .host .ra30 10 .full .bt709 73 1023 465 = pixel30 .little .host .ra30 0 0 1021 3 := by
  constructor <;> decide +kernel

/-- C147 fails, black: in `Ar30` the red field of a black pixel is 3, in `Ra30` it is 768 of 1023. -/
theorem c147_violated_black :
    ar30Arm .host .ar30 .full .bt709 0 512 512 = pixel30 .little .host .ar30 3 0 0 0 ∧
    ar30Arm .host .ra30 .full .bt709 0 512 512 = pixel30 .little .host .ra30 768 0 0 0 ∧
    ar30Pixel .little .host .ra30 10 .full .bt709 0 512 512 = pixel30 .little .host .ra30 0 0 0 3 := by
  refine ⟨?_, ?_, ?_⟩ <;> decide +kernel

/-- The hypotheses are met: a row of nine pixels of a colour. -/
example : GoodBiPlanar (flatRow (501 * 64) (300 * 64) (700 * 64)) .yuv422 65536 ∧
    GoodDst (List.replicate 36 0).length 36 9 1 4 :=
  ⟨flatRow_good (by decide) (by decide) (by decide),
    ⟨by unfold U32; decide, Nat.le_refl 36, by show FullRows 36 36 1; unfold FullRows; decide, by decide⟩⟩

end Verif
