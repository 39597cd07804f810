import Verif.Lemmas.DeepDecode
import Verif.Spec.Deep
/-! # High-bit-depth decoders: from loops to frames -/
namespace Verif
open Spec

/-- A planar decoder that validates and then runs the loops with a correct pixel function. -/
theorem planarDeep_spec {guard : Bool} {ch : Channels} {s : Sampling} {i : Planar} {rgba : Buf}
    {stride B : Nat} {put : Nat → Nat → Nat → Buf → Outcome Buf} {px : Nat → Nat → Nat → Buf}
    {hd : RowHandler} {R : Nat → Nat → Nat → Buf → Prop} (hi : GoodPlanar i s B)
    (hdst : GoodDst rgba.length stride i.width i.height ch.count) (hput : PutOk B ch.count put px)
    (hh : hd.Ok B ch.count i.width (hdiv s) R) :
    ∃ out, (do
        i.check x64 s
        checkRgba x64 rgba.length stride i.width i.height ch.count
        deepFrame guard ch.count put hd s i rgba stride) = .ok out ∧
      FrameRel out rgba stride i.width i.height ch.count (fun x y p =>
        p = px (Planar.Y i x y) (Planar.U i s x y) (Planar.V i s x y) ∨
        R (Planar.Y i x y) (Planar.U i s x y) (Planar.V i s x y) p) := by
  have hr := hi.rows
  have hcn := count_pos ch
  have hst : 0 < stride := Nat.lt_of_lt_of_le (Nat.mul_pos hr.wpos hcn) hdst.cols_le
  rw [hdst.accepted hi.wpos hi.hpos hi.w32 hi.h32 hcn (count_le ch), hi.accepted]
  simp only [Outcome.bind_ok]
  exact (deepFrame_rel hr hcn hput hh hdst.cols_le hdst.full).spec hcn hst hdst.cols_le hdst.full.1

/-- The bi-planar counterpart. -/
theorem nvDeep_spec {guard : Bool} {o : NVOrder} {ch : Channels} {s : Sampling} {i : BiPlanar}
    {rgba : Buf} {stride B : Nat} {put : Nat → Nat → Nat → Buf → Outcome Buf}
    {px : Nat → Nat → Nat → Buf} {hd : RowHandlerNV} {R : Nat → Nat → Nat → Buf → Prop}
    (hi : GoodBiPlanar i s B) (hdst : GoodDst rgba.length stride i.width i.height ch.count)
    (hput : PutOk B ch.count put px) (hh : hd.Ok B ch.count i.width (hdiv s) o.uPos o.vPos R) :
    ∃ out, (do
        i.check x64 s
        checkRgba x64 rgba.length stride i.width i.height ch.count
        nvDeepFrame guard ch.count o put hd s i rgba stride) = .ok out ∧
      FrameRel out rgba stride i.width i.height ch.count (fun x y p =>
        p = px (BiPlanar.Y i x y) (BiPlanar.U i s o x y) (BiPlanar.V i s o x y) ∨
        R (BiPlanar.Y i x y) (BiPlanar.U i s o x y) (BiPlanar.V i s o x y) p) := by
  have hr := hi.rows
  have hcn := count_pos ch
  have hst : 0 < stride := Nat.lt_of_lt_of_le (Nat.mul_pos hr.wpos hcn) hdst.cols_le
  rw [hdst.accepted hi.wpos hi.hpos hi.w32 hi.h32 hcn (count_le ch), hi.accepted]
  simp only [Outcome.bind_ok]
  have hU : ∀ x y, BiPlanar.U i s o x y
      = at' i.uv i.uvStride (2 * (x / hdiv s) + o.uPos) (y / vdiv s) := by
    intro x y; cases o <;> rfl
  have hV : ∀ x y, BiPlanar.V i s o x y
      = at' i.uv i.uvStride (2 * (x / hdiv s) + o.vPos) (y / vdiv s) := by
    intro x y; cases o <;> rfl
  unfold BiPlanar.Y
  simp only [hU, hV]
  exact (nvDeepFrame_rel hr hcn hput hh hdst.cols_le hdst.full).spec hcn hst hdst.cols_le hdst.full.1

/-- A frame relation that determines every pixel. -/
theorem frameRel_or_eq {out dst : Buf} {stride w h cn : Nat} {R : Nat → Nat → Buf → Prop}
    {px : Nat → Nat → Buf} (h1 : FrameRel out dst stride w h cn R)
    (h2 : ∀ x y p, x < w → y < h → R x y p → p = px x y) : FrameSpec out dst stride w h cn px :=
  frameRel_eq ⟨h1.1, fun x y hx hy => h2 x y _ hx hy (h1.2.1 x y hx hy), h1.2.2⟩

theorem toNe_eq (e : Endianness) (bp : BytesPacking) {d w : Nat} (h : w < 65536) :
    toNe e bp w (16 - d) = nativeSample e bp d w := by
  have h1 : swap16 w = 256 * (w % 256) + w / 256 := by unfold swap16; omega
  cases e <;> cases bp <;> simp only [toNe, nativeSample, fromEndian, h1]

theorem nativeSample_lt (e : Endianness) (bp : BytesPacking) {d w : Nat} (h : w < 65536) :
    nativeSample e bp d w < 65536 := by rw [← toNe_eq e bp h]; exact toNe_lt e bp h

/-- In the most-significant-bits packing every word stands for a sample of depth `d`. -/
theorem nativeSample_msb_lt (e : Endianness) {d w : Nat} (hd : d ≤ 16) (h : w < 65536) :
    nativeSample e .msb d w < 2 ^ d := by
  have h1 : nativeSample e .lsb d w < 65536 := nativeSample_lt e .lsb h
  have e1 : nativeSample e .msb d w = nativeSample e .lsb d w / 2 ^ (16 - d) := rfl
  rw [e1]
  apply Nat.div_lt_of_lt_mul
  rw [← Nat.pow_add, show 16 - d + d = 16 by omega]; exact h1

theorem fits_u16 {d : Nat} (hd : Depth d) (rg : YuvRange) (m : Matrix) :
    Fits (searchInverse 13 d rg m) 65536 65536 (2 ^ 15) := by
  have h : ∀ d ∈ allDepth, ∀ m ∈ allMatrix, ∀ r ∈ allRange,
      Fits (searchInverse 13 d r m) 65536 65536 (2 ^ 15) := by decide +kernel
  exact forall_mr (h d (mem_allDepth hd)) m rg

theorem QOk.mono {q : Int → Outcome Int} {qp : Int → Int} {a b : Int} (h : QOk q qp a)
    (hab : a ≤ b) : QOk q qp b := fun v h1 h2 => h v (by omega) (by omega)

theorem asU16_sat {d : Nat} (hd : d ≤ 16) (n : Int) :
    asU16 (max (min n (2 ^ d - 1)) 0) = saturate d n := by
  have h1 : (1 : Int) ≤ 2 ^ d := one_le_two_pow d
  have h2 : (2 : Int) ^ d ≤ 2 ^ 16 := by
    have := Nat.pow_le_pow_right (show 0 < 2 by decide) hd
    exact_mod_cast this
  unfold saturate asU16; omega

theorem asU8_sat (n : Int) : asU8 (max (min n (2 ^ 8 - 1)) 0) = saturate 8 n := by
  unfold saturate asU8; omega

end Verif
