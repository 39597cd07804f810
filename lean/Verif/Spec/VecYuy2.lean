import Verif.Spec.Yuy2
import Verif.Model.X86Decode
/-!
# What the x86 code of the packed 4:2:2 converters really writes

`c x` stands for the chroma sample of column `x` of a 4:4:4 row.
-/
namespace Verif.Spec
open Verif.X86

/-- The mean of two samples, halves up. -/
def mean2 (a b : Nat) : Nat := (a + b + 1) / 2

/-- The column after the last one the vector code of a processor takes care of in a row of `w`
columns: it works in steps of 16 and leaves at least one column. -/
def yuyVecEnd (cpu : Cpu) (w : Nat) : Nat :=
  match cpu with
  | .plain => 0
  | _ => (w - 1) / 16 * 16

/-- The chroma the AVX2 packer stores for pair `k` of a block of 64 columns of a 4:4:4 row: zero for
odd pairs, and for even ones the mean of four neighbouring samples found elsewhere in the block. -/
def avx2BlockChroma (c : Nat → Nat) (k : Nat) : Nat :=
  if k % 2 = 1 then 0
  else
    let b := k / 8 % 2 * 32 + k / 16 * 16 + k / 2 % 4 * 4
    mean2 (mean2 (c b) (c (b + 1))) (mean2 (c (b + 2)) (c (b + 3)))

/-- The chroma the vector code stores for pair `j` of a 4:4:4 row of `w` columns.  Blocks of 64
columns go to the AVX2 code if there is any; blocks of 32 columns are packed correctly; in the
block of 16 columns that may follow, the last four pairs get zero. -/
def vecChroma444 (cpu : Cpu) (w : Nat) (c : Nat → Nat) (j : Nat) : Nat :=
  if cpu = .avx2 ∧ 2 * j < (w - 1) / 64 * 64 then
    avx2BlockChroma (fun x => c (j / 32 * 64 + x)) (j % 32)
  else if 2 * j < (w - 1) / 32 * 32 ∨ j % 8 < 4 then mean2 (c (2 * j)) (c (2 * j + 1))
  else 0

/-- Quad `j` of row `y` after packing 4:4:4 planes on an x86 processor; `old` is the quad the
destination held.  Past the vector code nothing is written in a row of more than 16 columns, except
the half pair at the end of an odd row. -/
def x86Quad444 (cpu : Cpu) (t : Yuy2) (i : Planar) (old : Buf) (j y : Nat) : Buf :=
  if 2 * j < yuyVecEnd cpu i.width then
    quad t (Planar.Y i (2 * j) y) (Planar.Y i (2 * j + 1) y)
      (vecChroma444 cpu i.width (fun x => Planar.U i .yuv444 x y) j)
      (vecChroma444 cpu i.width (fun x => Planar.V i .yuv444 x y) j)
  else if yuyVecEnd cpu i.width = 0 ∨ 2 * j + 1 = i.width then planarQuad444 t i j y
  else old

/-- Column `x` of a row of `w` columns is written by the unpackers of an x86 processor: those the
vector code takes care of, the last one of an odd row, and everything if there is no vector code or
the row is too short for it. -/
def UnpackDone (cpu : Cpu) (w x : Nat) : Prop :=
  yuyVecEnd cpu w = 0 ∨ x < yuyVecEnd cpu w ∨ w % 2 = 1 ∧ x + 1 = w

instance (cpu : Cpu) (w x : Nat) : Decidable (UnpackDone cpu w x) := by unfold UnpackDone; infer_instance

/-- The row whose chroma ends up in chroma row `r` of a 4:2:0 image, at the pair of column `x`: the
vector code runs on both rows of the pair, and the second one has the last word. -/
def x86ChromaRow (cpu : Cpu) (w x r : Nat) : Nat :=
  if x < yuyVecEnd cpu w then 2 * r + 1 else quadRow w x (2 * r)

/-- The luma the decoders of an x86 processor work with in column `x` of a row of `w` columns: the
vector code takes samples below the luma offset for the offset. -/
def x86Luma (cpu : Cpu) (rg : YuvRange) (w x y : Nat) : Nat :=
  if x < yuyVecEnd cpu w then max y (getYuvRange 8 rg).biasY else y

/-- The pixel an x86 processor makes of the samples of column `x`, row `y`. -/
def x86YuyPixel (cpu : Cpu) (t : Yuy2) (ch : Channels) (i : Packed) (rg : YuvRange) (m : Matrix)
    (x y : Nat) : Buf :=
  fixedPixel (2 ^ 5 - 1) 6 8 (computedInverse 6 8 rg m) ch rg
    (x86Luma cpu rg i.width x (Packed.Y t i x y)) (Packed.U t i x y) (Packed.V t i x y)

end Verif.Spec
