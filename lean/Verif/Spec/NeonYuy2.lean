import Verif.Spec.VecYuy2
/-! # What the NEON packers of packed 4:2:2 really write for 4:4:4 planes -/
namespace Verif.Spec

/-- The chroma the NEON code stores for pair `j` of a 4:4:4 row of `w` columns, `c x` being the sample of
column `x`: in a block of `2 * n` columns (32, then 16) pair `k` gets the mean of samples `k` and `k + n`
of the block, not that of its own two samples. -/
def neonChroma444 (w : Nat) (c : Nat → Nat) (j : Nat) : Nat :=
  if 2 * j < (w - 1) / 32 * 32 then mean2 (c (j / 16 * 32 + j % 16)) (c (j / 16 * 32 + j % 16 + 16))
  else mean2 (c (j / 8 * 16 + j % 8)) (c (j / 8 * 16 + j % 8 + 8))

/-- Quad `j` of row `y` after packing 4:4:4 planes with NEON; `old` is the quad the destination held.  Past
the vector code nothing is written in a row of more than 16 columns, except the half pair at the end of an
odd row. -/
def neonQuad444 (t : Yuy2) (i : Planar) (old : Buf) (j y : Nat) : Buf :=
  if 2 * j < (i.width - 1) / 16 * 16 then
    quad t (Planar.Y i (2 * j) y) (Planar.Y i (2 * j + 1) y)
      (neonChroma444 i.width (fun x => Planar.U i .yuv444 x y) j)
      (neonChroma444 i.width (fun x => Planar.V i .yuv444 x y) j)
  else if i.width ≤ 16 ∨ 2 * j + 1 = i.width then planarQuad444 t i j y
  else old

end Verif.Spec
