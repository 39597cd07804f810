import Verif.Model.Loops
import Verif.Model.NvToRgba
import Verif.Spec.Frame
/-!
# What is assumed of the vector code

Most vector kernels are not modelled (the x86 kernels of the 8-bit planar
decoders are: Verif/Model/X86Decode.lean, shown to meet these contracts in
Verif/Lemmas/X86Handlers.lean).  A row handler is any function that, on rows
that are long enough, completes some prefix of the row — reporting how many
pixels — with pixels satisfying a relation `R` between source samples and
pixel, and leaves the rest of the row alone.
-/
namespace Verif
open Spec

/-- Contract of a row handler: samples below `B`, `cn` components per pixel, `w` pixels, chroma
column `x / hd` for pixel `x`; it stops at a multiple of `hd` or at the end of the row. -/
def RowHandler.Ok (f : RowHandler) (B cn w hd : Nat) (R : Nat → Nat → Nat → Buf → Prop) : Prop :=
  ∀ y u v row : Buf, (∀ s ∈ y, s < B) → (∀ s ∈ u, s < B) → (∀ s ∈ v, s < B) →
    w ≤ y.length → (w - 1) / hd + 1 ≤ u.length → (w - 1) / hd + 1 ≤ v.length →
    w * cn ≤ row.length →
    ∃ row' cx, f y u v row = .ok (row', cx) ∧
      RowDone cn w hd
        (fun x p => R (y.getD x 0) (u.getD (x / hd) 0) (v.getD (x / hd) 0) p) row row' cx

/-- Contract of a handler for a pair of 4:2:0 rows. -/
def RowHandler420.Ok (f : RowHandler420) (B cn w : Nat) (R : Nat → Nat → Nat → Buf → Prop) : Prop :=
  ∀ y0 y1 u v row0 row1 : Buf,
    (∀ s ∈ y0, s < B) → (∀ s ∈ y1, s < B) → (∀ s ∈ u, s < B) → (∀ s ∈ v, s < B) →
    w ≤ y0.length → w ≤ y1.length → (w - 1) / 2 + 1 ≤ u.length → (w - 1) / 2 + 1 ≤ v.length →
    w * cn ≤ row0.length → w * cn ≤ row1.length →
    ∃ row0' row1' cx, f y0 y1 u v row0 row1 = .ok (row0', row1', cx) ∧
      RowDone cn w 2
        (fun x p => R (y0.getD x 0) (u.getD (x / 2) 0) (v.getD (x / 2) 0) p) row0 row0' cx ∧
      RowDone cn w 2
        (fun x p => R (y1.getD x 0) (u.getD (x / 2) 0) (v.getD (x / 2) 0) p) row1 row1' cx

/-- Contract of a row handler of a semi-planar decoder; Cb is element `pu` of the pair, Cr
element `pv`. -/
def RowHandlerNV.Ok (f : RowHandlerNV) (B cn w hd pu pv : Nat)
    (R : Nat → Nat → Nat → Buf → Prop) : Prop :=
  ∀ y uv row : Buf, (∀ s ∈ y, s < B) → (∀ s ∈ uv, s < B) →
    w ≤ y.length → 2 * ((w - 1) / hd + 1) ≤ uv.length → w * cn ≤ row.length →
    ∃ row' cx, f y uv row = .ok (row', cx) ∧
      RowDone cn w hd
        (fun x p => R (y.getD x 0) (uv.getD (2 * (x / hd) + pu) 0) (uv.getD (2 * (x / hd) + pv) 0) p)
        row row' cx

/-- Contract of a handler for a pair of semi-planar 4:2:0 rows. -/
def RowHandlerNV420.Ok (f : RowHandlerNV420) (B cn w pu pv : Nat)
    (R : Nat → Nat → Nat → Buf → Prop) : Prop :=
  ∀ y0 y1 uv row0 row1 : Buf,
    (∀ s ∈ y0, s < B) → (∀ s ∈ y1, s < B) → (∀ s ∈ uv, s < B) →
    w ≤ y0.length → w ≤ y1.length → 2 * ((w - 1) / 2 + 1) ≤ uv.length →
    w * cn ≤ row0.length → w * cn ≤ row1.length →
    ∃ row0' row1' cx, f y0 y1 uv row0 row1 = .ok (row0', row1', cx) ∧
      RowDone cn w 2
        (fun x p => R (y0.getD x 0) (uv.getD (2 * (x / 2) + pu) 0) (uv.getD (2 * (x / 2) + pv) 0) p)
        row0 row0' cx ∧
      RowDone cn w 2
        (fun x p => R (y1.getD x 0) (uv.getD (2 * (x / 2) + pu) 0) (uv.getD (2 * (x / 2) + pv) 0) p)
        row1 row1' cx

end Verif
