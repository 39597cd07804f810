import Verif.Model.EncodeLoops
import Verif.Spec.Encode
/-!
# What is assumed of the vector code of the encoders

A row encoder completes some prefix of the row — it reports the number `cx` of pixels — writing
luma samples that satisfy `RY` against the pixel and chroma samples that satisfy `RU`/`RV` against
the pixels they cover, and leaves the rest of the rows alone.
-/
namespace Verif
open Spec

/-- Relations a vector encoder guarantees: luma against its pixel, Cb and Cr against the covered
pixels. -/
structure EncRel where
  y : Buf → Nat → Prop
  u : Bool → List Buf → Nat → Prop
  v : Bool → List Buf → Nat → Prop

/-- The pixels chroma sample `c` covers in one row. -/
abbrev rowBlock (row : Buf) (cn w hd c : Nat) : List Buf := block row 0 cn w 1 hd 1 c 0

/-- Number of chroma samples belonging to the first `cx` pixels of a row. -/
def chromaDone (hd cx : Nat) : Nat := (cx + (hd - 1)) / hd

/-- Contract of a row encoder: `w` pixels of `cn` components below `B`. -/
def RowEncoder.Ok (f : RowEncoder) (B cn w hd : Nat) (R : EncRel) : Prop :=
  ∀ y u v rgba : Buf, (∀ s ∈ rgba, s < B) →
    w ≤ y.length → (w - 1) / hd + 1 ≤ u.length → (w - 1) / hd + 1 ≤ v.length →
    w * cn ≤ rgba.length →
    ∃ y' u' v' cx, f y u v rgba = .ok (y', u', v', cx) ∧
      RowDone 1 w hd (fun x p => R.y (pixelAt rgba 0 cn x 0) (p.getD 0 0)) y y' cx ∧
      FrameRel u' u 0 (chromaDone hd cx) 1 1
        (fun c _ p => R.u false (rowBlock rgba cn w hd c) (p.getD 0 0)) ∧
      FrameRel v' v 0 (chromaDone hd cx) 1 1
        (fun c _ p => R.v false (rowBlock rgba cn w hd c) (p.getD 0 0))

/-- Contract of an encoder for a pair of 4:2:0 rows. -/
def RowEncoder420.Ok (f : RowEncoder420) (B cn w : Nat) (R : EncRel) : Prop :=
  ∀ y0 y1 u v rgba0 rgba1 : Buf, (∀ s ∈ rgba0, s < B) → (∀ s ∈ rgba1, s < B) →
    w ≤ y0.length → w ≤ y1.length → (w - 1) / 2 + 1 ≤ u.length → (w - 1) / 2 + 1 ≤ v.length →
    w * cn ≤ rgba0.length → w * cn ≤ rgba1.length →
    ∃ y0' y1' u' v' cx, f y0 y1 u v rgba0 rgba1 = .ok (y0', y1', u', v', cx) ∧
      RowDone 1 w 2 (fun x p => R.y (pixelAt rgba0 0 cn x 0) (p.getD 0 0)) y0 y0' cx ∧
      RowDone 1 w 2 (fun x p => R.y (pixelAt rgba1 0 cn x 0) (p.getD 0 0)) y1 y1' cx ∧
      FrameRel u' u 0 (chromaDone 2 cx) 1 1
        (fun c _ p => R.u (decide (2 * c + 1 = w)) (rowBlock rgba0 cn w 2 c ++ rowBlock rgba1 cn w 2 c) (p.getD 0 0)) ∧
      FrameRel v' v 0 (chromaDone 2 cx) 1 1
        (fun c _ p => R.v (decide (2 * c + 1 = w)) (rowBlock rgba0 cn w 2 c ++ rowBlock rgba1 cn w 2 c) (p.getD 0 0))

/-- Contract of a row encoder with interleaved chroma; Cb is element `pu` of the pair, Cr
element `pv`. -/
def RowEncoderNV.Ok (f : RowEncoderNV) (B cn w hd pu pv : Nat) (R : EncRel) : Prop :=
  ∀ y uv rgba : Buf, (∀ s ∈ rgba, s < B) →
    w ≤ y.length → 2 * ((w - 1) / hd + 1) ≤ uv.length → w * cn ≤ rgba.length →
    ∃ y' uv' cx, f y uv rgba = .ok (y', uv', cx) ∧
      RowDone 1 w hd (fun x p => R.y (pixelAt rgba 0 cn x 0) (p.getD 0 0)) y y' cx ∧
      FrameRel uv' uv 0 (chromaDone hd cx) 1 2
        (fun c _ p => R.u false (rowBlock rgba cn w hd c) (p.getD pu 0) ∧
          R.v false (rowBlock rgba cn w hd c) (p.getD pv 0))

/-- Contract of an encoder for a pair of 4:2:0 rows with interleaved chroma. -/
def RowEncoderNV420.Ok (f : RowEncoderNV420) (B cn w pu pv : Nat) (R : EncRel) : Prop :=
  ∀ y0 y1 uv rgba0 rgba1 : Buf, (∀ s ∈ rgba0, s < B) → (∀ s ∈ rgba1, s < B) →
    w ≤ y0.length → w ≤ y1.length → 2 * ((w - 1) / 2 + 1) ≤ uv.length →
    w * cn ≤ rgba0.length → w * cn ≤ rgba1.length →
    ∃ y0' y1' uv' cx, f y0 y1 uv rgba0 rgba1 = .ok (y0', y1', uv', cx) ∧
      RowDone 1 w 2 (fun x p => R.y (pixelAt rgba0 0 cn x 0) (p.getD 0 0)) y0 y0' cx ∧
      RowDone 1 w 2 (fun x p => R.y (pixelAt rgba1 0 cn x 0) (p.getD 0 0)) y1 y1' cx ∧
      FrameRel uv' uv 0 (chromaDone 2 cx) 1 2
        (fun c _ p => R.u (decide (2 * c + 1 = w)) (rowBlock rgba0 cn w 2 c ++ rowBlock rgba1 cn w 2 c) (p.getD pu 0) ∧
          R.v (decide (2 * c + 1 = w)) (rowBlock rgba0 cn w 2 c ++ rowBlock rgba1 cn w 2 c) (p.getD pv 0))

end Verif
