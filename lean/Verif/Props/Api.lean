import Verif.Model.Api
import Verif.Spec.Api

/-! C52: every public conversion function applies the sampling, bit depth,
channel order and byte order its name says.

The quantifier is the set of public functions, which is finite: the dispatch
table `api` has one row for each of them, and the proof evaluates the whole
table in the kernel. -/

namespace Verif
open Spec

/-- The functions whose constants contradict their names. -/
def misnamed : List Name :=
  [w!"rgba12_to_i212_be", w!"i010_be_to_bgra", w!"i012_be_to_bgra", w!"i210_be_to_bgra",
   w!"i212_be_to_bgra", w!"rgb16_to_p216", w!"rgba16_to_p216", w!"i210_alpha_be_to_rgba10",
   w!"i212_be_alpha_to_rgba12", w!"i214_be_alpha_to_rgba14"]

/-- The public function of a name. -/
def apiRow (n : Name) : Option ApiRow := api.find? fun r => r.name == n

theorem apiRow_some {n : Name} {r : ApiRow} (h : apiRow n = some r) : r ∈ api ∧ r.name = n :=
  ⟨List.mem_of_find?_eq_some h, by simpa using List.find?_some h⟩

/-- Every public function outside `misnamed` converts from the layout its name
gives before `to` into the layout its name gives after `to`. -/
theorem c52_names_partial :
    ∀ r ∈ api, r.name ∉ misnamed →
      ∃ m, nameMeaning r.name = some m ∧ bodyMeaning r.body = some m := by
  have h : (api.all fun r => misnamed.contains r.name ||
      ((nameMeaning r.name).isSome && bodyMeaning r.body == nameMeaning r.name)) = true := by
    decide +kernel
  intro r hr hn
  have h := List.all_eq_true.1 h r hr
  rcases Bool.or_eq_true _ _ ▸ h with h | h
  · exact absurd (List.contains_iff_mem.1 h) hn
  · rw [Bool.and_eq_true] at h
    obtain ⟨m, hm⟩ := Option.isSome_iff_exists.1 h.1
    exact ⟨m, hm, (beq_iff_eq.1 h.2).trans hm⟩

/-- Every function of `misnamed` is public, its name has a meaning, its body has
a meaning, and they differ. -/
theorem c52_misnamed :
    ∀ n ∈ misnamed, ∃ r ∈ api, r.name = n ∧ ∃ m m', nameMeaning n = some m ∧
      bodyMeaning r.body = some m' ∧ m ≠ m' := by
  have h : (misnamed.all fun n => match apiRow n with
      | some r => (nameMeaning n).isSome && (bodyMeaning r.body).isSome &&
          nameMeaning n != bodyMeaning r.body
      | none => false) = true := by
    decide +kernel
  intro n hn
  have h := List.all_eq_true.1 h n hn
  cases hr : apiRow n with
  | none => rw [hr] at h; exact absurd h Bool.false_ne_true
  | some r =>
    rw [hr] at h
    simp only [Bool.and_eq_true, bne_iff_ne] at h
    obtain ⟨m, hm⟩ := Option.isSome_iff_exists.1 h.1.1
    obtain ⟨m', hm'⟩ := Option.isSome_iff_exists.1 h.1.2
    exact ⟨r, (apiRow_some hr).1, (apiRow_some hr).2, m, m', hm, hm',
      fun e => h.2 (by rw [hm, hm', e])⟩

/-- The functions of both names are public and do the same. -/
def SameFunction (a b : Name) : Prop :=
  ∃ r ∈ api, ∃ r' ∈ api, r.name = a ∧ r'.name = b ∧ r.body = r'.body

theorem sameFunction_of {a b : Name}
    (h : (match apiRow a, apiRow b with
      | some r, some r' => r.body == r'.body
      | _, _ => false) = true) : SameFunction a b := by
  cases ha : apiRow a with
  | none => rw [ha] at h; exact absurd h Bool.false_ne_true
  | some r =>
    cases hb : apiRow b with
    | none => rw [ha, hb] at h; exact absurd h Bool.false_ne_true
    | some r' =>
      rw [ha, hb] at h
      exact ⟨r, (apiRow_some ha).1, r', (apiRow_some hb).1, (apiRow_some ha).2,
        (apiRow_some hb).2, beq_iff_eq.1 h⟩

/-- The big-endian BGRA decoders are the RGBA decoders: red and blue are swapped. -/
theorem c52_be_bgra_is_rgba :
    SameFunction w!"i010_be_to_bgra" w!"i010_be_to_rgba" ∧
    SameFunction w!"i012_be_to_bgra" w!"i012_be_to_rgba" ∧
    SameFunction w!"i210_be_to_bgra" w!"i210_be_to_rgba" ∧
    SameFunction w!"i212_be_to_bgra" w!"i212_be_to_rgba" := by
  refine ⟨?_, ?_, ?_, ?_⟩ <;> exact sameFunction_of (by decide +kernel)

/-- The big-endian 4:2:2 decoders with alpha are the little-endian ones. -/
theorem c52_be_alpha_is_le :
    SameFunction w!"i210_alpha_be_to_rgba10" w!"i210_alpha_to_rgba10" ∧
    SameFunction w!"i212_be_alpha_to_rgba12" w!"i212_alpha_to_rgba12" ∧
    SameFunction w!"i214_be_alpha_to_rgba14" w!"i214_alpha_to_rgba14" := by
  refine ⟨?_, ?_, ?_⟩ <;> exact sameFunction_of (by decide +kernel)

/-- The 16-bit 4:2:2 bi-planar encoders and `rgba12_to_i212_be` are 4:2:0 encoders. -/
theorem c52_422_is_420 :
    SameFunction w!"rgb16_to_p216" w!"rgb16_to_p016" ∧
    SameFunction w!"rgba16_to_p216" w!"rgba16_to_p016" ∧
    SameFunction w!"rgba12_to_i212_be" w!"rgba12_to_i012_be" := by
  refine ⟨?_, ?_, ?_⟩ <;> exact sameFunction_of (by decide +kernel)

/-- The table has 581 functions, all but ten of them outside `misnamed`. -/
example : api.length = 581 ∧ (api.filter fun r => !misnamed.contains r.name).length = 571 := by
  decide +kernel

example : nameMeaning w!"i010_be_to_rgba" =
    some ⟨.planar .yuv .yuv420 (some 10) .big .lsb false, .rgb .rgba (some 8), false⟩ := by
  decide +kernel

example : nameMeaning w!"bgr_to_sharp_yuv422" =
    some ⟨.rgb .bgr (some 8), .planar .yuv .yuv422 (some 8) .little .lsb false, true⟩ := by
  decide +kernel

end Verif
