import Verif.Props.Hang
import Verif.Props.FromConfigExample

/-! The scene of the examples for C85 to C92 meets the hypotheses of C105. -/
namespace Verif.Props.Hang.Example
open Verif.Spec.Hang Verif.Props.Whole.Example Verif.Props.Pixels.Example Verif.Props.FromConfig.Example

theorem search_ends (m c : Nat) (ps : List (Fin 3)) (qs : List (ℝ × ℝ)) : Ends (search m c ps qs) := by
  exact ⟨C105_search _ _ _ _ _ _ _ _ _⟩

theorem brown (c : Nat) (g : Props.Pipeline.S3) (l : List (Fin 3)) : Ends (proj.brown c g l) := by
  show Ends (if l = [] then .throw else .ok _)
  split
  · exact Hang.throw
  · exact Hang.ok _

theorem steady (t : FromConfig.Tuning) (i) : SteadyNumeric (parts.numeric t i) where
  search := search_ends
  refine _ := ⟨Hang.throw, fun _ h => nomatch h⟩
  pr := ⟨brown, fun _ _ _ => Hang.ok _⟩
  later _ := search_ends
  he _ := Hang.ok _
  en := ⟨fun _ _ _ => Hang.ok _, fun _ _ _ => Hang.ok _⟩

example (half) (l) (argv : List Folders.Str) (d) :
    (FromConfig.main parts (fun _ => .ok (cf "out" 1)) half l argv d).2 ≠ .diverge :=
  C105_program steady (fun _ => Hang.throw) (fun _ => Hang.ok _) half l argv d

end Verif.Props.Hang.Example
