import Verif.Spec.Disk

/-! What an interrupted run may leave behind. -/
namespace Verif.Spec.Crash
open Verif Verif.Folders Verif.Disk Verif.Spec.Disk
open Verif.Images (paddedTo)

variable {V G Pt K Img KP : Type}

/-- The directories that results need. -/
def Needed (save : Str) (rep : Finish.Reports V G Pt K Img) (x : Loc) : Prop :=
  (∃ k, x = ⟨(loc save).abs, (loc save).names.take k⟩) ∨
  (rep.detections ≠ [] ∧ x = below save ["Detection".toList]) ∨
  (rep.reprojections ≠ [] ∧ x = below save ["Reprojection".toList]) ∨
  (∃ c < rep.detections.length, x = below save ["Detection".toList, paddedTo 3 c]) ∨
  ∃ c < rep.reprojections.length, x = below save ["Reprojection".toList, paddedTo 3 c]

/-- The places of results. -/
def Result (save name : Str) (rep : Finish.Reports V G Pt K Img) (x : Loc) : Prop :=
  (∃ b ∈ cameraName name :: reportNames, x = below save [b]) ∨
  ∃ ws ∈ rep.detections ++ rep.reprojections, ∃ w ∈ ws, x = loc w.file

/-- Nothing but (perhaps damaged) results and the directories for them is new; nothing is gone. -/
structure Left (save name : Str) (rep : Finish.Reports V G Pt K Img) (d dk : Disk (Content V G Pt K Img KP)) : Prop where
  sound : Sound dk
  dirs : ∀ x, d.dir x = true → dk.dir x = true
  newDirs : ∀ x, dk.dir x = true → d.dir x = true ∨ Needed save rep x
  others : ∀ x, ¬ Result save name rep x → dk.file x = d.file x

end Verif.Spec.Crash
