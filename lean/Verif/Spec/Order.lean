import Verif.Spec.Disk

/-! What a run may leave behind, however it ends. -/
namespace Verif.Spec.Order
open Verif Verif.Folders Verif.Disk Verif.Spec.Disk

/-- The places of results. -/
def ResultPlace (save name : Str) (x : Loc) : Prop :=
  (∃ b ∈ cameraName name :: reportNames, x = below save [b]) ∨ ImagePlace save x

/-- Nothing is gone; besides files at the places of results and directories for results nothing is new or changed. -/
structure Remains {C : Type} (save name : Str) (d dk : Disk C) : Prop where
  sound : Sound dk
  dirs : ∀ x, d.dir x = true → dk.dir x = true
  newDirs : ∀ x, dk.dir x = true → d.dir x = true ∨ Made save x
  others : ∀ x, ¬ ResultPlace save name x → dk.file x = d.file x

/-- Only the output directory, with the directories on the way to it, is new; all files are as before. -/
structure OnlySaveDir {C : Type} (save : Str) (d dk : Disk C) : Prop where
  dirs : ∀ x, d.dir x = true → dk.dir x = true
  newDirs : ∀ x, dk.dir x = true → d.dir x = true ∨ ∃ k, x = ⟨(loc save).abs, (loc save).names.take k⟩
  files : dk.file = d.file

/-- The path is not that of the output directory, or of a directory on the way to it. -/
def NotAbove (save p : Str) : Prop := ∀ k, loc p ≠ ⟨(loc save).abs, (loc save).names.take k⟩

/-- No keypoint file is asked for, or its path is not that of the output directory or of a directory on the way to it. -/
def Apart (save p : Str) : Prop := p = [] ∨ p = "None".toList ∨ NotAbove save p

end Verif.Spec.Order
