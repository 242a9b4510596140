import Verif.Model.Print

/-! What the program that prints boards must leave. -/
namespace Verif.Spec.Print
open Verif Verif.Folders Verif.Disk Verif.Config

variable {C Img : Type}

/-- The directory of the boards, in the working directory. -/
def folder : Loc := ⟨false, ["charuco_boards".toList]⟩

/-- The name of the file of a board, with three digits or more. -/
def boardName (i : Nat) : Str := "charuco_board_".toList ++ Images.paddedTo 3 i ++ ".bmp".toList

def place (i : Nat) : Loc := ⟨false, ["charuco_boards".toList, boardName i]⟩

/-- The value a configuration asks for, for board `i`: its own if there is one, and otherwise, if square sizes are not given
board by board, the common one. -/
def requested (f : File) (own common : String) (i : Nat) : Option Int :=
  match (ints f own)[i]? with
  | some x => some x
  | none => if reals f "square_size_per_board" = [] then some (int f common) else none

/-- The picture of board `i`: a drawing of a pattern, in the size and with the squares asked for. -/
def PictureOf (draw : Pattern → Int → Int → Outcome Img) (f : File) (i : Nat) (im : Img) : Prop :=
  ∃ p w h, requested f "number_x_square_per_board" "number_x_square" i = some (p.nx : Int) ∧
    requested f "number_y_square_per_board" "number_y_square" i = some (p.ny : Int) ∧
    requested f "resolution_x_per_board" "resolution_x" i = some w ∧
    requested f "resolution_y_per_board" "resolution_y" i = some h ∧ draw p w h = .ok im

/-- The boards are printed, and nothing else is touched. -/
structure Printed (draw : Pattern → Int → Int → Outcome Img) (ofImg : Img → C) (f : File) (d d' : Disk C) : Prop where
  dirs : ∀ x, d'.dir x = true ↔ x = folder ∨ d.dir x = true
  boards : ∀ i : Nat, (i : Int) < int f "number_board" → ∃ im, PictureOf draw f i im ∧ d'.file (place i) = some (ofImg im)
  others : ∀ x, (∀ i : Nat, (i : Int) < int f "number_board" → x ≠ place i) → d'.file x = d.file x

end Verif.Spec.Print
