import Verif.Model.Disk
import Verif.Model.Config

/-!
The program that prints boards: apps/create_charuco_boards/src/create_charuco_boards.cpp and `createCharucoBoardsImages`
(McCalib/src/utilities.cpp:53-76, 114-138), on the file system of `Model/Disk`.

Simplified: the pictures are what `draw` makes of a pattern and a size (`cv::aruco::CharucoBoard::draw`, `generateImage`);
`cv::imwrite` writes any picture it is given.
-/
namespace Verif.Print
open Verif Verif.Folders Verif.Start Verif.Disk Verif.Config

variable {C Img : Type}

/-- utilities.cpp:68-74, 129-135: one picture; `draw` or `generateImage` may throw, as for a size too small. -/
def paintStep (draw : Pattern → Int → Int → Outcome Img) (acc : List Img) (e : Pattern × Int × Int) : Outcome (List Img) := do
  let im ← draw e.1 e.2.1 e.2.2
  pure (acc ++ [im])

/-- utilities.cpp:53-76, 114-138: the pictures. The sizes are looked up in `Config.printBoards`. -/
def paint (draw : Pattern → Int → Int → Outcome Img) (l : List (Pattern × Int × Int)) : Outcome (List Img) :=
  Outcome.foldlM (paintStep draw) [] l

/-- create_charuco_boards.cpp:11, 14-16: the directory; a file of that name counts as existing. -/
def makeDir (d : Disk C) : Outcome (Disk C) :=
  if !d.has "charuco_boards".toList then createDirectories d "charuco_boards".toList else .ok d

/-- create_charuco_boards.cpp:19-25: one file. -/
def saveBoard (ofImg : Img → C) (d : Disk C) (e : Img × Nat) : Disk C := write d (boardFile e.2) (ofImg e.1)

/-- create_charuco_boards.cpp:10-27 `saveBoards` -/
def saveBoards (ofImg : Img → C) (boards : List Img) (d : Disk C) : Outcome (Disk C) := do
  let d ← makeDir d
  pure (boards.zipIdx.foldl (saveBoard ofImg) d)

/-- What is not modelled: the version of OpenCV, how it draws, what `cv::FileStorage` reads from a file or, if the path is
that of a directory, from nothing, and how pictures are stored. -/
structure Env (C Img : Type) where
  version : Version
  draw : Pattern → Int → Int → Outcome Img
  parse : Option C → Outcome File
  ofImg : Img → C

/-- create_charuco_boards.cpp:53-90: from the configuration file on. -/
def print (en : Env C Img) (p : Str) (d : Disk C) : Outcome (Disk C) := do
  let f ← en.parse (d.file (loc p))
  let l ← printBoards en.version f
  let ims ← paint en.draw l
  saveBoards en.ofImg ims d

/-- create_charuco_boards.cpp:29-91 `main`: the value returned, and the file system afterwards. -/
def main (en : Env C Img) (argv : List Str) (d : Disk C) : Outcome (Int × Disk C) :=
  if argv.length ≠ 2 then .ok (-1, d)
  else match argv[1]? with
    | none => .ub
    | some p =>
      if available d.has p then do
        let d' ← print en p d
        pure (0, d')
      else .ok (-1, d)

end Verif.Print
