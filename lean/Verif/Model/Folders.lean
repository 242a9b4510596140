import Verif.Core.Outcome

/-!
Model of the image folders: `Calibration::detectBoards` (McCalib.cpp:140-170), the posting of the images
in `detectBoardsWithCamera` (McCalib.cpp:234-261), `saveBoards`
(apps/create_charuco_boards/src/create_charuco_boards.cpp:10-27), decimal text of numbers.

Strings are lists of characters.  The file system is a parameter: `glob d` is the list `cv::glob(d/"*.*")`
returns (sorted, recursive).
-/
namespace Verif.Folders

abbrev Str := List Char

/-- The character of a decimal digit. -/
def digitChar (d : Nat) : Char := Char.ofNat (48 + d)

/-- `std::to_string(n)`, `ss << n` for an unsigned number. -/
def decimal (n : Nat) : Str :=
  if n < 10 then [digitChar n] else decimal (n / 10) ++ [digitChar (n % 10)]
decreasing_by omega

/-- `std::to_string` of an `int`. -/
def decimalInt (n : Int) : Str := if n < 0 then '-' :: decimal (-n).toNat else decimal n.toNat

/-- The value of a digit, for characters that are digits. -/
def digitVal (c : Char) : Nat := c.toNat - 48

/-- `std::stoi` on digits only. -/
def value (s : Str) : Nat := s.foldl (fun a c => 10 * a + digitVal c) 0

/-- `std::stoi`, without its treatment of blanks and of text after the number. -/
def stoi : Str → Int
  | '-' :: s => -(value s : Int)
  | s => (value s : Int)

/-- `ss << std::setw(3) << std::setfill('0') << n`. -/
def padded (n : Nat) : Str := List.replicate (3 - (decimal n).length) '0' ++ decimal n

/-- `std::filesystem::path::operator/` on POSIX. -/
def join (a b : Str) : Str :=
  if b.head? = some '/' then b
  else if a = [] ∨ a.getLast? = some '/' then a ++ b
  else a ++ '/' :: b

/-- McCalib.cpp:147-150: the folder of a camera. -/
def folder (root pre : Str) (cam : Nat) : Str := join root (pre ++ padded (cam + 1))

/-- McCalib.cpp:141-142. -/
def allowed : List Str :=
  ["jpg".toList, "png".toList, "bmp".toList, "jpeg".toList, "jp2".toList, "tiff".toList]

/-- `s.find_last_of(c)`. -/
def findLast (c : Char) : Str → Option Nat
  | [] => none
  | x :: s =>
    match findLast c s with
    | some i => some (i + 1)
    | none => if x = c then some 0 else none

/-- McCalib.cpp:160-161: the text after the last full stop; `npos + 1 = 0`, so all of it if there is
none. -/
def extension (p : Str) : Str :=
  match findLast '.' p with
  | some i => p.drop (i + 1)
  | none => p

/-- McCalib.cpp:157-166: the images of a camera. -/
def images (glob : Str → List Str) (root pre : Str) (cam : Nat) : List Str :=
  (glob (folder root pre cam)).filter fun p => extension p ∈ allowed

/-- McCalib.cpp:140-170 and 248-259: the detection tasks (camera, frame, path), in the order in which
they are posted; the frame number is the position of the image. -/
def detectBoards (glob : Str → List Str) (root pre : Str) (nbCam : Nat) : List (Nat × Nat × Str) :=
  (List.range nbCam).flatMap fun cam =>
    (images glob root pre cam).zipIdx.map fun e => (cam, e.2, e.1)

/-- create_charuco_boards.cpp:17-23: the file of a printed board. -/
def boardFile (i : Nat) : Str :=
  join "charuco_boards".toList ("charuco_board_".toList ++ padded i ++ ".bmp".toList)

end Verif.Folders
