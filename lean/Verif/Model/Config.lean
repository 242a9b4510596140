import Verif.Core.Outcome
import Mathlib.Data.Rat.Defs
import Mathlib.Data.Rat.Cast.Defs

/-!
Model of the configuration: the reading of the configuration file, the constructors `Calibration`
(McCalib.cpp:24-135) and `Board` (Board.cpp:22-82), the generation of the charuco patterns
(utilities.cpp:23-112) and the program `create_charuco_boards`
(apps/create_charuco_boards/src/create_charuco_boards.cpp).

Not modelled: paths, the check that the file exists, the creation of the output directory, overflow of
machine integers other than the conversions named below, rounding of `float`, the images drawn.
Assertions are taken as enabled (a failed one is `throw`).
-/
namespace Verif.Config

/-- A node of a parsed file. -/
inductive Value where
  | int (n : Int)
  | real (q : Rat)
  | ints (l : List Int)
  | reals (l : List Rat)
  | str (s : String)

/-- `cv::FileStorage`, open for reading: `fs[key]`, `none` for a missing key. -/
abbrev File := String → Option Value

/-- `fs[key] >> n` for an `int`: a missing key gives 0.  Simplified: so does a node of another type. -/
def int (f : File) (k : String) : Int :=
  match f k with
  | some (.int n) => n
  | _ => 0

/-- `fs[key] >> b` for a `bool`: read as an `int`, a missing key gives `false`. -/
def bool (f : File) (k : String) : Bool := int f k ≠ 0

/-- `fs[key] >> x` for a `float` or `double`. -/
def real (f : File) (k : String) : Rat :=
  match f k with
  | some (.int n) => n
  | some (.real q) => q
  | _ => 0

/-- `fs[key] >> v` for a `std::vector<int>`: a missing key gives the empty vector. -/
def ints (f : File) (k : String) : List Int :=
  match f k with
  | some (.ints l) => l
  | _ => []

/-- `fs[key] >> v` for a `std::vector<double>`. -/
def reals (f : File) (k : String) : List Rat :=
  match f k with
  | some (.reals l) => l
  | some (.ints l) => l.map fun n : Int => (n : Rat)
  | _ => []

/-- A vector access `v[i]` with an `int` index. -/
def idxInt (l : List α) (i : Int) : Outcome α :=
  if i < 0 then .ub else Outcome.idx l i.toNat

/-- `cv::aruco::CharucoBoard`: its size in squares and the ids of its markers. -/
structure Pattern where
  nx : Nat
  ny : Nat
  ids : List Nat
  deriving DecidableEq, Repr

/-- Number of markers OpenCV puts on a charuco board: one on each square `(x, y)` with
`y % 2 != x % 2`. -/
def markerCount (nx ny : Nat) : Nat :=
  ((List.range ny).map fun y => ((List.range nx).filter fun x => y % 2 != x % 2).length).sum

/-- OpenCV's condition on the sizes of a charuco board, checked by an assertion that throws. -/
def goodSize (nx ny : Int) (square marker : Rat) : Bool :=
  1 < nx && 1 < ny && 0 < marker && marker < square

/-- `cv::aruco::CharucoBoard::create` / the constructor without ids: markers are numbered from 0. -/
def create (nx ny : Int) (square marker : Rat) : Outcome Pattern :=
  if goodSize nx ny square marker then
    .ok ⟨nx.toNat, ny.toNat, List.range (markerCount nx.toNat ny.toNat)⟩
  else .throw

/-- The constructor of `cv::aruco::CharucoBoard` with ids (OpenCV 4.7 and later).  `checks`: whether
this version of OpenCV verifies (and throws) that there is one id per marker. -/
def createIds (checks : Bool) (nx ny : Int) (square marker : Rat) (ids : List Nat) : Outcome Pattern :=
  if goodSize nx ny square marker then
    if checks ∧ ids.length ≠ markerCount nx.toNat ny.toNat then .throw
    else .ok ⟨nx.toNat, ny.toNat, ids⟩
  else .throw

/-- utilities.cpp:34-48, body of the loop (OpenCV before 4.7); the state is `charuco_boards` and
`offset_count`. -/
def legacyStep (xs ys : List Int) (square marker : Rat) (st : List Pattern × Nat) (i : Nat) :
    Outcome (List Pattern × Nat) := do
  let nx ← Outcome.idx xs i
  let ny ← Outcome.idx ys i
  let c ← create nx ny square marker
  if i ≠ 0 then do
    let prev ← Outcome.deref st.1[i - 1]?
    let offset := prev.ids.length + st.2
    pure (st.1 ++ [{ c with ids := c.ids.map fun k => k + offset }], offset)
  else pure (st.1 ++ [c], st.2)

/-- utilities.cpp:89-109, body of the loop (OpenCV 4.7 and later). -/
def modernStep (checks : Bool) (xs ys : List Int) (square marker : Rat) (st : List Pattern × Nat)
    (i : Nat) : Outcome (List Pattern × Nat) := do
  if i = 0 then do
    let nx ← Outcome.idx xs i
    let ny ← Outcome.idx ys i
    let c ← create nx ny square marker
    pure (st.1 ++ [c], st.2)
  else do
    let prev ← Outcome.deref st.1[i - 1]?
    let offset := prev.ids.length + st.2
    let ids := (List.range prev.ids.length).map fun k => k + offset
    let nx ← Outcome.idx xs i
    let ny ← Outcome.idx ys i
    let c ← createIds checks nx ny square marker ids
    pure (st.1 ++ [c], offset)

/-- The version of OpenCV the program is compiled with. -/
inductive Version where
  | legacy
  | modern (checks : Bool)

/-- The loop body for a version of OpenCV. -/
def step : Version → List Int → List Int → Rat → Rat → List Pattern × Nat → Nat →
    Outcome (List Pattern × Nat)
  | .legacy => legacyStep
  | .modern checks => modernStep checks

/-- utilities.cpp:26-51 and 81-112 `createCharucoBoards`; the map from 0..n-1 as a list. -/
def createCharucoBoards (v : Version) (num : Nat) (xs ys : List Int) (square marker : Rat) :
    Outcome (List Pattern) := do
  let st ← Outcome.foldlM (step v xs ys square marker) ([], 0) (List.range num)
  pure st.1

/-- The data of a `Board` (Board.hpp:29-41). -/
structure Board where
  nx : Int
  ny : Int
  square : Rat
  nbPts : Nat
  pts : List (Rat × Rat × Rat)
  pattern : Pattern
  id : Nat
  deriving DecidableEq, Repr

/-- Board.cpp:64-69: the inner corners, row by row. -/
def gridPoints (nx ny : Int) (s : Rat) : List (Rat × Rat × Rat) :=
  (List.range (ny - 1).toNat).flatMap fun y : Nat =>
    (List.range (nx - 1).toNat).map fun x : Nat => ((x : Rat) * s, (y : Rat) * s, 0)

/-- Board.cpp:41-44: `boards_index`, `0..nb_board-1` if absent. -/
def boardIndexes (f : File) : List Int :=
  if ints f "boards_index" = [] then (List.range (int f "number_board").toNat).map fun i : Nat => (i : Int)
  else ints f "boards_index"

/-- Board.cpp:46-58: the size of a board.  The keys that are read but not used are left out. -/
def boardSize (f : File) (b : Nat) : Outcome (Int × Int × Rat) :=
  if reals f "square_size_per_board" = [] then
    .ok (int f "number_x_square", int f "number_y_square", real f "square_size")
  else do
    let i ← Outcome.idx (boardIndexes f) b
    let nx ← idxInt (ints f "number_x_square_per_board") i
    let ny ← idxInt (ints f "number_y_square_per_board") i
    let s ← idxInt (reals f "square_size_per_board") i
    pure (nx, ny, s)

/-- Board.cpp:22-82 `Board::Board`; `nb_pts_` is an `unsigned int`. -/
def board (f : File) (b : Nat) (pattern : Pattern) : Outcome Board := do
  let (nx, ny, s) ← boardSize f b
  pure { nx, ny, square := s, nbPts := ((nx - 1) * (ny - 1) % 2 ^ 32).toNat, pts := gridPoints nx ny s,
         pattern, id := b }

/-- What the constructor of `Calibration` sets up: the distortion models of the cameras, the option
`quaternion_averaging_`, the boards. -/
structure Setup where
  models : List Int
  quaternionAveraging : Bool
  boards : List Board
  deriving DecidableEq, Repr

/-- `std::max_element` of a nonempty vector. -/
def maximum : List Int → Int
  | [] => 0
  | [a] => a
  | a :: b :: l => max a (maximum (b :: l))

/-- McCalib.cpp:81-84: `nb_board_`. -/
def boardCount (f : File) : Nat :=
  if ints f "boards_index" ≠ [] then (ints f "boards_index").length else (int f "number_board").toNat

/-- McCalib.cpp:85-88: `max_board_idx`. -/
def maxBoardIndex (f : File) : Int :=
  if ints f "boards_index" ≠ [] then maximum (ints f "boards_index") else (boardCount f : Int) - 1

/-- McCalib.cpp:89-92: `number_x_square_per_board_`, `number_y_square_per_board_`; `assign` with a
negative count throws. -/
def squares (f : File) : Outcome (List Int × List Int) :=
  if ints f "number_x_square_per_board" = [] then
    if maxBoardIndex f + 1 < 0 then .throw
    else .ok (List.replicate (maxBoardIndex f + 1).toNat (int f "number_x_square"),
      List.replicate (maxBoardIndex f + 1).toNat (int f "number_y_square"))
  else .ok (ints f "number_x_square_per_board", ints f "number_y_square_per_board")

/-- McCalib.cpp:104-106: `distortion_per_camera`. -/
def distortions (f : File) : List Int :=
  if ints f "distortion_per_camera" = [] then
    List.replicate (int f "number_camera").toNat (int f "distortion_model")
  else ints f "distortion_per_camera"

/-- McCalib.cpp:109-113, body of the loop: the distortion model of a camera. -/
def cameraStep (f : File) (acc : List Int) (i : Nat) : Outcome (List Int) := do
  let m ← Outcome.idx (distortions f) i
  pure (acc ++ [m])

/-- McCalib.cpp:126-130: `charuco_boards.at(charuco_board_idx)`, which throws if there is none (as does
the assertion before it). -/
def patternAt (patterns : List Pattern) (i : Int) : Outcome Pattern :=
  if i < 0 then .throw else Outcome.at! patterns i.toNat

/-- McCalib.cpp:125-134, body of the loop: one board. -/
def boardStep (f : File) (patterns : List Pattern) (acc : List Board) (b : Nat) : Outcome (List Board) := do
  let i ← Outcome.idx (boardIndexes f) b
  let p ← patternAt patterns i
  let r ← board f b p
  pure (acc ++ [r])

/-- McCalib.cpp:24-135 `Calibration::Calibration`.  The number of patterns is passed as an `unsigned
int`.  `boards_index` is filled with `0..nb_board_-1` if absent (116-119): `boardIndexes`. -/
def calibration (v : Version) (f : File) : Outcome Setup := do
  if int f "number_camera" ≤ 0 then .throw
  else if int f "number_board" ≤ 0 then .throw
  else do
    let (xs, ys) ← squares f
    let models ← Outcome.foldlM (cameraStep f) [] (List.range (int f "number_camera").toNat)
    let patterns ← createCharucoBoards v ((maxBoardIndex f + 1) % 2 ^ 32).toNat xs ys
      (real f "length_square") (real f "length_marker")
    let boards ← Outcome.foldlM (boardStep f patterns) [] (List.range (boardCount f))
    pure { models, quaternionAveraging := bool f "quaternion_averaging:", boards }

/-- create_charuco_boards.cpp:71-79: the sizes of the printed boards. -/
def printedSizes (f : File) : (List Int × List Int) × (List Int × List Int) :=
  let n := (int f "number_board").toNat
  let fill := fun (l : List Int) (x : Int) =>
    if reals f "square_size_per_board" = [] then l ++ List.replicate n x else l
  ((fill (ints f "number_x_square_per_board") (int f "number_x_square"),
    fill (ints f "number_y_square_per_board") (int f "number_y_square")),
   (fill (ints f "resolution_x_per_board") (int f "resolution_x"),
    fill (ints f "resolution_y_per_board") (int f "resolution_y")))

/-- utilities.cpp:65-75 and 125-137: the pattern, width and height of one image. -/
def drawStep (rx ry : List Int) (acc : List (Pattern × Int × Int)) (e : Pattern × Nat) :
    Outcome (List (Pattern × Int × Int)) := do
  let w ← Outcome.idx rx e.2
  let h ← Outcome.idx ry e.2
  pure (acc ++ [(e.1, w, h)])

/-- create_charuco_boards.cpp:29-91 `main` from the reading of the file on: the printed boards. -/
def printBoards (v : Version) (f : File) : Outcome (List (Pattern × Int × Int)) := do
  if int f "number_board" ≤ 0 then .throw
  else do
    let ps ← createCharucoBoards v (int f "number_board").toNat (printedSizes f).1.1 (printedSizes f).1.2
      (real f "length_square") (real f "length_marker")
    Outcome.foldlM (drawStep (printedSizes f).2.1 (printedSizes f).2.2) [] ps.zipIdx

end Verif.Config
