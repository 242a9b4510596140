import Verif.Model.Store

/-!
Model of `Calibration::saveDetectedKeypoints` (McCalib.cpp:493-548) and
`Calibration::loadDetectedKeypoints` (McCalib.cpp:172-213).

`cv::FileStorage` is taken to give back the integers, strings and floats written (its YAML encoding
is not modelled); a missing node reads as 0 / the empty list.
-/
namespace Verif

/-- The `camera_<k>` node of the keypoint file (McCalib.cpp:501-545). -/
structure CamFile (P Path : Type) where
  size : Nat × Nat
  frameIdxs : List Nat
  paths : List Path
  boardIdxs : List Nat
  pts : List (List P)
  ids : List (List Nat)
  deriving DecidableEq, Repr

/-- The whole file: `nb_camera` and the camera nodes. -/
structure KeyFile (P Path : Type) where
  nbCamera : Nat
  cams : OMap Nat (CamFile P Path)
  deriving DecidableEq, Repr

/-- A store together with the image sizes `im_cols_`, `im_rows_` of the cameras (`none`: never
assigned). -/
structure KStore (P Path : Type) where
  store : Store P Path
  sizes : List (Option (Nat × Nat))
  deriving DecidableEq, Repr

namespace Keypoints
variable {P Path : Type} [Inhabited Path]

/-- One line of the five parallel lists. -/
structure Row (P Path : Type) where
  frame : Nat
  path : Path
  board : Nat
  pts : List P
  ids : List Nat
  deriving DecidableEq, Repr

/-- McCalib.cpp:516-537: the three nested loops (frames ascending, boards ascending, observations in
insertion order).  `frame_path_[cam_idx]` of a camera that has no path there is the empty path
(`default`); that `operator[]` also stores this empty path in the frame is not modelled. -/
def rows (s : Store P Path) (c : Nat) : List (Row P Path) :=
  s.frames.flatMap fun (f, fr) =>
    (List.range s.boards.length).flatMap fun b =>
      (s.obs.filter fun o => o.cam == c && o.frame == f && o.board == b).map fun o =>
        ⟨f, (OMap.get? fr.paths c).getD default, b, o.pts, o.ids⟩

/-- McCalib.cpp:539-544. -/
def camFile (sz : Nat × Nat) (r : List (Row P Path)) : CamFile P Path :=
  { size := sz, frameIdxs := r.map (·.frame), paths := r.map (·.path), boardIdxs := r.map (·.board),
    pts := r.map (·.pts), ids := r.map (·.ids) }

/-- McCalib.cpp:500-545, one camera.  Writing the size of a camera for which no image was ever read
uses an indeterminate value. -/
def saveCam (k : KStore P Path) (m : OMap Nat (CamFile P Path)) (c : Nat) :
    Outcome (OMap Nat (CamFile P Path)) :=
  match (k.sizes[c]?).join with
  | some sz => .ok (m ++ [(c, camFile sz (rows k.store c))])
  | none => .ub

/-- McCalib.cpp:493-548 `saveDetectedKeypoints`. -/
def save (k : KStore P Path) : Outcome (KeyFile P Path) := do
  let cams ← Outcome.foldlM (saveCam k) [] (List.range k.store.cams.length)
  pure { nbCamera := k.store.cams.length, cams := cams }

/-- What reading a missing node gives. -/
def missing : CamFile P Path :=
  { size := (0, 0), frameIdxs := [], paths := [], boardIdxs := [], pts := [], ids := [] }

/-- The condition of the assertion McCalib.cpp:202-205. -/
def wellFormed (cf : CamFile P Path) : Bool :=
  decide (cf.frameIdxs.length ≠ 0) && decide (cf.frameIdxs.length = cf.paths.length) &&
  decide (cf.paths.length = cf.boardIdxs.length) && decide (cf.boardIdxs.length = cf.pts.length) &&
  decide (cf.pts.length = cf.ids.length)

/-- McCalib.cpp:207-210: one line of the lists is inserted; the lists are indexed without bound
check. -/
def insertRow (c : Nat) (cf : CamFile P Path) (s : Store P Path) (i : Nat) :
    Outcome (Store P Path) := do
  let f ← Outcome.idx cf.frameIdxs i
  let b ← Outcome.idx cf.boardIdxs i
  let p ← Outcome.idx cf.pts i
  let d ← Outcome.idx cf.ids i
  let q ← Outcome.idx cf.paths i
  s.insertNewBoard ⟨⟨c, f, b, p, d⟩, q⟩

/-- McCalib.cpp:176-211, one camera.  `asserts`: whether `assert` is compiled in. -/
def loadCam (asserts : Bool) (file : KeyFile P Path) (k : KStore P Path) (c : Nat) :
    Outcome (KStore P Path) :=
  let cf := (OMap.get? file.cams c).getD missing
  let k := { k with sizes := k.sizes.set c (some cf.size) }
  if asserts && !wellFormed cf then .throw
  else do
    let s ← Outcome.foldlM (insertRow c cf) k.store (List.range cf.frameIdxs.length)
    pure { k with store := s }

/-- McCalib.cpp:172-213 `loadDetectedKeypoints` into freshly constructed tables. -/
def load (asserts : Bool) (nCam nBoard : Nat) (file : KeyFile P Path) : Outcome (KStore P Path) :=
  Outcome.foldlM (loadCam asserts file)
    { store := Store.init nCam nBoard, sizes := List.replicate nCam none } (List.range nCam)

end Keypoints
end Verif
