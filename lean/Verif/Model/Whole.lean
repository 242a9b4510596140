import Verif.Model.Program
import Verif.Model.Disk
import Verif.Model.Keypoints

/-!
One run of the program from its images, or from a keypoint file, to the files it leaves: calibrate.cpp:9-85 with
`boardExtraction` (McCalib.cpp:219-226), on the file system of `Model/Disk`.

Simplified: the file system is read before the output directory is made, and written after everything has been computed.
`Model/Order` follows the order of the code; C90 says when this is the same.
-/
namespace Verif.Whole
open Verif Verif.Folders Verif.Start Verif.Disk Verif.Pipeline Verif.Ransac Verif.Program

/-- The files of a run whose pixels are pairs of reals and whose paths are strings. -/
abbrev Files (V G Pt K Img : Type) := Disk (Content V G Pt K Img (KeyFile (ℝ × ℝ) Str))

/-- The configuration of a run, and the parts of it that are not modelled. -/
structure Setup (V G Pt K K' Q Img : Type) where
  /-- `number_camera` -/
  nbCam : Nat
  /-- are assertions compiled in? -/
  debug : Bool
  /-- detection: as in `Start.cameraTasks` -/
  fitLine : List (Q × Q) → Q × Q × Q × Q
  cfg : Detection.Cfg
  geoms : List (Detection.Geom Q)
  raw : Str → Option (Nat → Detection.Raw (ℝ × ℝ))
  glob : Str → List Str
  root : Str
  pre : Str
  /-- `cv::imread`: size of an image -/
  sizeOf : Str → Option (Nat × Nat)
  /-- `keypoints_path` -/
  keypoints : Str
  /-- what is read from a file that is not a keypoint file -/
  other : Content V G Pt K Img (KeyFile (ℝ × ℝ) Str) → Outcome (KeyFile (ℝ × ℝ) Str)
  /-- the boards -/
  bpts : List (List Pt)
  /-- the pose searches and the refinement of the first step -/
  search : Search Pt (ℝ × ℝ) G
  refine : Option (List (Estimated (ℝ × ℝ) G) → Outcome (List (Estimated (ℝ × ℝ) G) × ReproErr.Projection (ℝ × ℝ) G Pt K'))
  pr : ReproErr.Projection (ℝ × ℝ) G Pt K'
  /-- those of the later steps -/
  e : Estimator Pt (ℝ × ℝ) G
  n : Numerics V G
  /-- `fix_intrinsic` -/
  fix : Int
  /-- the reports; the sizes of the images are those found when the images were read -/
  en : Finish.Env V G Pt K Str Img
  /-- `camera_params_file_name` -/
  name : Str

variable {V G Pt K K' Q Img : Type}

/-- McCalib.cpp:173-175 `cv::FileStorage(p, READ)`; a directory cannot be read. -/
def readKeypoints (u : Setup V G Pt K K' Q Img) (d : Files V G Pt K Img) (p : Str) : Outcome (KeyFile (ℝ × ℝ) Str) :=
  match d.file (loc p) with
  | some (.keypoints k) => .ok k
  | some c => u.other c
  | none => .throw

/-- McCalib.cpp:172-213 -/
def load (u : Setup V G Pt K K' Q Img) (d : Files V G Pt K Img) (p : Str) : Outcome (KStore (ℝ × ℝ) Str) := do
  let k ← readKeypoints u d p
  Keypoints.load u.debug u.nbCam u.geoms.length k

/-- McCalib.cpp:140-170 with the insertions in the order `l` -/
def detect (u : Setup V G Pt K K' Q Img) (l : List (Insertion (ℝ × ℝ) Str)) : Outcome (KStore (ℝ × ℝ) Str) := do
  let sz ← imageSizes u.debug u.sizeOf u.glob u.root u.pre u.nbCam
  let s ← Store.run u.nbCam u.geoms.length l
  pure ⟨s, sz⟩

/-- McCalib.cpp:219-226 -/
def extract (u : Setup V G Pt K K' Q Img) (l : List (Insertion (ℝ × ℝ) Str)) (d : Files V G Pt K Img) :
    Outcome (KStore (ℝ × ℝ) Str) :=
  boardExtraction d.has u.keypoints (load u d) (detect u l)

/-- McCalib.cpp:243-244, 185-186: the sizes found when the images were read, `im_cols_` and `im_rows_`. -/
def withSizes (en : Finish.Env V G Pt K Str Img) (sz : List (Option (Nat × Nat))) : Finish.Env V G Pt K Str Img :=
  { en with cams := en.cams.zipWith (fun c x => { c with size := x }) sz }

/-- calibrate.cpp:14-85: all that follows the extraction of the boards. -/
noncomputable def conclude [Zero K] [One K] [Group G] [SMul G Pt] [Field K'] [LinearOrder K'] (u : Setup V G Pt K K' Q Img)
    (d : Files V G Pt K Img) (k : KStore (ℝ × ℝ) Str) : Outcome (Files V G Pt K Img) := do
  let x ← ReproErr.initIntrinsic u.search u.e.garbage u.bpts k.store.obs u.refine u.pr
  let r ← Program.run u.e { u.n with boardPose := poseAt (x.1.map (·.pose)) } u.fix u.bpts k.store (x.1.map (·.obs))
  let rep ← Finish.report (withSizes u.en k.sizes) u.bpts k.store.frames r
  let kp ← Keypoints.save ⟨{ k.store with obs := x.1.map (·.obs) }, k.sizes⟩
  saveAll u.en.save u.name rep kp d

/-- calibrate.cpp:9-85: one run, with the insertions of the detection in the order `l` if images are read. -/
noncomputable def run [Zero K] [One K] [Group G] [SMul G Pt] [Field K'] [LinearOrder K'] (u : Setup V G Pt K K' Q Img)
    (l : List (Insertion (ℝ × ℝ) Str)) (d : Files V G Pt K Img) : Outcome (Files V G Pt K Img) := do
  let k ← extract u l d
  conclude u d k

end Verif.Whole
