import Verif.Model.Whole

/-!
A run that ends early: a crash, a kill or an exception while results are written (calibrate.cpp:11, 66-83).  The writes of
`Disk.saveAll` as a list of steps, each of which can be interrupted half-way.

Simplified: between two steps of writing the program computes (calibrate.cpp:66-83; see `Model/Order`); these computations
are not steps here.
-/
namespace Verif.Crash
open Verif Verif.Folders Verif.Disk

variable {V G Pt K Img KP : Type}

/-- One step of writing results. -/
inductive Step (V G Pt K Img KP : Type) where
  /-- McCalib.cpp:99-102 -/
  | saveDir
  /-- McCalib.cpp:1895-1903, 2007-2015 -/
  | kindDir (kind : Str)
  /-- McCalib.cpp:1896-1899, 1904-1906, 2008-2011, 2016-2018 -/
  | camDir (kind : Str) (c : Nat)
  /-- one file: McCalib.cpp:374-405, 414-447, 455-483, 493-548, 1979-1988, 2060-2068, 2251-2341 -/
  | put (p : Str) (v : Content V G Pt K Img KP)

/-- A step that is completed. -/
def exec (save : Str) (d : Disk (Content V G Pt K Img KP)) : Step V G Pt K Img KP → Outcome (Disk (Content V G Pt K Img KP))
  | .saveDir => makeSaveDir d save
  | .kindDir kind => Disk.kindDir save kind d
  | .camDir kind c => Disk.camDir save kind c d
  | .put p v => .ok (write d p v)

/-- McCalib.cpp:1979-1988, 2060-2068: one image. -/
def imageStep (w : Images.Written Img) : Step V G Pt K Img KP := .put w.file (.image w.image w.circles)

/-- McCalib.cpp:1893-1990, 2005-2070: one camera. -/
def camSteps (kind : Str) (e : List (Images.Written Img) × Nat) : List (Step V G Pt K Img KP) :=
  .kindDir kind :: .camDir kind e.2 :: e.1.map imageStep

/-- calibrate.cpp:75-83: the files. -/
def fileSteps (save name : Str) (rep : Finish.Reports V G Pt K Img) (kp : KP) : List (Step V G Pt K Img KP) :=
  [.put (cameraFile save name) (.cameras rep.cameras), .put (objectFile save) (.objects rep.objects),
   .put (poseFile save) (.poses rep.poses), .put (errorFile save) (.errors rep.errors), .put (keypointFile save) (.keypoints kp)]

/-- calibrate.cpp:11, 66-83: all steps. -/
def steps (save name : Str) (rep : Finish.Reports V G Pt K Img) (kp : KP) : List (Step V G Pt K Img KP) :=
  .saveDir :: (rep.detections.zipIdx.flatMap (camSteps "Detection".toList) ++
    rep.reprojections.zipIdx.flatMap (camSteps "Reprojection".toList)) ++ fileSteps save name rep kp

/-- A step that is interrupted: some of the directories are made (also, to be on the safe side, where the code would have
found that it need not make them); the file contains something else than it should. -/
inductive Torn (save : Str) (d : Disk (Content V G Pt K Img KP)) :
    Step V G Pt K Img KP → Disk (Content V G Pt K Img KP) → Prop where
  | saveDir (n : Nat) (d') (h : Outcome.foldlM mkdir d ((List.range n).map fun i =>
      (⟨(loc save).abs, (loc save).names.take (i + 1)⟩ : Loc)) = .ok d') : Torn save d .saveDir d'
  | kindDir (kind : Str) (n : Nat) (d') (h : Outcome.foldlM mkdir d ((List.range n).map fun i =>
      (⟨(loc (join save kind)).abs, (loc (join save kind)).names.take (i + 1)⟩ : Loc)) = .ok d') : Torn save d (.kindDir kind) d'
  | put (p : Str) (v v' : Content V G Pt K Img KP) : Torn save d (.put p v) (write d p v')

/-- The run ends early: some steps are completed, and perhaps the next is interrupted. -/
def Crash (save name : Str) (rep : Finish.Reports V G Pt K Img) (kp : KP) (d dk : Disk (Content V G Pt K Img KP)) : Prop :=
  ∃ done rest dm, steps save name rep kp = done ++ rest ∧ Outcome.foldlM (exec save) d done = .ok dm ∧
    (dk = dm ∨ ∃ s, rest.head? = some s ∧ Torn save dm s dk)

open Verif.Pipeline Verif.Ransac Verif.Program Verif.Whole in
/-- calibrate.cpp:14-85 without the writing: what the run has to write. -/
noncomputable def results {K' Q : Type} [Zero K] [One K] [Group G] [SMul G Pt] [Field K'] [LinearOrder K']
    (u : Setup V G Pt K K' Q Img) (k : KStore (ℝ × ℝ) Str) : Outcome (Finish.Reports V G Pt K Img × KeyFile (ℝ × ℝ) Str) := do
  let x ← ReproErr.initIntrinsic u.search u.e.garbage u.bpts k.store.obs u.refine u.pr
  let r ← Program.run u.e { u.n with boardPose := poseAt (x.1.map (·.pose)) } u.fix u.bpts k.store (x.1.map (·.obs))
  let rep ← Finish.report (withSizes u.en k.sizes) u.bpts k.store.frames r
  let kp ← Keypoints.save ⟨{ k.store with obs := x.1.map (·.obs) }, k.sizes⟩
  pure (rep, kp)

end Verif.Crash
