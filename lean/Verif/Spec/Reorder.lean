import Verif.Spec.Schedule
import Verif.Model.Pipeline

/-! Specification vocabulary: the same images in another order. -/
namespace Verif.Spec.Reorder
open Verif Verif.Objects Verif.Spec.Store

variable {G Pt P Path : Type}

/-- A detection in an image with another number. -/
def renamed (σ : Equiv.Perm Nat) (o : BoardObs P) : BoardObs P := { o with frame := σ o.frame }

/-- An object observation in an image with another number. -/
def renamedObj (σ : Equiv.Perm Nat) (o : ObjObs P) : ObjObs P := { o with frame := σ o.frame }

/-- `l'` holds the detections of `l`, every image with its detections in the same order; image `f` has number `σ f` in `l'`. -/
def Reordered (σ : Equiv.Perm Nat) (l l' : List (Insertion P Path)) : Prop :=
  ∀ c f, (l'.filter (byCamFrame c (σ f))).map (·.obs) = (l.filter (byCamFrame c f)).map fun a => renamed σ a.obs

/-- `oo'` holds the object observations of `oo`, image `f` having number `σ f`, in any order (the numbers of board
observations in the table of all board observations differ). -/
def SameObjects (σ : Equiv.Perm Nat) (oo oo' : List (ObjObs P)) : Prop :=
  (oo'.map Schedule.unnumbered).Perm (oo.map fun o => Schedule.unnumbered (renamedObj σ o))

/-- The pose of each object observation, when `q` gives the pose estimated from an observation. -/
def objPosesOf [Group G] (oo : List (ObjObs P)) (q : ObjObs P → G) (i : Nat) : G := ((oo[i]?).map q).getD 1

/-- Listing the poses several times does not change their average. -/
def Repeated {V : Type} (avg : List V → V) : Prop := ∀ k zs, 0 < k → avg (List.replicate k zs).flatten = avg zs

/-- Both runs succeed with related results, or both fail in the same way. -/
def SameOutcome {A B : Type} (R : A → B → Prop) : Outcome A → Outcome B → Prop
  | .ok a, .ok b => R a b
  | .ub, .ub => True
  | .throw, .throw => True
  | .diverge, .diverge => True
  | _, _ => False

/-- What is calibrated of the camera groups: numbers, reference cameras, cameras and their poses. -/
def calibrated (gs : OMap Nat (Groups.CamGroup G)) : List (Nat × Nat × Nat × OMap Nat Unit × List Nat × OMap Nat G) :=
  gs.map fun e => (e.1, e.2.id, e.2.refCam, e.2.cameras, e.2.camIdx, e.2.poses)

/-- The same calibration: the same objects and camera groups, and the same object observations up to the order and the numbers of
the images. -/
structure SameCalibration (σ : Equiv.Perm Nat) (st st' : Pipeline.State G Pt P) : Prop where
  objs : st'.objs = st.objs
  oo : SameObjects σ st.oo st'.oo
  groups : calibrated st'.t.groups = calibrated st.t.groups

/-- The numerical parts give the same in both runs, image `f` having number `σ f` in the second. -/
structure SameNumerics {V : Type} (σ : Equiv.Perm Nat) (n n' : Pipeline.Numerics V G) : Prop where
  board : n'.board = n.board
  cam : n'.cam = n.cam
  inGroup : ∀ k i f o, n'.inGroup k i (σ f) o = n.inGroup k i f o
  avg : n'.avg = n.avg
  avgV : n'.avgV = n.avgV
  toVec : n'.toVec = n.toVec
  ofVec : n'.ofVec = n.ofVec
  he : n'.he = n.he
  choose : n'.choose = n.choose

/-- In this run the pose of a board is estimated from its detection by `q`, and the pose of an object at stage `k` from its
observation by `qo k`. -/
structure PosesBy {V : Type} [Group G] [SMul G Pt] (n : Pipeline.Numerics V G) (bpts : List (List Pt)) (s : Store P Path)
    (obs : List (BoardObs P)) (q : BoardObs P → G) (qo : Nat → ObjObs P → G) : Prop where
  boards : n.boardPose = Schedule.posesOf s q
  first : ∀ objs oo, Pipeline.calibrateObjects n bpts s obs = .ok (objs, oo) →
    n.objPose 1 = objPosesOf oo (qo 1) ∧ n.objPose 2 = objPosesOf oo (qo 2)
  second : ∀ st, Pipeline.overlapping n bpts s obs = .ok st → n.objPose 4 = objPosesOf st.oo (qo 4)

/-- The pose of object `a` in camera group `i` in image `f`. -/
def poseIn {V : Type} (op : OMap (Nat × Nat) (OMap Nat V)) (i f a : Nat) : Option V := (OMap.get? op (i, f)).bind fun m => OMap.get? m a

/-- The same poses of objects in camera groups, image `f` having number `σ f`. -/
def SamePoses {V : Type} (σ : Equiv.Perm Nat) (op op' : OMap (Nat × Nat) (OMap Nat V)) : Prop :=
  ∀ i f a, poseIn op' i (σ f) a = poseIn op i f a

end Verif.Spec.Reorder
