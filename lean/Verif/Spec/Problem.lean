import Verif.Spec.Projection
import Verif.Spec.Store
import Verif.Model.Refine
import Verif.Lemmas.RigidGroup

/-!
What each refinement minimises: a list with one reprojection error per observed corner.  An error is the pixel of the
corner, projected with the intrinsics of the camera from the pose of the corner's board, minus the observed pixel.
The poses and the intrinsics are functions of the parameters; `pose` turns a pose block into a rigid motion.
-/
namespace Verif.Spec.Problem
open Verif.Refine Residual Rigid Objects Groups Verif.Spec.Store Verif.Spec.Projection

variable {G : Type}

/-- The reprojection error of a corner `p`, given in a frame whose pose relative to the camera is `X`. -/
noncomputable def reprojection (model : Int) (I : Env → Camera.Intr ℝ) (X : Env → Pose ℝ) (p : Vec3 ℝ)
    (q : ℝ × ℝ) : Term := fun e =>
  error model (Camera.getCameraMat (I e)) (Camera.getDistortionVector model (I e)) (X e • p) q

/-- One term per observed corner: `ids` and `pts` are the numbers and the pixels, `look` finds a corner by its
number. -/
def corners {C : Type} (ids : List Nat) (pts : List (ℝ × ℝ)) (look : Nat → Option C) (T : ℝ × ℝ → C → Term) :
    List Term :=
  (ids.zip pts).filterMap fun x => (look x.1).map (T x.2)

/-- Every number has a pixel and is the number of a corner. -/
def Readable {C : Type} (ids : List Nat) (pts : List (ℝ × ℝ)) (look : Nat → Option C) : Prop :=
  ids.length ≤ pts.length ∧ ∀ id ∈ ids, (look id).isSome

/-- A corner of a board. -/
def boardCorner (sc : Scene G) (b id : Nat) : Option (Vec3 ℝ) := (sc.bpts[b]?).bind (·[id]?)

/-- A corner of an object, with its board. -/
def objectCorner (sc : Scene G) (o : Object G (Vec3 ℝ)) (id : Nat) : Option (Nat × Vec3 ℝ) :=
  (o.o2b[id]?).bind fun b => (boardCorner sc b.1 b.2).map fun p => (b.1, p)

/-! ### Intrinsic refinement of a camera -/

/-- The corners of the valid board observations of a camera. -/
noncomputable def intrinsic (pose : Block → Pose ℝ) (sc : Scene G) (c : Nat) : List Term :=
  (sc.camBoards c).flatMap fun i => match sc.obs[i]? with
    | none => []
    | some bo => if bo.valid then
        corners bo.obs.ids bo.obs.pts (boardCorner sc bo.obs.board) fun q p =>
          reprojection (sc.model c) (fun e => e (.intr c)) (fun e => pose (e (.boardObs i))) p q
      else []

/-- A board observation that can be read: it exists, and if valid its board exists and its corners can be read. -/
def BoardReadable (sc : Scene G) (i : Nat) : Prop :=
  ∃ bo, sc.obs[i]? = some bo ∧ (bo.valid = true → bo.obs.board < sc.bpts.length ∧
    Readable bo.obs.ids bo.obs.pts (boardCorner sc bo.obs.board))

/-! ### Refinement of an object -/

/-- The pose of board `b` in object `o`: the reference board is the frame of the object. -/
noncomputable def boardIn (pose : Block → Pose ℝ) (o : Object G (Vec3 ℝ)) (j b : Nat) (e : Env) : Pose ℝ :=
  if b = o.refBoard then 1 else pose (e (.boardPose j b))

/-- The corners of the valid board observations of the observations of an object; the intrinsics are those before
the refinement (`e0`). -/
noncomputable def object (pose : Block → Pose ℝ) (sc : Scene G) (e0 : Env) (o : Object G (Vec3 ℝ)) : List Term :=
  (positions (fun x : ObjObs (ℝ × ℝ) => x.obj == o.id) sc.oo).flatMap fun i => match sc.oo[i]? with
    | none => []
    | some x => x.boards.flatMap fun j => match sc.obs[j]? with
      | none => []
      | some bo => if bo.valid then
          corners bo.obs.ids bo.obs.pts (boardCorner sc bo.obs.board) fun q p =>
            reprojection (sc.model bo.obs.cam) (fun _ => e0 (.intr bo.obs.cam))
              (fun e => pose (e (.objObs i)) * boardIn pose o o.id bo.obs.board e) p q
        else []

/-! ### Refinements of a camera group -/

/-- The observations made by the cameras of a group, frame by frame. -/
def views (oo : List (ObjObs (ℝ × ℝ))) (frames cams : List Nat) : List (Nat × Nat) :=
  frames.flatMap fun f =>
    (positions (fun x : ObjObs (ℝ × ℝ) => x.frame == f && decide (x.cam ∈ cams)) oo).map fun i => (f, i)

/-- The pose that maps the frame of the group to camera `c`: the reference camera is the frame of the group. -/
noncomputable def cameraIn (pose : Block → Pose ℝ) (g : CamGroup G) (c : Nat) (e : Env) : Pose ℝ :=
  if c = g.refCam then 1 else pose (e (.camPose g.id c))

/-- Group alone: the points of the objects are fixed. -/
noncomputable def group (pose : Block → Pose ℝ) (sc : Scene G) (e0 : Env) (g : CamGroup G)
    (vs : List (Nat × Nat)) : List Term :=
  vs.flatMap fun v => match sc.oo[v.2]? with
    | none => []
    | some x => match OMap.get? sc.objs x.obj with
      | none => []
      | some o => corners x.ids x.pts (fun id => o.pts[id]?) fun q p =>
          reprojection (sc.model x.cam) (fun _ => e0 (.intr x.cam))
            (fun e => cameraIn pose g x.cam e * pose (e (.objPose g.id v.1 x.obj))) p q

/-- Group and objects: the boards move in the objects; `I` are the intrinsics of a camera. -/
noncomputable def groupObjects (pose : Block → Pose ℝ) (sc : Scene G) (I : Nat → Env → Camera.Intr ℝ)
    (g : CamGroup G) (vs : List (Nat × Nat)) : List Term :=
  vs.flatMap fun v => match sc.oo[v.2]? with
    | none => []
    | some x => match OMap.get? sc.objs x.obj with
      | none => []
      | some o => corners x.ids x.pts (objectCorner sc o) fun q bp =>
          reprojection (sc.model x.cam) (I x.cam)
            (fun e => cameraIn pose g x.cam e * pose (e (.objPose g.id v.1 x.obj)) * boardIn pose o x.obj bp.1 e)
            bp.2 q

/-- An object observation that can be read with the points of the object. -/
def PointsReadable (sc : Scene G) (i : Nat) : Prop :=
  ∃ x o, sc.oo[i]? = some x ∧ OMap.get? sc.objs x.obj = some o ∧ Readable x.ids x.pts fun id => o.pts[id]?

/-- An object observation that can be read with the corners of the boards of the object. -/
def CornersReadable (sc : Scene G) (i : Nat) : Prop :=
  ∃ x o, sc.oo[i]? = some x ∧ OMap.get? sc.objs x.obj = some o ∧ Readable x.ids x.pts (objectCorner sc o)

/-! ### One problem after the other -/

/-- The problems `P` of the members of a list are solved one after the other, each once, each from the parameters the
one before has left. -/
def solveAll {α : Type} (solve : Solver) (P : Env → α → List Term) (l : List α) (e : Env) : Env :=
  l.foldl (fun e x => solve (P e x) e) e

/-- Everything the refinements read is there. -/
structure SceneReadable (sc : Scene G) (nCam : Nat) : Prop where
  cameras : ∀ c < nCam, ∀ i ∈ sc.camBoards c, BoardReadable sc i
  objects : ∀ (i : Nat) x, sc.oo[i]? = some x → ∀ j ∈ x.boards, BoardReadable sc j
  views : ∀ y ∈ sc.t.groups, ∀ v ∈ groupViews sc.t y.2, CornersReadable sc v.2

/-- What the program minimises, from the first refinement of the cameras to the end: the cameras (unless their
intrinsics are fixed), the objects, four times the groups with the objects, and last, unless they are fixed, also the
intrinsics.  Before each step the linear methods write poses (`w.write`). -/
noncomputable def workflow (pose : Block → Pose ℝ) (solve : Solver) (fixed : Prop) [Decidable fixed] (nCam : Nat)
    (w : World G) (e : Env) : Env :=
  let e := w.write 0 e
  let e := if fixed then e else solveAll solve (fun _ c => intrinsic pose (w.scene 0 e) c) (List.range nCam) e
  let e := w.write 1 e
  let e := solveAll solve (fun e' o => object pose (w.scene 1 e) e' o.2) (w.scene 1 e).objs e
  let e := [2, 3, 4, 5].foldl (fun e n =>
    let e := w.write n e
    solveAll solve (fun e' g => groupObjects pose (w.scene n e) (fun c _ => e' (.intr c)) g.2
      (groupViews (w.scene n e).t g.2)) (w.scene n e).t.groups e) e
  if fixed then e else
    solveAll solve (fun _ g => groupObjects pose (w.scene 5 e) (fun c e' => e' (.intr c)) g.2
      (groupViews (w.scene 5 e).t g.2)) (w.scene 5 e).t.groups e

end Verif.Spec.Problem
