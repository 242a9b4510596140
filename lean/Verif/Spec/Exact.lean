import Verif.Model.Pipeline
import Verif.Spec.NonOverlap

/-! Ground truth: one rigid body of boards seen by rigidly mounted cameras. -/
namespace Verif.Spec.Exact
open Verif Verif.Objects Verif.Groups Verif.Pipeline Verif.NonOverlap

variable {V G Pt P Path : Type}

/-- The true poses: of each camera (from the world to the camera), of the body of all boards at each frame
(from the body to the world), and of each board in the body. -/
structure World (G : Type) where
  cam : Nat → G
  motion : Nat → G
  board : Nat → G

variable [Group G] (w : World G)

/-- Every board of every object has its true pose relative to the reference board of the object. -/
def BoardsTrue (objs : OMap Nat (Object G Pt)) : Prop :=
  ∀ i o b, OMap.get? objs i = some o → b ∈ OMap.keys o.boards →
    OMap.get? o.poses b = some ((w.board o.refBoard)⁻¹ * w.board b)

/-- Every camera of every group has its true pose relative to the reference camera of the group. -/
def CamerasTrue (gs : OMap Nat (CamGroup G)) : Prop :=
  ∀ i g c, OMap.get? gs i = some g → c ∈ OMap.keys g.cameras →
    OMap.get? g.poses c = some (w.cam c * (w.cam g.refCam)⁻¹)

/-- Boards and cameras have their true poses. -/
structure StateTrue (st : State G Pt P) : Prop where
  boards : BoardsTrue w st.objs
  cameras : CamerasTrue w st.t.groups

/-- `pose` has the true pose, in its camera, of each object observation. -/
def PosesTrue (objs : OMap Nat (Object G Pt)) (oo : List (ObjObs P)) (pose : Nat → G) : Prop :=
  ∀ (k : Nat) x o, oo[k]? = some x → OMap.get? objs x.obj = some o →
    pose k = w.cam x.cam * (w.motion x.frame * w.board o.refBoard)

/-- A refinement that starts at the true poses ends there. -/
def Keeps [SMul G Pt] (n : Numerics V G) (k : Nat) (bpts : List (List Pt)) (st : State G Pt P) : Prop :=
  StateTrue w st → ∀ st', refineAll n k bpts st = .ok st' → StateTrue w st'

/-- The numerical parts up to the merge of objects are exact on exact data. -/
structure Exact [SMul G Pt] (n : Numerics V G) (bpts : List (List Pt)) (l : List (Insertion P Path))
    (s : Store P Path) (obs : List (BoardObs P)) : Prop where
  /-- pose estimation of a board -/
  boardPose : ∀ (i : Nat) a, l[i]? = some a →
    n.boardPose i = w.cam a.obs.cam * (w.motion a.obs.frame * w.board a.obs.board)
  /-- averages of equal poses -/
  avg : ∀ (zs : List G) x, zs ≠ [] → (∀ z ∈ zs, z = x) → n.avg zs = x
  avgV : ∀ (zs : List V) x, zs ≠ [] → (∀ z ∈ zs, z = x) → n.avgV zs = x
  vec : ∀ g, n.ofVec (n.toVec g) = g
  /-- refinement of the objects alone -/
  refine0 : ∀ objs, buildObjects s n.boardPose n.avg bpts (n.choose 0) = .ok objs → BoardsTrue w objs →
    ∀ objs', refineObjects bpts (n.board 0) objs = .ok objs' → BoardsTrue w objs'
  /-- pose estimation of true objects -/
  pose1 : ∀ r, calibrateObjects n bpts s obs = .ok r → BoardsTrue w r.1 → PosesTrue w r.1 r.2 (n.objPose 1)
  refine1 : ∀ r, calibrateObjects n bpts s obs = .ok r → ∀ st, placeGroups n s r.1 r.2 = .ok st → Keeps w n 1 bpts st
  pose2 : ∀ r, calibrateObjects n bpts s obs = .ok r → ∀ st, calibrateGroups n bpts s r.1 r.2 = .ok st →
    StateTrue w st → PosesTrue w st.objs st.oo (n.objPose 2)
  refine2 : ∀ r, calibrateObjects n bpts s obs = .ok r → ∀ st, calibrateGroups n bpts s r.1 r.2 = .ok st →
    ∀ st', joinObjects n 2 bpts s obs st = .ok st' → Keeps w n 2 bpts st'

/-- The refined poses of the objects in the group observations are true: seen from the reference camera. -/
def InGroupTrue (n : Numerics V G) (k : Nat) (st : State G Pt P) : Prop :=
  ∀ i g j o f, OMap.get? st.t.groups i = some g → OMap.get? st.objs j = some o →
    (∃ x ∈ st.oo, x.cam ∈ OMap.keys g.cameras ∧ x.frame = f ∧ x.obj = j) →
    n.ofVec (n.inGroup k i f j) = w.cam g.refCam * (w.motion f * w.board o.refBoard)

/-- Only the identity looks the same from the body in all the given frames (the relative motions between
them have no common axis). -/
def Rich (fs : List Nat) : Prop :=
  ∀ y : G, (∀ f ∈ fs, ∀ f' ∈ fs, (w.motion f)⁻¹ * y * w.motion f = (w.motion f')⁻¹ * y * w.motion f') → y = 1

/-- The hand-eye calibration of six or more pairs of poses succeeds, and returns a transform that explains all
pairs whenever there is one. (With four or five pairs its behaviour is undefined, C34.) -/
def Solves (he : List (G × G) → Outcome G) : Prop :=
  ∀ ps, 6 ≤ ps.length → ∃ x, he ps = .ok x ∧
    ((∃ x' d, ∀ p ∈ ps, p.1⁻¹ * x' * p.2 = d) → ∃ d, ∀ p ∈ ps, p.1⁻¹ * x * p.2 = d)

/-- The numerical parts after the merge of objects are exact on exact data. -/
structure ExactTail [SMul G Pt] (n : Numerics V G) (bpts : List (List Pt)) (s : Store P Path)
    (obs : List (BoardObs P)) : Prop where
  inGroup : ∀ st, overlapping n bpts s obs = .ok st → StateTrue w st → InGroupTrue w n 2 st
  he : Solves n.he
  pose4 : ∀ st, overlapping n bpts s obs = .ok st → ∀ pp, nonOverlapping n st = .ok pp →
    ∀ st1, mergeGroups1 n s pp st = .ok st1 → StateTrue w st1 → PosesTrue w st1.objs st1.oo (n.objPose 4)
  refine4 : ∀ st, overlapping n bpts s obs = .ok st → ∀ pp, nonOverlapping n st = .ok pp →
    ∀ st1, mergeGroups1 n s pp st = .ok st1 → ∀ st2, joinObjects n 4 bpts s obs st1 = .ok st2 → Keeps w n 4 bpts st2
  refine5 : ∀ st, overlapping n bpts s obs = .ok st → ∀ pp, nonOverlapping n st = .ok pp →
    ∀ st3, afterMerge n bpts s obs pp st = .ok st3 → ∀ st4, mergeGroups2 n s pp st3 = .ok st4 → Keeps w n 5 bpts st4

end Verif.Spec.Exact
