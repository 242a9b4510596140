import Verif.Model.Program
import Verif.Model.Finish
import Verif.Model.Refine
import Verif.Model.HandEye
import Verif.Model.Detection
import Verif.Lemmas.RigidGroup

/-! The same poses, points and tables in other units: `φ` changes the unit of poses, `ν` that of stored poses (six numbers),
`ψ` that of points. -/
namespace Verif.Spec.Units
open Verif Verif.Objects Verif.Groups Verif.Pipeline Verif.NonOverlap Verif.Average Verif.Rigid

variable {V W G H Pt Q P : Type}

/-- All values of a table changed. -/
def values {K A B : Type} (f : A → B) (m : OMap K A) : OMap K B := m.map fun e => (e.1, f e.2)

/-- An object in other units: the poses of its boards and its points change, nothing else. -/
def object (φ : G → H) (ψ : Pt → Q) (o : Object G Pt) : Object H Q :=
  { id := o.id, refBoard := o.refBoard, nbBoards := o.nbBoards, boards := o.boards, nbPts := o.nbPts,
    poses := values φ o.poses, b2o := o.b2o, o2b := o.o2b, pts := o.pts.map ψ }

/-- A camera group in other units: the poses of its cameras change, nothing else. -/
def group (φ : G → H) (g : CamGroup G) : CamGroup H :=
  { id := g.id, refCam := g.refCam, cameras := g.cameras, camIdx := g.camIdx, poses := values φ g.poses,
    objObs := g.objObs, frames := g.frames }

/-- The tables of camera groups in other units. -/
def tables (φ : G → H) (t : GroupTables G) : GroupTables H :=
  { groups := values (group φ) t.groups, groupObs := t.groupObs, frameGroups := t.frameGroups }

/-- All tables in other units. -/
def state (φ : G → H) (ψ : Pt → Q) (st : State G Pt P) : State H Q P :=
  { objs := values (object φ ψ) st.objs, oo := st.oo, t := tables φ st.t }

/-- A successful result changed; errors stay. -/
def result {A B : Type} (f : A → B) : Outcome A → Outcome B
  | .ok a => .ok (f a)
  | .ub => .ub
  | .throw => .throw
  | .diverge => .diverge

/-- All numerical parts give the same in other units: estimated and refined poses, averages, conversions, hand-eye
calibration, and the tie-breaks of the searches are the same. -/
structure SameNumerics (φ : G → H) (ν : V → W) (n : Numerics V G) (n' : Numerics W H) : Prop where
  boardPose : ∀ i, n'.boardPose i = φ (n.boardPose i)
  objPose : ∀ k i, n'.objPose k i = φ (n.objPose k i)
  board : ∀ k i b, n'.board k i b = φ (n.board k i b)
  cam : ∀ k i c, n'.cam k i c = φ (n.cam k i c)
  inGroup : ∀ k i f o, n'.inGroup k i f o = ν (n.inGroup k i f o)
  avg : ∀ zs, n'.avg (zs.map φ) = φ (n.avg zs)
  avgV : ∀ zs, n'.avgV (zs.map ν) = ν (n.avgV zs)
  toVec : ∀ g, n'.toVec (φ g) = ν (n.toVec g)
  ofVec : ∀ v, n'.ofVec (ν v) = φ (n.ofVec v)
  he : ∀ ps, n'.he (ps.map fun e => (φ e.1, φ e.2)) = result φ (n.he ps)
  choose : n'.choose = n.choose

/-- A search for the pose of a view gives the same in other units: the same points are kept, and the pose changes. -/
def SameSearch (φ : G → H) (ψ : Pt → Q) (s : Ransac.Search Pt P G) (s' : Ransac.Search Q P H) : Prop :=
  ∀ i c pts px, s' i c (pts.map ψ) px = result (fun x => (x.1, φ x.2)) (s i c pts px)

/-- The library functions of a pose search give the same in other units: P3P and iterative solutions change, distances
in the image, threshold, trials and shuffles stay. -/
structure SameLib {E : Type} (φ : G → H) (ψ : Pt → Q) (l : Ransac.Lib Pt P G E) (l' : Ransac.Lib Q P H E) : Prop where
  p3p : ∀ g xs, l'.p3p (φ g) (xs.map fun x => (ψ x.1, x.2)) = φ (l.p3p g xs)
  refine : ∀ g xs, l'.refine (φ g) (xs.map fun x => (ψ x.1, x.2)) = φ (l.refine g xs)
  err : ∀ g p q, l'.err (φ g) (ψ p) q = l.err g p q
  thresh : l'.thresh = l.thresh
  trials : l'.trials = l.trials
  shuffle : l'.shuffle = l.shuffle

/-- The pose estimations of a run give the same in other units. -/
structure SameEstimator (φ : G → H) (ψ : Pt → Q) (e : Program.Estimator Pt P G) (e' : Program.Estimator Q P H) : Prop where
  search : ∀ j, SameSearch φ ψ (e.search j) (e'.search j)
  garbage : e'.garbage = φ e.garbage
  refined : ∀ ps, e'.refined (ps.map φ) = (e.refined ps).map φ

/-- Board observations with their poses, in other units. -/
def estimated (φ : G → H) (x : Ransac.Estimated P G) : Ransac.Estimated P H := ⟨x.obs, x.valid, φ x.pose⟩

/-- A projection gives the same pixels in other units. -/
structure SameProjection {K : Type} (φ : G → H) (ψ : Pt → Q) (p : ReproErr.Projection P G Pt K)
    (p' : ReproErr.Projection P H Q K) : Prop where
  model : p'.model = p.model
  brown : ∀ c g pts, p'.brown c (φ g) (pts.map ψ) = p.brown c g pts
  kannala : ∀ c g pts, p'.kannala c (φ g) (pts.map ψ) = p.kannala c g pts
  dist : p'.dist = p.dist

/-- The refinement of intrinsics and board poses gives the same in other units (both absent if the intrinsics are fixed). -/
inductive SameRefine {K : Type} (φ : G → H) (ψ : Pt → Q) :
    Option (List (Ransac.Estimated P G) → Outcome (List (Ransac.Estimated P G) × ReproErr.Projection P G Pt K)) →
    Option (List (Ransac.Estimated P H) → Outcome (List (Ransac.Estimated P H) × ReproErr.Projection P H Q K)) → Prop
  | fixed : SameRefine φ ψ none none
  | refined {r r'} (f : ReproErr.Projection P G Pt K → ReproErr.Projection P H Q K) (hf : ∀ p, SameProjection φ ψ p (f p))
      (h : ∀ l, r' (l.map (estimated φ)) = result (fun x => (x.1.map (estimated φ), f x.2)) (r l)) :
      SameRefine φ ψ (some r) (some r')

/-! ### Reports -/

/-- What the reports are made of gives the same pixels in other units. -/
structure SameEnv {K Path Img : Type} (φ : G → H) (ψ : Pt → Q) (ν : V → W) (en : Finish.Env V G Pt K Path Img)
    (en' : Finish.Env W H Q K Path Img) : Prop where
  ofVec : ∀ v, en'.ofVec (ν v) = φ (en.ofVec v)
  model : en'.model = en.model
  brown : ∀ c g pts, en'.projBrown c (φ g) (pts.map ψ) = en.projBrown c g pts
  kannala : ∀ c g pts, en'.projKannala c (φ g) (pts.map ψ) = en.projKannala c g pts
  cams : en'.cams = en.cams
  zero : en'.zero = ν en.zero
  colour : en'.colour = en.colour
  imread : en'.imread = en.imread
  emptyPath : en'.emptyPath = en.emptyPath
  save : en'.save = en.save
  saveDetect : en'.saveDetect = en.saveDetect
  saveRepro : en'.saveRepro = en.saveRepro
  gp : ∀ i, en'.gp i = ν (en.gp i)
  camPose : ∀ i, en'.camPose i = ν (en.camPose i)

/-- An entry of the camera file in other units: the pose changes. -/
def camEntry {K : Type} (φ : G → H) : Output.CamEntry K G → Output.CamEntry K H
  | .nbCamera n => .nbCamera n
  | .camera i c => .camera i ⟨c.matrix, c.distortion, c.model, c.group, c.width, c.height, φ c.pose⟩

/-- A column of the object file in other units: the point changes. -/
def column (ψ : Pt → Q) (c : Output.Column Pt) : Output.Column Q := ⟨ψ c.pt, c.board, c.corner⟩

/-- The reports in other units: poses and points change; pixels, errors and everything else stay. -/
def reports {K Img : Type} (φ : G → H) (ψ : Pt → Q) (ν : V → W) (r : Finish.Reports V G Pt K Img) : Finish.Reports W H Q K Img where
  log := r.log
  detections := r.detections
  reprojections := r.reprojections
  cameras := r.cameras.map (camEntry φ)
  objects := r.objects.map fun e => (e.1, e.2.map (Option.map (column ψ)))
  poses := r.poses.map fun e => (e.1, e.2.map ν)
  errors := r.errors
  average := r.average

/-! ### Length -/

/-- A pose (six numbers) with lengths multiplied by `k`: the rotation vector stays, the translation is multiplied. -/
def scaleVec {K : Type} [Mul K] (k : K) (v : Vec6 K) : Vec6 K := ⟨v.r1, v.r2, v.r3, k * v.t1, k * v.t2, k * v.t3⟩

/-- A rigid pose with lengths multiplied by `k`. -/
def scalePose {K : Type} [Field K] (k : K) (g : Pose K) : Pose K :=
  ⟨RT2Proj (projRot g.1) fun i => k * projTrans g.1 i, by
    obtain ⟨M, R, T, hR, rfl⟩ := g
    rw [Lemmas.Rigid.projRot_RT2Proj]
    exact ⟨R, _, hR, rfl⟩⟩

/-- A point with coordinates multiplied by `k`. -/
def scalePoint {K : Type} [Mul K] (k : K) (p : Vec3 K) : Vec3 K := fun i => k * p i

/-- A motion given to `cv::calibrateHandEye` with lengths multiplied by `k`. -/
noncomputable def scaleMotion (k : ℝ) (m : HandEye.Motion) : HandEye.Motion :=
  { m with t1 := scalePoint k m.t1, t2 := scalePoint k m.t2 }

/-- The library functions used by the hand-eye calibration give the same in other units of length: the clusters of
translations are the same, and the solutions have the same rotation and the translation multiplied by `k`. -/
structure ScaleFree (k : ℝ) (lib : HandEye.Lib) : Prop where
  kmeans : ∀ rows c, lib.kmeans (rows.map (List.map (k * ·))) c = lib.kmeans rows c
  tsai : ∀ ms, lib.tsai (ms.map (scaleMotion k)) = result (fun x => (x.1, scalePoint k x.2)) (lib.tsai ms)
  horaud : ∀ ms, lib.horaud (ms.map (scaleMotion k)) = result (fun x => (x.1, scalePoint k x.2)) (lib.horaud ms)

/-- The averages and the hand-eye calibration of the program. -/
structure OwnAverages (ro : Rodrigues ℝ) (hro : ro.Sound) (he : List (Pose ℝ × Pose ℝ) → Outcome (Pose ℝ))
    (n : Numerics (Vec6 ℝ) (Pose ℝ)) : Prop where
  avg : n.avg = interAverage (Pose.toVec ro) (Pose.ofVec ro hro)
  avgV : n.avgV = groupAverageVec
  toVec : n.toVec = Pose.toVec ro
  ofVec : n.ofVec = Pose.ofVec ro hro
  he : n.he = he

/-- The estimated and refined poses with lengths multiplied by `k`, the same averages, hand-eye calibration and
tie-breaks. -/
noncomputable def scaleNumerics (k : ℝ) (n : Numerics (Vec6 ℝ) (Pose ℝ)) : Numerics (Vec6 ℝ) (Pose ℝ) where
  boardPose i := scalePose k (n.boardPose i)
  objPose s i := scalePose k (n.objPose s i)
  board s i b := scalePose k (n.board s i b)
  cam s i c := scalePose k (n.cam s i c)
  inGroup s i f o := scaleVec k (n.inGroup s i f o)
  avg := n.avg
  avgV := n.avgV
  toVec := n.toVec
  ofVec := n.ofVec
  he := n.he
  choose := n.choose

/-- The pose estimations with other searches, lengths multiplied by `k`. -/
noncomputable def scaleEstimator (k : ℝ) (e : Program.Estimator (Vec3 ℝ) P (Pose ℝ)) (search : Nat → Ransac.Search (Vec3 ℝ) P (Pose ℝ)) :
    Program.Estimator (Vec3 ℝ) P (Pose ℝ) where
  search := search
  garbage := scalePose k e.garbage
  refined ps := (e.refined (ps.map (scalePose k⁻¹))).map (scalePose k)

/-- A board with its squares and points multiplied by `k`. -/
def scaleGeom {K : Type} [Mul K] (k : K) (g : Detection.Geom K) : Detection.Geom K :=
  ⟨g.nbPts, g.pts.map fun p => (k * p.1, k * p.2), k * g.square⟩

/-- Fitting a line gives the same in other units of length: same direction, the point multiplied by `k`. -/
def ScaleFreeFit {K : Type} [Mul K] (k : K) (fit : List (K × K) → K × K × K × K) : Prop :=
  ∀ pts, fit (pts.map fun p => (k * p.1, k * p.2)) =
    ((fit pts).1, (fit pts).2.1, k * (fit pts).2.2.1, k * (fit pts).2.2.2)

/-! ### Refinements -/

/-- A pose block with lengths multiplied by `k`: three numbers of rotation, three of translation. -/
noncomputable def scaleBlock (k : ℝ) (b : Residual.Block) : Residual.Block := fun i => if i < 3 then b i else k * b i

/-- All parameters with lengths multiplied by `k`; the intrinsics have no unit of length. -/
noncomputable def scaleEnv (k : ℝ) (e : Refine.Env) : Refine.Env
  | .intr c => e (.intr c)
  | p => scaleBlock k (e p)

/-- What the refinements read, with lengths multiplied by `k`. -/
noncomputable def scaleScene (φ : G → H) (k : ℝ) (sc : Refine.Scene G) : Refine.Scene H where
  bpts := sc.bpts.map (List.map (scalePoint k))
  obs := sc.obs
  camBoards := sc.camBoards
  model := sc.model
  objs := values (object φ (scalePoint k)) sc.objs
  oo := sc.oo
  t := tables φ sc.t

/-- A cost term as a function of the parameters in the other unit. -/
noncomputable def scaleTerm (k : ℝ) (t : Refine.Term) : Refine.Term := fun e => t (scaleEnv k⁻¹ e)

/-- What a solver minimises: the sum of a loss (Huber's, in the program) of the squared errors. -/
noncomputable def cost (loss : ℝ → ℝ) (pb : List Refine.Term) (e : Refine.Env) : ℝ :=
  (pb.map fun t => match t e with
    | some r => loss (r.1 ^ 2 + r.2 ^ 2)
    | none => 0).sum

/-- A solver gives the same in other units of length. -/
def SameSolver (k : ℝ) (solve solve' : Refine.Solver) : Prop :=
  ∀ pb e, solve' (pb.map (scaleTerm k)) (scaleEnv k e) = scaleEnv k (solve pb e)

/-- What happens between the refinements is the same in other units of length. -/
structure SameWorld (φ : G → H) (k : ℝ) (w : Refine.World G) (w' : Refine.World H) : Prop where
  scene : ∀ n e, w'.scene n (scaleEnv k e) = scaleScene φ k (w.scene n e)
  poses : ∀ n e, w'.poses n (scaleEnv k e) = scaleEnv k (w.poses n e)

end Verif.Spec.Units
