import Verif.Lemmas.UnitsReport
import Verif.Lemmas.UnitsRefine
import Verif.Lemmas.UnitsSearch
import Verif.Model.Config

/-!
C96: the unit of length does not matter.  The program knows lengths from the size of the squares of the boards only.  If that
size is given in another unit (multiplied by `k`), everything the program computes is the same, with lengths multiplied by `k`:
the same corners are accepted, the same objects, groups and observations are formed, and the reports hold the same
intrinsics and errors, and the poses and points of before with their lengths multiplied by `k`.
-/
namespace Verif.Props.Units
open Verif Verif.Objects Verif.Groups Verif.Pipeline Verif.Rigid Verif.Average Verif.Spec.Units Verif.Lemmas.Units
open Verif.Props.HandEye Verif.Props.Outliers Verif.Ransac Verif.Props.Residual

variable {V W G H Pt Q P Path Img K : Type}

/-! ### Any change of units -/

/-- C96: from the detections to the last refinement.  If the poses `φ`, the points `ψ` and the stored poses `ν` are in other units,
`φ` being compatible with products of poses and with the motion of points, and the numerical parts (searches, averages,
hand-eye calibration, refinements) give the same in these units, then the run gives the same in these units: it succeeds
or fails like before, with the same tables in other units. -/
theorem C96_run [Group G] [Group H] [SMul G Pt] [SMul H Q] [Field K] [LinearOrder K] (φ : G →* H) (ψ : Pt → Q)
    (hψ : ∀ (g : G) (p : Pt), ψ (g • p) = φ g • ψ p) (ν : V → W) {n : Numerics V G} {n' : Numerics W H}
    (hn : SameNumerics φ ν n n') {e : Program.Estimator Pt P G} {e' : Program.Estimator Q P H} (he : SameEstimator φ ψ e e')
    {s : Search Pt P G} {s' : Search Q P H} (hs : SameSearch φ ψ s s')
    {r : Option (List (Estimated P G) → Outcome (List (Estimated P G) × ReproErr.Projection P G Pt K))}
    {r' : Option (List (Estimated P H) → Outcome (List (Estimated P H) × ReproErr.Projection P H Q K))}
    (hr : SameRefine φ ψ r r') {p : ReproErr.Projection P G Pt K} {p' : ReproErr.Projection P H Q K} (hp : SameProjection φ ψ p p')
    (fix : Int) (bpts : List (List Pt)) (st : Store P Path) :
    Program.calibrate s' r' p' e' n' fix (bpts.map (List.map ψ)) st =
      result (fun r => (state φ ψ r.1, values (values ν) r.2)) (Program.calibrate s r p e n fix bpts st) :=
  calibrate_map φ ψ hψ ν hn he hs hr hp fix bpts st

/-- C96: the reports.  Log, images, reprojection errors and intrinsics are the same; the poses and the points are those of
before in other units. -/
theorem C96_reports [Group G] [Group H] [SMul G Pt] [SMul H Q] [Zero K] [One K] (φ : G →* H) (ψ : Pt → Q)
    (hψ : ∀ (g : G) (p : Pt), ψ (g • p) = φ g • ψ p) (ν : V → W) {en : Finish.Env V G Pt K Path Img}
    {en' : Finish.Env W H Q K Path Img} (he : SameEnv φ ψ ν en en') (bpts : List (List Pt)) (frames : OMap Nat (FrameRec Path))
    (r : State G Pt (ℝ × ℝ) × OMap (Nat × Nat) (OMap Nat V)) :
    Finish.report en' (bpts.map (List.map ψ)) frames (state φ ψ r.1, values (values ν) r.2) =
      result (reports φ ψ ν) (Finish.report en bpts frames r) :=
  report_map φ ψ hψ ν he bpts frames r

/-- C96: the robust search for the pose of a view gives the same in other units if P3P, the iterative refinement and the
projection do. -/
theorem C96_search {E : Type} [LinearOrder E] (φ : G → H) (ψ : Pt → Q) {l0 l1 : Nat → Nat → Lib Pt P G E}
    {l0' l1' : Nat → Nat → Lib Q P H E} (h0 : ∀ i c, SameLib φ ψ (l0 i c) (l0' i c)) (h1 : ∀ i c, SameLib φ ψ (l1 i c) (l1' i c))
    (undist : Nat → P → P) (model : Nat → Int) (it : Nat) (garbage : Nat → G) :
    SameSearch φ ψ (searches l0 l1 undist model it garbage) (searches l0' l1' undist model it fun i => φ (garbage i)) :=
  searches_map φ ψ h0 h1 undist model it garbage

/-! ### Length -/

/-- C96: the averages, the conversions and the hand-eye calibration of the program are the same in every unit of length. -/
theorem C96_numerics {k : ℝ} (hk : 0 < k) (ro : Rodrigues ℝ) (hro : ro.Sound) (lib : HandEye.Lib) (hl : ScaleFree k lib)
    (approach : Int) (n : Numerics (Vec6 ℝ) (Pose ℝ)) (hn : OwnAverages ro hro (handEyePose lib approach) n) :
    SameNumerics (scalePose k) (scaleVec k) n (scaleNumerics k n) where
  boardPose _ := rfl
  objPose _ _ := rfl
  board _ _ _ := rfl
  cam _ _ _ := rfl
  inGroup _ _ _ _ := rfl
  avg zs := by
    show n.avg _ = scalePose k (n.avg zs)
    rw [hn.avg]
    exact interAverage_scale ro hro hk zs
  avgV zs := by
    show n.avgV _ = scaleVec k (n.avgV zs)
    rw [hn.avgV]
    exact groupAverage_scale k zs
  toVec g := by
    show n.toVec _ = scaleVec k (n.toVec g)
    rw [hn.toVec]
    exact scale_toVec ro k g
  ofVec v := by
    show n.ofVec _ = scalePose k (n.ofVec v)
    rw [hn.ofVec]
    exact scale_ofVec ro hro k v
  he ps := by
    show n.he _ = result (scalePose k) (n.he ps)
    rw [hn.he]
    exact handEyePose_scale hk hl approach ps
  choose := rfl

theorem scalePose_back {k : ℝ} (hk : k ≠ 0) (g : Pose ℝ) : scalePose k⁻¹ (scalePose k g) = g := by
  apply Subtype.ext
  rw [scalePose_coe (inv_ne_zero hk), scalePose_coe hk, conj_back hk]

/-- C96: the run with the square size in another unit of length. -/
theorem C96_length {E : Type} [LinearOrder E] {k : ℝ} (hk : 0 < k) (ro : Rodrigues ℝ) (hro : ro.Sound) (lib : HandEye.Lib)
    (hl : ScaleFree k lib) (approach : Int) (n : Numerics (Vec6 ℝ) (Pose ℝ)) (hn : OwnAverages ro hro (handEyePose lib approach) n)
    {l0 l1 l0' l1' : Nat → Nat → Nat → Lib (Vec3 ℝ) P (Pose ℝ) E}
    (h0 : ∀ j i c, SameLib (scalePose k) (scalePoint k) (l0 j i c) (l0' j i c))
    (h1 : ∀ j i c, SameLib (scalePose k) (scalePoint k) (l1 j i c) (l1' j i c))
    (undist : Nat → P → P) (model : Nat → Int) (it : Nat) (garbage : Nat → Nat → Pose ℝ)
    (e : Program.Estimator (Vec3 ℝ) P (Pose ℝ)) (hes : e.search = fun j => searches (l0 j) (l1 j) undist model it (garbage j))
    {r r' : Option (List (Estimated P (Pose ℝ)) → Outcome (List (Estimated P (Pose ℝ)) × ReproErr.Projection P (Pose ℝ) (Vec3 ℝ) ℝ))}
    (hr : SameRefine (scalePose k) (scalePoint k) r r') {p p' : ReproErr.Projection P (Pose ℝ) (Vec3 ℝ) ℝ}
    (hp : SameProjection (scalePose k) (scalePoint k) p p') (j0 : Nat) (fix : Int) (bpts : List (List (Vec3 ℝ)))
    (st : Store P Path) :
    Program.calibrate (searches (l0' j0) (l1' j0) undist model it fun i => scalePose k (garbage j0 i)) r' p'
        (scaleEstimator k e fun j => searches (l0' j) (l1' j) undist model it fun i => scalePose k (garbage j i))
        (scaleNumerics k n) fix (bpts.map (List.map (scalePoint k))) st =
      result (fun x => (state (scalePose k) (scalePoint k) x.1, values (values (scaleVec k)) x.2))
        (Program.calibrate (searches (l0 j0) (l1 j0) undist model it (garbage j0)) r p e n fix bpts st) := by
  refine C96_run (scaleHom k) (scalePoint k) (scale_smul k) (scaleVec k)
    (C96_numerics hk ro hro lib hl approach n hn) (e := e) ⟨fun j => ?_, rfl, fun ps => ?_⟩
    (C96_search _ _ (h0 j0) (h1 j0) undist model it (garbage j0)) hr hp fix bpts st
  · rw [hes]
    exact C96_search _ _ (h0 j) (h1 j) undist model it (garbage j)
  · show (e.refined ((ps.map (scalePose k)).map (scalePose k⁻¹))).map (scalePose k) = (e.refined ps).map (scalePose k)
    rw [List.map_map]
    have : (scalePose k⁻¹ ∘ scalePose k : Pose ℝ → Pose ℝ) = id := funext fun g => scalePose_back hk.ne' g
    rw [this, List.map_id]

/-- C96: the pixel of a point does not depend on the unit of length. -/
theorem C96_pixel {k : ℝ} (hk : k ≠ 0) (model : Int) (M : Mat3 ℝ) (d : List ℝ) (g : Pose ℝ) (p : Vec3 ℝ) :
    Spec.Projection.pixel model M d (scalePose k g • scalePoint k p) = Spec.Projection.pixel model M d (g • p) := by
  rw [← scale_smul]
  have h : ∀ (X : Vec3 ℝ) i, scalePoint k X i / scalePoint k X 2 = X i / X 2 := fun X i => mul_div_mul_left _ _ hk
  unfold Spec.Projection.pixel
  rw [h, h]

/-- C96: the corners of a board are multiplied by the factor of its square size. -/
theorem C96_boards (nx ny : Int) (k s : Rat) :
    Config.gridPoints nx ny (k * s) = (Config.gridPoints nx ny s).map fun p => (k * p.1, k * p.2.1, k * p.2.2) := by
  unfold Config.gridPoints
  rw [List.map_flatMap]
  congr 1
  funext y
  rw [List.map_map]
  apply List.map_congr_left
  intro x _
  simp only [Function.comp_apply, mul_zero, Prod.mk.injEq, and_true]
  constructor <;> ring

/-- C96: the same corners are accepted in an image, whatever the unit. -/
theorem C96_detection [Field K] [LinearOrder K] [IsStrictOrderedRing K] {k : K} (hk : 0 < k)
    (fit : List (K × K) → K × K × K × K) (hf : ScaleFreeFit k fit) (cfg : Detection.Cfg) (geoms : List (Detection.Geom K))
    (cam frame : Nat) (path : Path) (raw : Option (Nat → Detection.Raw P)) :
    Detection.detectImage fit cfg (geoms.map (scaleGeom k)) cam frame path raw =
      Detection.detectImage fit cfg geoms cam frame path raw := by
  have hb : ∀ (g : Detection.Geom K) ids, Detection.boardPts (scaleGeom k g) ids =
      result (List.map fun p => (k * p.1, k * p.2)) (Detection.boardPts g ids) := by
    intro g ids
    unfold Detection.boardPts
    refine foldlM_result' (List.map fun p : K × K => (k * p.1, k * p.2)) (fun acc i => ?_) ids []
    show (Outcome.idx (g.pts.map _) i >>= _) = _
    rw [idx_map]
    refine bind_map _ _ rfl fun p => ?_
    show Outcome.ok _ = Outcome.ok _
    rw [List.map_append]
    rfl
  have hl : ∀ pts : List (K × K), Detection.lineResidual fit (pts.map fun p => (k * p.1, k * p.2)) =
      k * Detection.lineResidual fit pts := by
    intro pts
    unfold Detection.lineResidual
    rw [hf pts]
    simp only [List.map_map, List.length_map]
    rw [← mul_div_assoc, ← List.sum_map_mul_left]
    congr 2
    apply List.map_congr_left
    intro q _
    simp only [Function.comp_apply]
    rw [← abs_of_pos hk, ← abs_mul, abs_of_pos hk]
    congr 1
    ring
  have hd : ∀ (g : Detection.Geom K) (x : Detection.Raw P), Detection.detectBoard fit cfg (scaleGeom k g) x = Detection.detectBoard fit cfg g x := by
    intro g x
    unfold Detection.detectBoard
    refine bind_congr' fun m => ?_
    split
    · refine bind_congr' fun cs => ?_
      rw [hb, result_bind]
      refine bind_congr' fun pts => ?_
      rw [hl]
      have e : k * Detection.lineResidual fit pts > (scaleGeom k g).square * (1 / 10) ↔
          Detection.lineResidual fit pts > g.square * (1 / 10) := by
        show k * g.square * (1 / 10) < _ ↔ _
        rw [mul_assoc, mul_lt_mul_iff_right₀ hk]
      simp only [e]
    · rfl
  unfold Detection.detectImage
  cases raw with
  | none => rfl
  | some raw =>
    have ez : (geoms.map (scaleGeom k)).zipIdx = geoms.zipIdx.map fun x => (scaleGeom k x.1, x.2) := by
      rw [List.zipIdx_map]
      rfl
    dsimp only
    rw [ez]
    refine ((foldlM_result id (fun x : Detection.Geom K × Nat => (scaleGeom k x.1, x.2)) (fun acc x => ?_) geoms.zipIdx []).trans
      (result_id _))
    rw [result_id]
    exact congrArg (· >>= _) (hd x.1 (raw x.2))

/-! ### Refinements -/

/-- C96: the refinements minimise the same in every unit of length: the problem of the run in the other unit has the terms of
the problem of before, read in the other unit; stated for the five kinds of problem, with the solver that returns the terms
unsolved. -/
theorem C96_problems {k : ℝ} (hk : k ≠ 0) {rot : Residual.RotatePoint} {ro : Rodrigues ℝ} (hrot : RotatesBy rot ro) (hro : ro.Sound)
    (φ : G → H) (sc : Refine.Scene G) (e : Refine.Env) :
    (∀ c l, Outcome.foldlM (Refine.intrinsicTerms rot (scaleScene φ k sc) c) [] l =
      result (List.map (scaleTerm k)) (Outcome.foldlM (Refine.intrinsicTerms rot sc c) [] l)) ∧
    (∀ o l, Outcome.foldlM (Refine.objectTerms rot (scaleScene φ k sc) (scaleEnv k e) (object φ (scalePoint k) o)) [] l =
      result (List.map (scaleTerm k)) (Outcome.foldlM (Refine.objectTerms rot sc e o) [] l)) ∧
    (∀ g l, Outcome.foldlM (Refine.groupTerms rot (scaleScene φ k sc) (scaleEnv k e) (group φ g)) [] l =
      result (List.map (scaleTerm k)) (Outcome.foldlM (Refine.groupTerms rot sc e g) [] l)) ∧
    (∀ g l, Outcome.foldlM (Refine.groupObjectTerms rot (scaleScene φ k sc) (scaleEnv k e) (group φ g)) [] l =
      result (List.map (scaleTerm k)) (Outcome.foldlM (Refine.groupObjectTerms rot sc e g) [] l)) ∧
    (∀ g l, Outcome.foldlM (Refine.groupIntrinsicTerms rot (scaleScene φ k sc) (group φ g)) [] l =
      result (List.map (scaleTerm k)) (Outcome.foldlM (Refine.groupIntrinsicTerms rot sc g) [] l)) :=
  ⟨intrinsicProblem_scale hk hrot hro φ sc, objectProblem_scale hk hrot hro φ sc e, groupProblem_scale hk hrot hro φ sc e,
    groupObjectProblem_scale hk hrot hro φ sc e, groupIntrinsicProblem_scale hk hrot hro φ sc⟩

/-- C96: all refinements of the run, from the first to the last, give the same in the other unit if the solver does. -/
theorem C96_refine {k : ℝ} (hk : k ≠ 0) {rot : Residual.RotatePoint} {ro : Rodrigues ℝ} (hrot : RotatesBy rot ro) (hro : ro.Sound)
    (φ : G → H) {solve solve' : Refine.Solver} (hsolve : SameSolver k solve solve') {w : Refine.World G} {w' : Refine.World H}
    (hw : SameWorld φ k w w') (fix : Int) (nCam : Nat) (e : Refine.Env) :
    Refine.calibrate rot solve' fix nCam w' (scaleEnv k e) = result (scaleEnv k) (Refine.calibrate rot solve fix nCam w e) :=
  refinements_scale hk hrot hro φ hsolve hw fix nCam e

/-- C96: the costs are equal, so the optimal parameters of the two problems correspond. -/
theorem C96_minimum {k : ℝ} (hk : k ≠ 0) (loss : ℝ → ℝ) (pb : List Refine.Term) (e : Refine.Env) :
    cost loss (pb.map (scaleTerm k)) (scaleEnv k e) = cost loss pb e ∧
    ((∀ e', cost loss pb e ≤ cost loss pb e') ↔
      ∀ e', cost loss (pb.map (scaleTerm k)) (scaleEnv k e) ≤ cost loss (pb.map (scaleTerm k)) e') := by
  have h : ∀ e, cost loss (pb.map (scaleTerm k)) (scaleEnv k e) = cost loss pb e := by
    intro e
    unfold cost
    rw [List.map_map]
    congr 1
    apply List.map_congr_left
    intro t _
    simp only [Function.comp_apply, scaleTerm, scaleEnv_inv' hk]
  refine ⟨h e, fun hm e' => ?_, fun hm e' => ?_⟩
  · rw [h e, ← scaleEnv_inv hk e', h]
    exact hm _
  · rw [← h e, ← h e']
    exact hm _

/-! ### The hypotheses can be met -/

/-- Every solver has a corresponding one in the other unit. -/
theorem C96_solvers {k : ℝ} (hk : k ≠ 0) (solve : Refine.Solver) : ∃ solve', SameSolver k solve solve' := by
  refine ⟨fun pb e => scaleEnv k (solve (pb.map (scaleTerm k⁻¹)) (scaleEnv k⁻¹ e)), fun pb e => ?_⟩
  dsimp only
  rw [List.map_map, scaleEnv_inv' hk]
  congr 2
  conv_rhs => rw [← List.map_id pb]
  apply List.map_congr_left
  intro t _
  funext e
  simp only [Function.comp_apply, scaleTerm, inv_inv, id_eq]
  rw [scaleEnv_inv' hk]

/-- A solver that leaves a minimiser alone corresponds to itself: the solver that does not move. -/
example (k : ℝ) : SameSolver k (fun _ e => e) fun _ e => e := fun _ _ => rfl

/-- Every search library has a corresponding one in the other unit. -/
theorem C96_libraries {E : Type} {k : ℝ} (hk : k ≠ 0) (l : Lib (Vec3 ℝ) P (Pose ℝ) E) :
    ∃ l', SameLib (scalePose k) (scalePoint k) l l' := by
  have hb : ∀ p : Vec3 ℝ, scalePoint k⁻¹ (scalePoint k p) = p := fun p => funext fun i => inv_mul_cancel_left₀ hk (p i)
  have hm : ∀ xs : List (Vec3 ℝ × P), ((xs.map fun x => (scalePoint k x.1, x.2)).map fun x => (scalePoint k⁻¹ x.1, x.2)) = xs := by
    intro xs
    rw [List.map_map]
    conv_rhs => rw [← List.map_id xs]
    apply List.map_congr_left
    intro x _
    simp only [Function.comp_apply, hb, id_eq]
  exact ⟨⟨fun g xs => scalePose k (l.p3p (scalePose k⁻¹ g) (xs.map fun x => (scalePoint k⁻¹ x.1, x.2))),
      fun g xs => scalePose k (l.refine (scalePose k⁻¹ g) (xs.map fun x => (scalePoint k⁻¹ x.1, x.2))),
      fun g p q => l.err (scalePose k⁻¹ g) (scalePoint k⁻¹ p) q, l.thresh, l.trials, l.shuffle⟩,
    { p3p := fun g xs => by dsimp only; rw [hm, scalePose_back hk]
      refine := fun g xs => by dsimp only; rw [hm, scalePose_back hk]
      err := fun g p q => by dsimp only; rw [hb, scalePose_back hk]
      thresh := rfl, trials := rfl, shuffle := rfl }⟩

/-- A hand-eye library that gives the same in every unit: solutions as long as the first motion. -/
noncomputable def handLib (ro : Rodrigues ℝ) : HandEye.Lib where
  ro := ro
  svd _ := ![0, 0, 0, 1]
  eps := 0
  kmeans rows c := (List.range rows.length).map (· % c)
  shuffle _ l := l
  pick _ _ _ := 0
  tsai ms := .ok (1, ((ms.head?).map (·.t1)).getD 0)
  horaud ms := .ok (1, ((ms.head?).map (·.t2)).getD 0)

example (k : ℝ) (ro : Rodrigues ℝ) : ScaleFree k (handLib ro) := by
  refine ⟨fun rows c => ?_, fun ms => ?_, fun ms => ?_⟩
  · show (List.range (rows.map _).length).map (· % c) = _
    rw [List.length_map]
    rfl
  all_goals
    cases ms with
    | nil =>
      show Outcome.ok _ = Outcome.ok _
      congr 2
      funext i
      show (0 : ℝ) = k * 0
      rw [mul_zero]
    | cons m ms => rfl

/-- A projection that gives the same in every unit: the model of OpenCV. -/
noncomputable def pinhole (M : Mat3 ℝ) (d : List ℝ) : ReproErr.Projection (ℝ × ℝ) (Pose ℝ) (Vec3 ℝ) ℝ where
  model _ := 0
  brown _ g pts := .ok (pts.filterMap fun p => Spec.Projection.pixel 0 M d (g • p))
  kannala _ g pts := .ok (pts.filterMap fun p => Spec.Projection.pixel 1 M d (g • p))
  dist := Output.distance

example (k : ℝ) (hk : k ≠ 0) (M : Mat3 ℝ) (d : List ℝ) : SameProjection (scalePose k) (scalePoint k) (pinhole M d) (pinhole M d) := by
  refine ⟨rfl, fun c g pts => ?_, fun c g pts => ?_, rfl⟩
  all_goals
    show Outcome.ok _ = Outcome.ok _
    rw [List.filterMap_map]
    congr 2
    funext p
    exact C96_pixel hk _ M d g p

/-- Lines fitted through the first and the last point: the same in every unit. -/
example (k : ℝ) : ScaleFreeFit k fun pts : List (ℝ × ℝ) => (1, 0, ((pts.head?).map (·.1)).getD 0, ((pts.head?).map (·.2)).getD 0) := by
  intro pts
  cases pts with
  | nil => simp
  | cons p pts => rfl

/-- Metres and millimetres are different: a translation by one becomes one by a thousand. -/
example (T : Vec3 ℝ) (h : IsRigid (RT2Proj 1 T)) : projTrans (scalePose (1000 : ℝ) ⟨RT2Proj 1 T, h⟩).1 0 = 1000 * T 0 := by
  rw [scalePose_mk 1000 ⟨RT2Proj 1 T, h⟩ 1 T rfl, Lemmas.Rigid.projTrans_RT2Proj]

end Verif.Props.Units
