import Verif.Spec.Refine
import Verif.Props.Residual
import Verif.Props.Camera
import Verif.Model.Pipeline
import Mathlib.Analysis.Calculus.Deriv.Basic

/-!
C38: `fix_intrinsic`; C51: the refinements keep the gauge.
-/
namespace Verif.Props.Refine
open Verif Verif.Refine Verif.Spec.Refine Residual Rigid Objects Groups

variable {G : Type}

/-- A term that only reads the blocks in `D`. -/
def DependsOn (D : Param → Prop) (t : Term) : Prop :=
  ∀ e e' : Env, (∀ k, D k → e k = e' k) → t e = t e'

private theorem unchanged {solve : Solver} (hs : Solver.Frame solve) {D : Param → Prop} {pb : List Term}
    (h : ∀ t ∈ pb, DependsOn D t) (e : Env) (k : Param) (hk : solve pb e k ≠ e k) : D k := by
  by_contra hD
  exact hk (hs pb e k fun t ht e e' hag => h t ht e e' fun k' hk' => hag k' fun heq => hD (heq ▸ hk'))

/-- Every term added by a loop has a property that the terms of each round have. -/
private theorem terms_inv {α : Type} {Q : Term → Prop} {f : List Term → α → Outcome (List Term)} {l : List α}
    (hf : ∀ acc acc' x, x ∈ l → (∀ t ∈ acc, Q t) → f acc x = .ok acc' → ∀ t ∈ acc', Q t)
    {acc pb : List Term} (h0 : ∀ t ∈ acc, Q t) (h : Outcome.foldlM f acc l = .ok pb) : ∀ t ∈ pb, Q t :=
  Outcome.foldlM_inv (fun acc => ∀ t ∈ acc, Q t) hf h0 h

private theorem snoc {Q : Term → Prop} {acc : List Term} {t : Term} (h : ∀ t ∈ acc, Q t) (ht : Q t) :
    ∀ t' ∈ acc ++ [t], Q t' := by
  intro t' h'
  rcases List.mem_append.1 h' with h' | h'
  · exact h t' h'
  · rw [List.mem_singleton.1 h']; exact ht

private theorem idx_some {α : Type} {l : List α} {i : Nat} {a : α} (h : Outcome.idx l i = .ok a) : l[i]? = some a :=
  Outcome.idx_ok_iff.1 h

private theorem deref_some {α : Type} {x : Option α} {a : α} (h : Outcome.deref x = .ok a) : x = some a := by
  cases x <;> simp_all [Outcome.deref]

section
variable {rot : RotatePoint} {solve : Solver} (hs : Solver.Frame solve) (sc : Scene G) (e e' : Env)
include hs

/-- C51: the intrinsic refinement of a camera changes nothing but its intrinsics and the poses of its
valid board observations. -/
theorem C51_intrinsic_scope (c : Nat) (h : refineIntrinsic rot solve sc e c = .ok e') (k : Param)
    (hk : e' k ≠ e k) : IntrinsicScope sc c k := by
  unfold refineIntrinsic at h
  obtain ⟨pb, hpb, h⟩ := Outcome.bind_eq_ok.1 h
  cases h
  refine unchanged hs (D := IntrinsicScope sc c) ?_ e k hk
  refine terms_inv ?_ (by simp) hpb
  intro acc acc' i hi hacc h
  unfold intrinsicTerms at h
  obtain ⟨bo, hbo, h⟩ := Outcome.bind_eq_ok.1 h
  split at h
  · rename_i hv
    obtain ⟨bp, hbp, h⟩ := Outcome.bind_eq_ok.1 h
    refine terms_inv ?_ hacc h
    intro acc acc' k hk hacc h
    unfold intrinsicTerm at h
    obtain ⟨id, -, h⟩ := Outcome.bind_eq_ok.1 h
    obtain ⟨p, -, h⟩ := Outcome.bind_eq_ok.1 h
    obtain ⟨q, -, h⟩ := Outcome.bind_eq_ok.1 h
    cases h
    refine snoc hacc ?_
    intro e e' hag
    have h1 := hag (.boardObs i) ⟨hi, bo, idx_some hbo, hv⟩
    have h2 := hag (.intr c) rfl
    simp only [h1, h2]
  · cases h; exact hacc

/-- C51: the refinement of an object changes nothing but the poses of its observations and of its boards, and
does not change that of the reference board. -/
theorem C51_object_scope (o : Object G (Vec3 ℝ)) (h : Verif.Refine.refineObject rot solve sc e o = .ok e')
    (k : Param) (hk : e' k ≠ e k) : ObjectScope sc o k := by
  unfold Verif.Refine.refineObject at h
  obtain ⟨pb, hpb, h⟩ := Outcome.bind_eq_ok.1 h
  cases h
  refine unchanged hs (D := ObjectScope sc o) ?_ e k hk
  refine terms_inv ?_ (by simp) hpb
  intro acc acc' i hi hacc h
  unfold objectTerms at h
  obtain ⟨x, hx, h⟩ := Outcome.bind_eq_ok.1 h
  refine terms_inv ?_ hacc h
  intro acc acc' j hj hacc h
  unfold objectBoardTerms at h
  obtain ⟨bo, hbo, h⟩ := Outcome.bind_eq_ok.1 h
  have hobj : x.obj = o.id := by
    have := (List.mem_filter.1 hi).2
    rw [idx_some hx] at this
    simpa using this
  split at h
  · obtain ⟨bp, hbp, h⟩ := Outcome.bind_eq_ok.1 h
    refine terms_inv ?_ hacc h
    intro acc acc' k hk hacc h
    unfold objectTerm at h
    obtain ⟨id, -, h⟩ := Outcome.bind_eq_ok.1 h
    obtain ⟨p, -, h⟩ := Outcome.bind_eq_ok.1 h
    obtain ⟨q, -, h⟩ := Outcome.bind_eq_ok.1 h
    cases h
    refine snoc hacc ?_
    intro e e' hag
    have h1 := hag (.objObs i) ⟨x, idx_some hx, hobj⟩
    by_cases hr : o.refBoard = bo.obs.board
    · simp only [h1, if_pos hr]; rfl
    · have h2 := hag (.boardPose o.id bo.obs.board) ⟨rfl, fun h => hr h.symm⟩
      simp only [h1, h2]
  · cases h; exact hacc

/-- C51: the refinement of a camera group alone. -/
theorem C51_group_scope (g : CamGroup G) (h : refineCameraGroup rot solve sc e g = .ok e') (k : Param)
    (hk : e' k ≠ e k) : GroupScope g k := by
  unfold refineCameraGroup at h
  obtain ⟨pb, hpb, h⟩ := Outcome.bind_eq_ok.1 h
  cases h
  refine unchanged hs (D := GroupScope g) ?_ e k hk
  refine terms_inv ?_ (by simp) hpb
  intro acc acc' v hv hacc h
  unfold groupTerms at h
  obtain ⟨x, hx, h⟩ := Outcome.bind_eq_ok.1 h
  obtain ⟨o, ho, h⟩ := Outcome.bind_eq_ok.1 h
  refine terms_inv ?_ hacc h
  intro acc acc' k hk hacc h
  unfold groupTerm at h
  obtain ⟨id, -, h⟩ := Outcome.bind_eq_ok.1 h
  obtain ⟨p, -, h⟩ := Outcome.bind_eq_ok.1 h
  obtain ⟨q, -, h⟩ := Outcome.bind_eq_ok.1 h
  cases h
  refine snoc hacc ?_
  intro e e' hag
  have h1 := hag (.objPose g.id v.1 x.obj) rfl
  by_cases hr : g.refCam = x.cam
  · simp only [h1, if_pos hr]; rfl
  · have h2 := hag (.camPose g.id x.cam) ⟨rfl, fun h => hr h.symm⟩
    simp only [h1, h2]

/-- C51: the joint refinement of a camera group and of the objects. -/
theorem C51_group_objects_scope (g : CamGroup G) (h : refineGroupAndObjects rot solve sc e g = .ok e') (k : Param)
    (hk : e' k ≠ e k) : GroupObjectScope sc g k := by
  unfold refineGroupAndObjects at h
  obtain ⟨pb, hpb, h⟩ := Outcome.bind_eq_ok.1 h
  cases h
  refine unchanged hs (D := GroupObjectScope sc g) ?_ e k hk
  refine terms_inv ?_ (by simp) hpb
  intro acc acc' v hv hacc h
  unfold groupObjectTerms at h
  obtain ⟨x, hx, h⟩ := Outcome.bind_eq_ok.1 h
  obtain ⟨o, ho, h⟩ := Outcome.bind_eq_ok.1 h
  refine terms_inv ?_ hacc h
  intro acc acc' k hk hacc h
  unfold groupObjectTerm at h
  obtain ⟨id, -, h⟩ := Outcome.bind_eq_ok.1 h
  obtain ⟨q, -, h⟩ := Outcome.bind_eq_ok.1 h
  obtain ⟨b, -, h⟩ := Outcome.bind_eq_ok.1 h
  obtain ⟨bp, -, h⟩ := Outcome.bind_eq_ok.1 h
  obtain ⟨p, -, h⟩ := Outcome.bind_eq_ok.1 h
  cases h
  refine snoc hacc ?_
  intro e e' hag
  have h1 := hag (.objPose g.id v.1 x.obj) rfl
  have h2 : ∀ h : ¬ g.refCam = x.cam, e (.camPose g.id x.cam) = e' (.camPose g.id x.cam) :=
    fun h => hag (.camPose g.id x.cam) ⟨rfl, fun h' => h h'.symm⟩
  have h3 : ∀ h : ¬ o.refBoard = b.1, e (.boardPose x.obj b.1) = e' (.boardPose x.obj b.1) :=
    fun h => hag (.boardPose x.obj b.1) ⟨o, deref_some ho, fun h' => h h'.symm⟩
  by_cases hr : g.refCam = x.cam <;> by_cases hb : o.refBoard = b.1
  · simp only [h1, if_pos hr, if_pos hb]; rfl
  · simp only [h1, if_pos hr, h3 hb]; rfl
  · simp only [h1, if_pos hb, h2 hr]; rfl
  · simp only [h1, h2 hr, h3 hb]

/-- C51: the joint refinement of a camera group, the objects and the intrinsics. -/
theorem C51_group_intrinsics_scope (g : CamGroup G) (h : refineGroupObjectsIntrinsics rot solve sc e g = .ok e')
    (k : Param) (hk : e' k ≠ e k) : GroupIntrinsicScope sc g k := by
  unfold refineGroupObjectsIntrinsics at h
  obtain ⟨pb, hpb, h⟩ := Outcome.bind_eq_ok.1 h
  cases h
  refine unchanged hs (D := GroupIntrinsicScope sc g) ?_ e k hk
  refine terms_inv ?_ (by simp) hpb
  intro acc acc' v hv hacc h
  unfold groupIntrinsicTerms at h
  obtain ⟨x, hx, h⟩ := Outcome.bind_eq_ok.1 h
  obtain ⟨o, ho, h⟩ := Outcome.bind_eq_ok.1 h
  refine terms_inv ?_ hacc h
  intro acc acc' k hk hacc h
  unfold groupIntrinsicTerm at h
  obtain ⟨id, -, h⟩ := Outcome.bind_eq_ok.1 h
  obtain ⟨q, -, h⟩ := Outcome.bind_eq_ok.1 h
  obtain ⟨b, -, h⟩ := Outcome.bind_eq_ok.1 h
  obtain ⟨bp, -, h⟩ := Outcome.bind_eq_ok.1 h
  obtain ⟨p, -, h⟩ := Outcome.bind_eq_ok.1 h
  cases h
  refine snoc hacc ?_
  intro e e' hag
  have h1 := hag (.objPose g.id v.1 x.obj) rfl
  have h4 := hag (.intr x.cam) ⟨x, List.mem_of_getElem? (idx_some hx), rfl⟩
  have h2 : ∀ h : ¬ g.refCam = x.cam, e (.camPose g.id x.cam) = e' (.camPose g.id x.cam) :=
    fun h => hag (.camPose g.id x.cam) ⟨rfl, fun h' => h h'.symm⟩
  have h3 : ∀ h : ¬ o.refBoard = b.1, e (.boardPose x.obj b.1) = e' (.boardPose x.obj b.1) :=
    fun h => hag (.boardPose x.obj b.1) ⟨o, deref_some ho, fun h' => h h'.symm⟩
  by_cases hr : g.refCam = x.cam <;> by_cases hb : o.refBoard = b.1
  · simp only [h1, h4, if_pos hr, if_pos hb]; rfl
  · simp only [h1, h4, if_pos hr, h3 hb]; rfl
  · simp only [h1, h4, if_pos hb, h2 hr]; rfl
  · simp only [h1, h4, h2 hr, h3 hb]

end

/-! ### All objects, all groups -/

section
variable {rot : RotatePoint} {solve : Solver} (hs : Solver.Frame solve) (sc : Scene G) (hk : Keyed sc)
  (e e' : Env)
include hs hk

/-- C51: `refineAllObject3D` keeps the reference board of every object, the intrinsics of every camera and
every camera pose. -/
theorem C51_all_objects (h : refineAllObjects rot solve sc e = .ok e') :
    (∀ j o, OMap.get? sc.objs j = some o → e' (.boardPose j o.refBoard) = e (.boardPose j o.refBoard)) ∧
    (∀ c, e' (.intr c) = e (.intr c)) ∧ (∀ g c, e' (.camPose g c) = e (.camPose g c)) := by
  refine Outcome.foldlM_inv (fun e'' : Env => (∀ j o, OMap.get? sc.objs j = some o →
      e'' (.boardPose j o.refBoard) = e (.boardPose j o.refBoard)) ∧
      (∀ c, e'' (.intr c) = e (.intr c)) ∧ (∀ g c, e'' (.camPose g c) = e (.camPose g c)))
    ?_ ⟨fun _ _ _ => rfl, fun _ => rfl, fun _ _ => rfl⟩ h
  intro e1 e2 x hx ⟨h1, h2, h3⟩ hstep
  have hsc := fun k => C51_object_scope hs sc e1 e2 x.2 hstep k
  refine ⟨fun j o ho => ?_, fun c => ?_, fun g c => ?_⟩
  · rw [← h1 j o ho]
    by_contra hne
    obtain ⟨hj, hb⟩ := hsc (.boardPose j o.refBoard) hne
    obtain ⟨hid, hget⟩ := hk.objs x hx
    rw [hj, hid, hget] at ho
    exact hb (by rw [← Option.some.inj ho])
  · rw [← h2 c]; by_contra hne; exact hsc (.intr c) hne
  · rw [← h3 g c]; by_contra hne; exact hsc (.camPose g c) hne

/-- C51: the joint refinement of all groups keeps the reference camera of every group, the reference board
of every object and the intrinsics of every camera. -/
theorem C51_all_groups (h : refineAllGroups rot solve sc e = .ok e') :
    (∀ i g, OMap.get? sc.t.groups i = some g → e' (.camPose i g.refCam) = e (.camPose i g.refCam)) ∧
    (∀ j o, OMap.get? sc.objs j = some o → e' (.boardPose j o.refBoard) = e (.boardPose j o.refBoard)) ∧
    (∀ c, e' (.intr c) = e (.intr c)) := by
  refine Outcome.foldlM_inv (fun e'' : Env =>
      (∀ i g, OMap.get? sc.t.groups i = some g → e'' (.camPose i g.refCam) = e (.camPose i g.refCam)) ∧
      (∀ j o, OMap.get? sc.objs j = some o → e'' (.boardPose j o.refBoard) = e (.boardPose j o.refBoard)) ∧
      (∀ c, e'' (.intr c) = e (.intr c)))
    ?_ ⟨fun _ _ _ => rfl, fun _ _ _ => rfl, fun _ => rfl⟩ h
  intro e1 e2 x hx ⟨h1, h2, h3⟩ hstep
  have hsc := fun k => C51_group_objects_scope hs sc e1 e2 x.2 hstep k
  refine ⟨fun i g hg => ?_, fun j o ho => ?_, fun c => ?_⟩
  · rw [← h1 i g hg]
    by_contra hne
    obtain ⟨hi, hc⟩ := hsc (.camPose i g.refCam) hne
    obtain ⟨hid, hget⟩ := hk.groups x hx
    rw [hi, hid, hget] at hg
    exact hc (by rw [← Option.some.inj hg])
  · rw [← h2 j o ho]
    by_contra hne
    obtain ⟨o', ho', hb⟩ := hsc (.boardPose j o.refBoard) hne
    rw [ho] at ho'
    exact hb (by rw [Option.some.inj ho'])
  · rw [← h3 c]; by_contra hne; exact hsc (.intr c) hne

/-- C51: so does the refinement that includes the intrinsics, except for the intrinsics. -/
theorem C51_all_groups_intrinsics (h : refineAllGroupsIntrinsics rot solve sc e = .ok e') :
    (∀ i g, OMap.get? sc.t.groups i = some g → e' (.camPose i g.refCam) = e (.camPose i g.refCam)) ∧
    (∀ j o, OMap.get? sc.objs j = some o → e' (.boardPose j o.refBoard) = e (.boardPose j o.refBoard)) := by
  refine Outcome.foldlM_inv (fun e'' : Env =>
      (∀ i g, OMap.get? sc.t.groups i = some g → e'' (.camPose i g.refCam) = e (.camPose i g.refCam)) ∧
      (∀ j o, OMap.get? sc.objs j = some o → e'' (.boardPose j o.refBoard) = e (.boardPose j o.refBoard)))
    ?_ ⟨fun _ _ _ => rfl, fun _ _ _ => rfl⟩ h
  intro e1 e2 x hx ⟨h1, h2⟩ hstep
  have hsc := fun k => C51_group_intrinsics_scope hs sc e1 e2 x.2 hstep k
  refine ⟨fun i g hg => ?_, fun j o ho => ?_⟩
  · rw [← h1 i g hg]
    by_contra hne
    obtain ⟨hi, hc⟩ := hsc (.camPose i g.refCam) hne
    obtain ⟨hid, hget⟩ := hk.groups x hx
    rw [hi, hid, hget] at hg
    exact hc (by rw [← Option.some.inj hg])
  · rw [← h2 j o ho]
    by_contra hne
    obtain ⟨o', ho', hb⟩ := hsc (.boardPose j o.refBoard) hne
    rw [ho] at ho'
    exact hb (by rw [Option.some.inj ho'])

end

/-! ### The refinements of the workflow model are these -/

/-- C51: the abstract refinement of a group in the model of the workflow (`Pipeline.refineGroup`, arbitrary
new poses except for the reference camera) covers what the solver does to the poses of the group. -/
theorem C51_group_refinement {rot : RotatePoint} {solve : Solver} (hs : Solver.Frame solve)
    (ro : Rodrigues ℝ) (hro : ro.Sound) (sc : Scene (Pose ℝ)) (e e' : Env) (g : CamGroup (Pose ℝ))
    (h : refineGroupAndObjects rot solve sc e g = .ok e')
    (hg : ∀ x ∈ g.poses, x.2 = Residual.pose ro hro (e (.camPose g.id x.1))) :
    (Pipeline.refineGroup (fun c => Residual.pose ro hro (e' (.camPose g.id c))) g).poses =
      g.poses.map fun x => (x.1, Residual.pose ro hro (e' (.camPose g.id x.1))) := by
  unfold Pipeline.refineGroup
  refine List.map_congr_left fun x hx => ?_
  by_cases hr : x.1 = g.refCam
  · have : e' (.camPose g.id x.1) = e (.camPose g.id x.1) := by
      by_contra hne
      exact (C51_group_objects_scope hs sc e e' g h (.camPose g.id x.1) hne).2 hr
    rw [if_pos hr, hg x hx, this]
  · rw [if_neg hr]

/-- C51: likewise for the refinement of an object. -/
theorem C51_object_refinement {rot : RotatePoint} {solve : Solver} (hs : Solver.Frame solve)
    (ro : Rodrigues ℝ) (hro : ro.Sound) (sc : Scene (Pose ℝ)) (e e' : Env) (o : Object (Pose ℝ) (Vec3 ℝ))
    (h : Verif.Refine.refineObject rot solve sc e o = .ok e')
    (hg : ∀ x ∈ o.poses, x.2 = Residual.pose ro hro (e (.boardPose o.id x.1))) :
    (o.poses.map fun x => (x.1, if x.1 = o.refBoard then x.2 else Residual.pose ro hro (e' (.boardPose o.id x.1)))) =
      o.poses.map fun x => (x.1, Residual.pose ro hro (e' (.boardPose o.id x.1))) := by
  refine List.map_congr_left fun x hx => ?_
  by_cases hr : x.1 = o.refBoard
  · have : e' (.boardPose o.id x.1) = e (.boardPose o.id x.1) := by
      by_contra hne
      exact (C51_object_scope hs sc e e' o h (.boardPose o.id x.1) hne).2 hr
    rw [if_pos hr, hg x hx, this]
  · rw [if_neg hr]

/-! ### fix_intrinsic -/

private theorem objects_intr {rot : RotatePoint} {solve : Solver} (hs : Solver.Frame solve) (sc : Scene G)
    (e e' : Env) (h : refineAllObjects rot solve sc e = .ok e') : ∀ c, e' (.intr c) = e (.intr c) := by
  refine Outcome.foldlM_inv (fun e'' : Env => ∀ c, e'' (.intr c) = e (.intr c)) ?_ (fun _ => rfl) h
  intro e1 e2 x hx h1 hstep c
  rw [← h1 c]; by_contra hne; exact C51_object_scope hs sc e1 e2 x.2 hstep (.intr c) hne

private theorem groups_intr {rot : RotatePoint} {solve : Solver} (hs : Solver.Frame solve) (sc : Scene G)
    (e e' : Env) (h : refineAllGroups rot solve sc e = .ok e') : ∀ c, e' (.intr c) = e (.intr c) := by
  refine Outcome.foldlM_inv (fun e'' : Env => ∀ c, e'' (.intr c) = e (.intr c)) ?_ (fun _ => rfl) h
  intro e1 e2 x hx h1 hstep c
  rw [← h1 c]; by_contra hne; exact C51_group_objects_scope hs sc e1 e2 x.2 hstep (.intr c) hne

/-- C38: with `fix_intrinsic` (any value but 0) the whole workflow returns the intrinsics of every camera exactly as
they were initialised, for every solver, every data and every pose estimate. -/
theorem C38_fixed {rot : RotatePoint} {solve : Solver} (hs : Solver.Frame solve) (fix : Int) (hfix : fix ≠ 0)
    (nCam : Nat) (w : World G) (e e' : Env) (h : calibrate rot solve fix nCam w e = .ok e') (c : Nat) :
    e' (.intr c) = e (.intr c) := by
  unfold calibrate at h
  obtain ⟨e1, h1, h⟩ := Outcome.bind_eq_ok.1 h
  rw [if_neg hfix] at h
  cases h
  unfold calibrateBefore at h1
  obtain ⟨e2, h2, h1⟩ := Outcome.bind_eq_ok.1 h1
  obtain ⟨e3, h3, h1⟩ := Outcome.bind_eq_ok.1 h1
  have k1 : e2 (.intr c) = e (.intr c) := by
    unfold initIntrinsic at h2
    simp only [if_neg hfix] at h2
    cases h2; rfl
  have k2 : e3 (.intr c) = e2 (.intr c) := objects_intr hs _ _ _ h3 c
  rw [← k1, ← k2]
  have := Outcome.foldlM_inv (fun e'' : Env => ∀ c, e'' (.intr c) = e3 (.intr c)) ?_ (fun _ => rfl) h1
  · exact this c
  · intro e4 e5 st _ h4 hstep c
    rw [← h4 c]
    exact groups_intr hs _ _ _ hstep c

/-- C38: the intrinsics with which the workflow starts are the matrix and coefficients handed to each camera
(from the parameter file, or by OpenCV). -/
theorem C38_initialised (model : Nat → Int) (start : Nat → Mat3 ℝ × List ℝ) (nCam : Nat) (e e' : Env)
    (h : initCameras model start nCam e = .ok e') (c : Nat) (hc : c < nCam) :
    Camera.getCameraMat (e' (.intr c)) =
      Camera.pinhole ((start c).1 0 0) ((start c).1 1 1) ((start c).1 0 2) ((start c).1 1 2) ∧
    (∀ n, Camera.nbCoeffs (model c) = some n →
      Camera.getDistortionVector (model c) (e' (.intr c)) = (start c).2.take n) := by
  have key : ∀ n e', initCameras model start n e = .ok e' → ∀ c < n,
      ∃ I, Camera.setIntrinsics (model c) I (start c).1 (start c).2 = .ok (e' (.intr c)) := by
    intro n
    induction n with
    | zero => intro _ _ c hc; omega
    | succ n ih =>
      intro e' h c hc
      unfold initCameras at h
      rw [List.range_succ, Outcome.foldlM_append] at h
      obtain ⟨e1, h1, h⟩ := Outcome.bind_eq_ok.1 h
      rw [Outcome.foldlM_cons] at h
      obtain ⟨e2, h2, h⟩ := Outcome.bind_eq_ok.1 h
      cases h
      unfold initStep at h2
      obtain ⟨I, hI, h2⟩ := Outcome.bind_eq_ok.1 h2
      cases h2
      by_cases hcn : c = n
      · subst hcn
        exact ⟨_, by rw [hI]; simp⟩
      · obtain ⟨J, hJ⟩ := ih e1 h1 c (by omega)
        exact ⟨J, by rw [hJ]; simp [hcn]⟩
  obtain ⟨I, hI⟩ := key nCam e' h c hc
  generalize e' (.intr c) = J at hI
  unfold Camera.setIntrinsics at hI
  cases hm : Camera.nbCoeffs (model c) with
  | none =>
    have := (Camera.C37_unsupported (model c) hm (Camera.setCameraMat I (start c).1) (start c).2).1
    rw [this] at hI
    cases hI
    exact ⟨Camera.C37_camera_matrix_any I _, by simp⟩
  | some n =>
    by_cases hd : n ≤ (start c).2.length
    · obtain ⟨J', h1, h2, h3⟩ := Camera.C37_distortion (model c) n hm (Camera.setCameraMat I (start c).1) (start c).2 hd
      rw [hI] at h1
      cases h1
      refine ⟨by rw [h3]; exact Camera.C37_camera_matrix_any I _, ?_⟩
      intro n' hn'
      cases hn'
      exact h2
    · rw [Camera.C37_distortion_short (model c) n hm _ _ (by omega)] at hI
      cases hI

/-- C38: without `fix_intrinsic` the intrinsics of the cameras are refined at the start and in the final joint
refinement. -/
theorem C38_free (rot : RotatePoint) (solve : Solver) (nCam : Nat) (w : World G) (e : Env) :
    calibrate rot solve 0 nCam w e = (do
      let e1 ← refineAllIntrinsics rot solve nCam (w.scene 0 (w.write 0 e)) (w.write 0 e)
      let e2 ← calibrateObjects rot solve w e1
      let e3 ← Outcome.foldlM (refineStage rot solve w) e2 [2, 3, 4, 5]
      refineAllGroupsIntrinsics rot solve (w.scene 5 e3) e3) := by
  unfold calibrate calibrateBefore initIntrinsic
  simp only [if_pos]
  cases refineAllIntrinsics rot solve nCam (w.scene 0 (w.write 0 e)) (w.write 0 e) with
  | ok e1 =>
    simp only [Outcome.bind_ok]
    cases calibrateObjects rot solve w e1 <;> simp
  | ub => rfl
  | throw => rfl
  | diverge => rfl

/-! ### The contract of the solver can be met -/

/-- Sum of the squared residuals. -/
noncomputable def total (pb : List Term) (e : Env) : ℝ :=
  (pb.map fun t => match t e with
    | some r => r.1 ^ 2 + r.2 ^ 2
    | none => 0).sum

/-- The environment with one number replaced. -/
def withEntry (e : Env) (k : Param) (i : Nat) (x : ℝ) : Env :=
  fun k' => if k' = k then (fun j => if j = i then x else e k j) else e k'

/-- One step of steepest descent. -/
noncomputable def descend (α : ℝ) : Solver := fun pb e k i =>
  e k i - α * deriv (fun x => total pb (withEntry e k i x)) (e k i)

/-- Steepest descent meets the contract assumed of the solver. -/
theorem descend_frame (α : ℝ) : Solver.Frame (descend α) := by
  intro pb e k h
  funext i
  have hc : (fun x => total pb (withEntry e k i x)) = fun _ => total pb e := by
    funext x
    unfold total
    congr 1
    refine List.map_congr_left fun t ht => ?_
    rw [h t ht (withEntry e k i x) e fun k' hk' => by simp [withEntry, hk']]
  simp [descend, hc]

/-! ### A small scene -/

/-- One Brown camera, two boards in one object, the second board seen in one frame. -/
noncomputable def demo : Scene (Pose ℝ) where
  bpts := [[![0, 0, 0]], [![1, 0, 0], ![0, 1, 0]]]
  obs := [⟨⟨0, 7, 1, [(3, 4)], [1]⟩, true, ()⟩]
  camBoards := fun _ => [0]
  model := fun _ => 0
  objs := [(0, { id := 0, refBoard := 0, nbBoards := 2, boards := [(0, ()), (1, ())], poses := [(0, 1), (1, 1)],
                 b2o := [((0, 0), 0), ((1, 0), 1), ((1, 1), 2)], o2b := [(0, 0), (1, 0), (1, 1)],
                 pts := [![0, 0, 0], ![1, 0, 0], ![0, 1, 0]] })]
  oo := [{ obj := 0, cam := 0, frame := 7, boardIds := [1], boards := [0], pts := [(3, 4)], ids := [2] }]
  t := { groups := [(0, { id := 0, refCam := 0, cameras := [(0, ())], camIdx := [0], poses := [(0, 1)],
                          objObs := [0], frames := [(7, ())] })],
         groupObs := [((0, 7), [0])], frameGroups := [(7, [0])] }

/-- Its tables are keyed, and all refinements run on it. -/
theorem demo_runs (rot : RotatePoint) (solve : Solver) (e : Env) :
    Keyed demo ∧ (∃ e', refineAllIntrinsics rot solve 1 demo e = .ok e') ∧
    (∃ e', refineAllObjects rot solve demo e = .ok e') ∧ (∃ e', refineAllGroups rot solve demo e = .ok e') ∧
    (∃ e', refineAllGroupsIntrinsics rot solve demo e = .ok e') := by
  refine ⟨⟨?_, ?_⟩, ⟨_, rfl⟩, ⟨_, rfl⟩, ⟨_, rfl⟩, ⟨_, rfl⟩⟩
  · intro x hx
    simp only [demo, List.mem_singleton] at hx
    subst hx
    exact ⟨rfl, rfl⟩
  · intro x hx
    simp only [demo, List.mem_singleton] at hx
    subst hx
    exact ⟨rfl, rfl⟩

open Classical in
/-- A solver that moves every block that has an influence. -/
noncomputable def mover : Solver := fun pb e k i =>
  if NoInfluence k pb then e k i else e k i + 1

theorem mover_frame : Solver.Frame mover := by
  intro pb e k h
  funext i
  simp only [mover, if_pos h]

/-- Without `fix_intrinsic` a solver may change the intrinsics: with this one they all change. -/
theorem C38_free_changes (e : Env) : ∃ e', refineIntrinsic (fun _ p => p) mover demo e 0 = .ok e' ∧
    e' (.intr 0) ≠ e (.intr 0) := by
  refine ⟨_, rfl, ?_⟩
  intro h
  have h0 := congrFun h 0
  have hn : ¬ NoInfluence (.intr 0) [fun e : Env => boardIntrinsics (fun _ p => p) (mkObs (3, 4) ![0, 1, 0]) 0
      (e (.boardObs 0)) (e (.intr 0))] := by
    intro hn
    let E : ℝ → Env := fun u k i => if k = .intr 0 ∧ i = 2 then u else 0
    have := hn _ List.mem_cons_self (E 0) (E 1) (by
        intro k hk
        funext i
        simp [E, hk])
    simp [boardIntrinsics, E] at this
    norm_num [mkObs] at this
  have h1 : mover [fun e : Env => boardIntrinsics (fun _ p => p) (mkObs (3, 4) ![0, 1, 0]) 0
      (e (.boardObs 0)) (e (.intr 0))] e (.intr 0) 0 = e (.intr 0) 0 := h0
  simp [mover, hn] at h1

end Verif.Props.Refine
