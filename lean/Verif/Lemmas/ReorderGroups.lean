import Verif.Lemmas.ReorderMerge
import Verif.Lemmas.ProgramSame
import Verif.Lemmas.FinishRun

/-! C97: camera groups with the same cameras and poses, whatever the numbers of the images. -/
namespace Verif.Lemmas.ReorderGroups
open Verif Verif.Objects Verif.Groups Verif.Structure Verif.GroupPose Verif.NonOverlap Verif.Pipeline Verif.Spec.Groups
open Verif.Spec.NonOverlap Verif.Spec.Reorder Verif.Spec.Schedule
open Verif.Spec.Units (values result)
open Verif.Lemmas.Units (get_values set_values foldlM_result foldlM_result' deref_map result_bind bind_result bind_congr')
open Verif.Lemmas.ReorderMerge

variable {V G Pt P Path : Type}

/-- A group without its lists of observations and frames. -/
def bare (g : CamGroup G) : CamGroup G := { g with objObs := [], frames := [] }

theorem groupFrame_bare (oo : List (ObjObs P)) (cams : List Nat) (gi : Nat) (frames : List Nat)
    (st : CamGroup G × OMap (Nat × Nat) (List Nat) × OMap Nat (List Nat)) :
    bare (frames.foldl (groupFrameStep oo cams gi) st).1 = bare st.1 := by
  induction frames generalizing st with
  | nil => rfl
  | cons f l ih =>
    rw [List.foldl_cons, ih]
    unfold groupFrameStep
    dsimp only
    split <;> rfl

/-- What making the group observations again does to the groups, apart from their lists. -/
def resetStep (m : OMap Nat (CamGroup G)) (e : Nat × CamGroup G) : Outcome (OMap Nat (CamGroup G)) := do
  let g ← Outcome.deref (OMap.get? m e.2.id)
  pure (OMap.set m e.2.id g)

theorem regroup_bare (oo : List (ObjObs P)) (frames : List Nat) (t : GroupTables G) :
    result (fun t : GroupTables G => values bare t.groups) (mergeAllCameraGroupObs oo frames t) =
      Outcome.foldlM resetStep (values bare t.groups) (values bare t.groups) := by
  unfold mergeAllCameraGroupObs initAllCameraGroupObs
  refine (foldlM_result (fun t : GroupTables G => values bare t.groups) (fun e : Nat × CamGroup G => (e.1, bare e.2)) ?_ t.groups
    { t with groupObs := [], frameGroups := [] }).symm
  rintro t ⟨k, g⟩
  unfold resetStep initCameraGroupObs
  dsimp only
  rw [get_values, deref_map, result_bind, bind_result]
  refine bind_congr' fun g' => ?_
  show Outcome.ok _ = Outcome.ok _
  dsimp only
  rw [← set_values, groupFrame_bare]
  rfl

theorem mergeInto_bare [Group G] (c : List Nat) (toRef : OMap Nat G) (st : CamGroup G) (e : Nat × CamGroup G) :
    mergeGroupInto c toRef st (e.1, bare e.2) = mergeGroupInto c toRef st e := rfl

theorem mergeCameraGroup_bare [Group G] (gs : OMap Nat (CamGroup G)) (T : OMap (Nat × Nat) G) (g : Graph Nat)
    (choose : Nat → Nat → Graph.DState → Nat) :
    mergeCameraGroup (values bare gs) T g choose = mergeCameraGroup gs T g choose := by
  unfold mergeCameraGroup
  congr 1
  funext m e
  unfold mergeGroupStep
  congr 1
  unfold mergeGroup
  refine bind_congr' fun r => ?_
  rw [get_values, deref_map, result_bind]
  refine bind_congr' fun rg => ?_
  refine bind_congr' fun tr => ?_
  unfold values
  rw [ProgramSame.foldlM_map]
  rfl

/-- The group has an observation. -/
def Listed (gs : OMap Nat (CamGroup G)) (oo : List (ObjObs P)) : Prop :=
  ∀ i g, OMap.get? gs i = some g → (g.objObs ≠ [] ↔ ∃ o ∈ oo, o.cam ∈ OMap.keys g.cameras)

theorem bare_get {gs gs' : OMap Nat (CamGroup G)} (h : values bare gs' = values bare gs) (i : Nat) :
    (OMap.get? gs' i).map bare = (OMap.get? gs i).map bare := by
  rw [← get_values, ← get_values, h]

theorem sameGroups_of {gs gs' : OMap Nat (CamGroup G)} (h : values bare gs' = values bare gs) : SameGroups gs gs' := by
  intro i
  have := congrArg (Option.map fun g : CamGroup G => (g.refCam, OMap.keys g.cameras, g.poses)) (bare_get h i)
  rw [Option.map_map, Option.map_map] at this
  exact this

theorem keys_of {gs gs' : OMap Nat (CamGroup G)} (h : values bare gs' = values bare gs) : OMap.keys gs' = OMap.keys gs := by
  have e : ∀ gs : OMap Nat (CamGroup G), OMap.keys gs = OMap.keys (values bare gs) := by
    intro gs
    unfold OMap.keys values
    rw [List.map_map]
    rfl
  rw [e, e gs, h]

theorem cams_seen {σ : Equiv.Perm Nat} {oo oo' : List (ObjObs P)} (h : SameObjects σ oo oo') (p : Nat → Prop) :
    (∃ o ∈ oo', p o.cam) ↔ ∃ o ∈ oo, p o.cam := by
  have hm := fun c => (h.map fun o : ObjObs P => o.cam).mem_iff (a := c)
  simp only [List.map_map, List.mem_map, Function.comp_apply, unnumbered, renamedObj] at hm
  constructor
  · rintro ⟨o, ho, hp⟩
    obtain ⟨x, hx, e⟩ := (hm o.cam).1 ⟨o, ho, rfl⟩
    exact ⟨x, hx, by rw [e]; exact hp⟩
  · rintro ⟨o, ho, hp⟩
    obtain ⟨x, hx, e⟩ := (hm o.cam).2 ⟨o, ho, rfl⟩
    exact ⟨x, hx, by rw [e]; exact hp⟩

theorem vertices_same {σ : Equiv.Perm Nat} {oo oo' : List (ObjObs P)} (h : SameObjects σ oo oo') {gs gs' : OMap Nat (CamGroup G)}
    (hb : values bare gs' = values bare gs) (hl : Listed gs oo) (hl' : Listed gs' oo') : observingGroups gs' = observingGroups gs := by
  unfold observingGroups
  rw [keys_of hb]
  apply List.filter_congr
  intro i _
  have hi := bare_get hb i
  rcases e : OMap.get? gs i with _ | g <;> rcases e' : OMap.get? gs' i with _ | g' <;>
    simp only [e, e', Option.map_some, Option.map_none, reduceCtorEq, Option.some.injEq] at hi
  · rfl
  · simp only [Option.any_some, decide_eq_decide]
    have hc : (bare g').cameras = (bare g).cameras := by rw [hi]
    replace hc : g'.cameras = g.cameras := hc
    rw [hl i g e, hl' i g' e', hc]
    exact cams_seen h (· ∈ OMap.keys g.cameras)

/-- Merging the groups along the same transforms gives the same groups. -/
theorem mergeWith_same [Group G] {σ : Equiv.Perm Nat} {oo oo' : List (ObjObs P)} (h : SameObjects σ oo oo')
    {t t' : GroupTables G} (hC : Collection t.groups) (hC' : Collection t'.groups)
    (hb : values bare t'.groups = values bare t.groups) (hl : Listed t.groups oo) (hl' : Listed t'.groups oo') (pp : PairPoses G)
    (choose : Nat → Nat → Graph.DState → Nat) : mergeWith t'.groups pp choose = mergeWith t.groups pp choose := by
  unfold mergeWith groupGraph
  rw [Props.NonOverlap.vertices_eq t hC, Props.NonOverlap.vertices_eq t' hC', vertices_same h hb hl hl',
    ← mergeCameraGroup_bare t'.groups, hb, mergeCameraGroup_bare]

theorem refine_bare (f : Nat → Nat → G) {gs gs' : OMap Nat (CamGroup G)} (h : values bare gs' = values bare gs) :
    values bare (refineGroups f gs') = values bare (refineGroups f gs) := by
  have e : ∀ gs : OMap Nat (CamGroup G), values bare (refineGroups f gs) = refineGroups f (values bare gs) := by
    intro gs
    unfold values refineGroups
    rw [List.map_map, List.map_map]
    rfl
  rw [e, e, h]

theorem forget_bare (gs : OMap Nat (CamGroup G)) : values bare (forget gs) = values bare gs := by
  unfold values forget
  rw [List.map_map]
  rfl

end Verif.Lemmas.ReorderGroups
