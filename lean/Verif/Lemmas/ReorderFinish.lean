import Verif.Lemmas.ReorderRun
import Verif.Model.Output

/-! C97: the last stage and the saved files. -/
namespace Verif.Lemmas.ReorderFinish
open Verif Verif.Objects Verif.Groups Verif.Structure Verif.GroupPose Verif.NonOverlap Verif.Pipeline Verif.Spec.Groups
open Verif.Spec.NonOverlap Verif.Spec.Reorder Verif.Spec.Schedule Verif.Spec.Store Verif.Spec.Pipeline
open Verif.Spec.Units (values)
open Verif.Lemmas.ReorderMerge Verif.Lemmas.ReorderGroups Verif.Lemmas.ReorderPairs Verif.Lemmas.ReorderRun Verif.Lemmas.Pipeline
open Verif.Lemmas.FinishRun Verif.Props.GroupPose

variable {V G Pt P Path : Type}

theorem posed_iff [Group G] (toVec : G → V) (avg : List V → V) {frames : List Nat} {t : GroupTables G} {oo : List (ObjObs P)}
    (h : GroupObsOf oo frames t) (hfr : ∀ o ∈ oo, o.frame ∈ frames) (pose : Nat → G) (i f a : Nat) :
    (poseIn (objectPoses toVec avg t oo pose) i f a).isSome = true ↔
      ∃ g, OMap.get? t.groups i = some g ∧ ∃ o ∈ oo, o.frame = f ∧ o.cam ∈ OMap.keys g.cameras ∧ o.obj = a := by
  have e0 : OMap.get? (objectPoses toVec avg t oo pose) (i, f) = (OMap.get? t.groupObs (i, f)).map fun is =>
      match OMap.get? t.groups i with
      | some g => (computeObjectsPose avg g.refCam [] (entries toVec g oo pose is)).1
      | none => [] := by
    unfold objectPoses
    exact get?_mapKey (fun (k : Nat × Nat) (is : List Nat) => match OMap.get? t.groups k.1 with
        | some g => (computeObjectsPose avg g.refCam [] (entries toVec g oo pose is)).1
        | none => []) _ _
  unfold poseIn
  rw [e0]
  constructor
  · intro hs
    rcases e : OMap.get? t.groupObs (i, f) with _ | is
    · rw [e] at hs
      simp at hs
    obtain ⟨g, hg, hf, hne, his⟩ := (h.obs i f is).1 e
    refine ⟨g, hg, ?_⟩
    rw [e] at hs
    simp only [Option.map_some, hg, Option.bind_some] at hs
    rw [(Lemmas.GroupPose.computeObjectsPose_spec avg g.refCam [] List.Pairwise.nil _).2.1 a] at hs
    split at hs
    swap
    · simp [OMap.get?] at hs
    rename_i hmem
    obtain ⟨en, hen, rfl⟩ := List.mem_map.1 hmem
    unfold entries at hen
    obtain ⟨k, hk, e2⟩ := List.mem_filterMap.1 hen
    obtain ⟨o, ho, rfl⟩ := Option.map_eq_some_iff.1 e2
    rw [his] at hk
    obtain ⟨o', ho', hp⟩ := (Props.Store.positions_get _ _ _).1 hk
    rw [ho] at ho'
    simp only [Option.some.injEq] at ho'
    subst ho'
    simp only [Bool.and_eq_true, beq_iff_eq, decide_eq_true_eq] at hp
    exact ⟨o, List.mem_of_getElem? ho, hp.1, hp.2, rfl⟩
  · rintro ⟨g, hg, o, ho, rfl, hc, rfl⟩
    obtain ⟨k, hk⟩ := List.getElem?_of_mem ho
    have hmem : k ∈ Spec.Store.positions
        (fun x : ObjObs P => x.frame == o.frame && decide (x.cam ∈ OMap.keys g.cameras)) oo :=
      (Props.Store.positions_get _ _ _).2 ⟨o, hk, by simpa using hc⟩
    have hob := (h.obs i o.frame _).2 ⟨g, hg, hfr o ho, List.ne_nil_of_mem hmem, rfl⟩
    rw [hob]
    simp only [Option.map_some, hg, Option.bind_some]
    rw [(Lemmas.GroupPose.computeObjectsPose_spec avg g.refCam [] List.Pairwise.nil _).2.1, if_pos]
    · rfl
    · unfold entries
      rw [List.mem_map]
      exact ⟨⟨o.cam, o.obj, poseInGroup toVec g o.cam (pose k)⟩, List.mem_filterMap.2 ⟨k, hmem, by rw [hk]; rfl⟩, rfl⟩

theorem poseIn_refine (φ : Nat → Nat → Nat → V) (op : OMap (Nat × Nat) (OMap Nat V)) (i f a : Nat) :
    poseIn (refinePoses φ op) i f a = (poseIn op i f a).map fun _ => φ i f a := by
  unfold poseIn refinePoses
  rw [get?_mapKey (fun (k : Nat × Nat) (m : OMap Nat V) => m.map fun p => (p.1, φ k.1 k.2 p.1)) op (i, f)]
  rcases OMap.get? op (i, f) with _ | m
  · rfl
  · simp only [Option.map_some, Option.bind_some]
    exact get?_mapKey (fun (k : Nat) (_ : V) => φ i f k) _ _

theorem refine_samePoses {σ : Equiv.Perm Nat} {φ φ' : Nat → Nat → Nat → V} (hφ : ∀ i f o, φ' i (σ f) o = φ i f o)
    {op op' : OMap (Nat × Nat) (OMap Nat V)} (h : ∀ i f a, (poseIn op' i (σ f) a).isSome = (poseIn op i f a).isSome) :
    SamePoses σ (refinePoses φ op) (refinePoses φ' op') := by
  intro i f a
  rw [poseIn_refine, poseIn_refine, hφ]
  have := h i f a
  rcases e : poseIn op i f a with _ | x <;> rcases e' : poseIn op' i (σ f) a with _ | y <;> rw [e, e'] at this <;> first | rfl | simp at this

theorem posed_same [Group G] {σ : Equiv.Perm Nat} {oo oo' : List (ObjObs P)} (h : SameObjects σ oo oo') {frames frames' : List Nat}
    {t t' : GroupTables G} (ht : GroupObsOf oo frames t) (ht' : GroupObsOf oo' frames' t') (hfr : ∀ o ∈ oo, o.frame ∈ frames)
    (hfr' : ∀ o ∈ oo', o.frame ∈ frames') (hb : values bare t'.groups = values bare t.groups)
    (toVec : G → V) (avg : List V → V) (pose pose' : Nat → G) (i f a : Nat) :
    (poseIn (objectPoses toVec avg t' oo' pose') i (σ f) a).isSome = (poseIn (objectPoses toVec avg t oo pose) i f a).isSome := by
  rw [Bool.eq_iff_iff, posed_iff toVec avg ht' hfr', posed_iff toVec avg ht hfr]
  have hi := sameGroups_of hb i
  have key : ∀ (g g' : CamGroup G), OMap.keys g'.cameras = OMap.keys g.cameras →
      ((∃ o ∈ oo', o.frame = σ f ∧ o.cam ∈ OMap.keys g'.cameras ∧ o.obj = a) ↔ ∃ o ∈ oo, o.frame = f ∧ o.cam ∈ OMap.keys g.cameras ∧ o.obj = a) := by
    intro g g' hk
    have hs := seenIn_same h hk f a
    have hpos : ∀ (oo : List (ObjObs P)) (g : CamGroup G) (f : Nat), 0 < seenIn oo g f a ↔
        ∃ o ∈ oo, o.frame = f ∧ o.cam ∈ OMap.keys g.cameras ∧ o.obj = a := by
      intro oo g f
      unfold seenIn
      rw [List.length_pos_iff_exists_mem]
      simp only [List.mem_filter, Bool.and_eq_true, beq_iff_eq, decide_eq_true_eq]
      exact ⟨fun ⟨o, h1, ⟨h2, h3⟩, h4⟩ => ⟨o, h1, h2, h3, h4⟩, fun ⟨o, h1, h2, h3, h4⟩ => ⟨o, h1, ⟨h2, h3⟩, h4⟩⟩
    rw [← hpos, ← hpos, hs]
  rcases e1 : OMap.get? t.groups i with _ | g1 <;> rcases e1' : OMap.get? t'.groups i with _ | g1' <;>
    simp only [e1, e1', Option.map_some, Option.map_none, reduceCtorEq, Option.some.injEq, Prod.mk.injEq] at hi
  · simp
  · constructor
    · rintro ⟨g, hg, h2⟩
      cases hg
      exact ⟨g1, rfl, (key g1 g1' hi.2.1).1 h2⟩
    · rintro ⟨g, hg, h2⟩
      cases hg
      exact ⟨g1', rfl, (key g1 g1' hi.2.1).2 h2⟩

/-! ### Saved files -/

theorem saveCameras_same {K : Type} [Zero K] [One K] [Group G] (cams : List (Output.CamData K)) {gs gs' : OMap Nat (CamGroup G)}
    (h : calibrated gs' = calibrated gs) : Output.saveCamerasParams cams gs' = Output.saveCamerasParams cams gs := by
  have e : ∀ gs : OMap Nat (CamGroup G), Output.saveCamerasParams cams gs = Output.saveCamerasParams cams (values bare gs) := by
    intro gs
    unfold Output.saveCamerasParams values
    rw [Lemmas.ProgramSame.foldlM_map]
    rfl
  rw [e, e gs, bare_iff.1 h]

/-! ### The last stage -/

section
variable [Group G] [SMul G Pt] (nCam nBoard : Nat) (σ : Equiv.Perm Nat) (l l' : List (Insertion P Path))
  (hl : ∀ a ∈ l, a.obs.cam < nCam ∧ a.obs.board < nBoard) (hl' : ∀ a ∈ l', a.obs.cam < nCam ∧ a.obs.board < nBoard)
  (hr : Reordered σ l l') (s s' : Store P Path) (hs : Store.run nCam nBoard l = .ok s) (hs' : Store.run nCam nBoard l' = .ok s')
  (out : BoardObs P → BoardObs P) (hout : ∀ o, out (renamed σ o) = renamed σ (out o))
  (hview : ∀ o, (out o).cam = o.cam ∧ (out o).frame = o.frame ∧ (out o).board = o.board ∧ (out o).pts.length = (out o).ids.length)
  (bpts : List (List Pt)) (n n' : Numerics V G) (hn : SameNumerics σ n n')

include hl hs hview in
theorem framesIn {st : State G Pt P} (h : Consistent bpts (OMap.keys s.frames) (s.obs.map out) st) : ∀ o ∈ st.oo, o.frame ∈ OMap.keys s.frames := by
  intro o ho
  obtain ⟨ob, _, hsee⟩ := (h.sees o.obj o.cam o.frame).1 ⟨o, ho, rfl, rfl, rfl⟩
  exact sees_frame nCam nBoard l hl s hs _ (sameViews out hview s.obs) ob o.cam o.frame hsee

include hl hl' hs hs' hview hn in
theorem finalStage_same (fix : Int) {st st' : State G Pt P} (h : SameCalibration σ st st')
    (c : Consistent bpts (OMap.keys s.frames) (s.obs.map out) st) (c' : Consistent bpts (OMap.keys s'.frames) (s'.obs.map out) st') :
    SameOutcome (fun r r' => SameCalibration σ r.1 r'.1 ∧ SamePoses σ r.2 r'.2) (Finish.finalStage n fix bpts st) (Finish.finalStage n' fix bpts st') := by
  have hpos := posed_same (G := G) h.oo c.groupObs c'.groupObs (framesIn nCam nBoard l hl s hs out hview bpts c)
    (framesIn nCam nBoard l' hl' s' hs' out hview bpts c') (bare_iff.1 h.groups) n.toVec n.avgV (n.objPose 5) (n'.objPose 5)
  have h5 := refine_samePoses (hn.inGroup 5) hpos
  unfold Finish.finalStage
  refine SameOutcome.bind (refineAll_same hn 5 bpts h) fun a b _ _ hab => ?_
  rw [hn.toVec, hn.avgV]
  unfold Finish.lastRefine
  split
  · refine SameOutcome.bind (refineAll_same hn 6 bpts hab) fun a b _ _ hab => ?_
    exact ⟨hab, refine_samePoses (hn.inGroup 6) fun i f a => by rw [h5 i f a]⟩
  · exact ⟨hab, h5⟩

include hl hl' hr hs hs' hout hview hn in
theorem run_same (fix : Int) (hb : bpts.length = nBoard) (ha : Props.Trust.Unordered n.avg) (hav : Props.Trust.Unordered n.avgV) (hk : Repeated n.avgV)
    (hhe : ∀ ps ps', ps.Perm ps' → n.he ps = n.he ps')
    (q : BoardObs P → G) (hq : ∀ o, q (renamed σ o) = q o) (qo : Nat → ObjObs P → G)
    (hqo : ∀ k o, qo k (unnumbered o) = qo k o ∧ qo k (renamedObj σ o) = qo k o)
    (hp : PosesBy n bpts s (s.obs.map out) q qo) (hp' : PosesBy n' bpts s' (s'.obs.map out) q qo) :
    SameOutcome (fun r r' => SameCalibration σ r.1 r'.1 ∧ SamePoses σ r.2 r'.2) (Finish.run n fix bpts s (s.obs.map out))
      (Finish.run n' fix bpts s' (s'.obs.map out)) :=
  stages_same nCam nBoard σ l l' hl hl' hr s s' hs hs' out hout hview bpts n n' hn (Finish.finalStage n fix bpts) (Finish.finalStage n' fix bpts)
    (fun _ _ h e e' => finalStage_same nCam nBoard σ l l' hl hl' s s' hs hs' out hview bpts n n' hn fix h e.consistent e'.consistent)
    hb ha hav hk hhe q hq qo hqo hp hp'

end

end Verif.Lemmas.ReorderFinish
