import Verif.Lemmas.Units

/-! The whole workflow commutes with a change of units. -/
namespace Verif.Lemmas.Units
open Verif Verif.Structure Verif.Objects Verif.Groups Verif.GroupPose Verif.NonOverlap Verif.Pipeline Verif.Spec.Units

variable {V W G H Pt Q P Path : Type}
variable [Group G] [Group H] (φ : G →* H) [SMul G Pt] [SMul H Q] (ψ : Pt → Q) (hψ : ∀ (g : G) (p : Pt), ψ (g • p) = φ g • ψ p)
  (ν : V → W) {n : Numerics V G} {n' : Numerics W H} (hn : SameNumerics φ ν n n')

theorem bind_map {A B C D : Type} (f : A → B) (g : C → D) {x' : Outcome B} {x : Outcome A} (h : x' = result f x)
    {k' : B → Outcome D} {k : A → Outcome C} (hk : ∀ a, k' (f a) = result g (k a)) : (x' >>= k') = result g (x >>= k) := by
  subst h
  rw [result_bind, bind_result]
  exact bind_congr' hk

theorem result_id {A : Type} (x : Outcome A) : result id x = x := by cases x <;> rfl

theorem result_comp {A B C : Type} (f : A → B) (g : B → C) (x : Outcome A) : result g (result f x) = result (g ∘ f) x := by
  cases x <;> rfl

theorem refineGroups_map {f : Nat → Nat → G} {f' : Nat → Nat → H} (hf : ∀ i b, f' i b = φ (f i b)) (gs : OMap Nat (CamGroup G)) :
    refineGroups f' (values (group φ) gs) = values (group φ) (refineGroups f gs) := by
  unfold refineGroups values
  rw [List.map_map, List.map_map]
  apply List.map_congr_left
  intro e _
  simp only [Function.comp_apply, refineGroup, group, values, List.map_map]
  congr 2
  apply List.map_congr_left
  intro p _
  simp only [Function.comp_apply, hf]
  split <;> rfl

include hn

section
include hψ

theorem refineAll_map (k : Nat) (bpts : List (List Pt)) (st : State G Pt P) :
    refineAll n' k (bpts.map (List.map ψ)) (state φ ψ st) = result (state φ ψ) (refineAll n k bpts st) := by
  unfold refineAll
  refine bind_map (values (object φ ψ)) _ (refineObjects_map φ ψ hψ bpts (hn.board k) st.objs) fun objs => ?_
  show Outcome.ok _ = Outcome.ok _
  congr 1
  simp only [state, tables]
  rw [refineGroups_map φ (hn.cam k)]

theorem calibrateObjects_map (bpts : List (List Pt)) (s : Store P Path) (obs : List (BoardObs P)) :
    calibrateObjects n' (bpts.map (List.map ψ)) s obs =
      result (fun r => (values (object φ ψ) r.1, r.2)) (calibrateObjects n bpts s obs) := by
  unfold calibrateObjects
  have e : n'.boardPose = fun i => φ (n.boardPose i) := funext hn.boardPose
  rw [e, hn.choose]
  refine bind_map (values (object φ ψ)) _ (buildObjects_map φ ψ hψ s _ hn.avg bpts _) fun objs => ?_
  refine bind_map id _ ((initAllObs_map φ ψ _ objs []).trans (result_id _).symm) fun oo => ?_
  exact bind_map (values (object φ ψ)) _ (refineObjects_map φ ψ hψ bpts (hn.board 0) objs) fun objs => rfl

end

theorem placeGroups_map (s : Store P Path) (objs : OMap Nat (Object G Pt)) (oo : List (ObjObs P)) :
    placeGroups n' s (values (object φ ψ) objs) oo = result (state φ ψ) (placeGroups n s objs oo) := by
  unfold placeGroups
  have e : n'.objPose 1 = fun i => φ (n.objPose 1 i) := funext (hn.objPose 1)
  rw [e, hn.choose]
  refine bind_map (values (group φ)) _ (buildGroups_map φ s oo _ hn.avg _) fun gs => ?_
  exact bind_map (tables φ) _ (mergeAllGroupObs_map φ oo _ { groups := gs }) fun t => rfl

omit [SMul G Pt] [SMul H Q] hn in
theorem forget_map (gs : OMap Nat (CamGroup G)) : forget (values (group φ) gs) = values (group φ) (forget gs) := by
  unfold forget values
  rw [List.map_map, List.map_map]
  rfl

section
include hψ

theorem joinObjects_map (k : Nat) (bpts : List (List Pt)) (s : Store P Path) (obs : List (BoardObs P)) (st : State G Pt P) :
    joinObjects n' k (bpts.map (List.map ψ)) s obs (state φ ψ st) = result (state φ ψ) (joinObjects n k bpts s obs st) := by
  unfold joinObjects
  have e : n'.objPose k = fun i => φ (n.objPose k i) := funext (hn.objPose k)
  rw [e, hn.choose]
  refine bind_map (values (object φ ψ)) _
    (merge3DObjects_map φ ν hn.toVec hn.ofVec hn.avgV ψ hψ hn.avg _ bpts st.objs st.t st.oo _) fun objs => ?_
  refine bind_map id _ ((mergeAllObs_map φ ψ _ objs).trans (result_id _).symm) fun oo => ?_
  refine bind_map (tables φ) _ ?_ fun t => rfl
  have h := mergeAllGroupObs_map φ oo (OMap.keys s.frames) { st.t with groups := forget st.t.groups }
  rw [← h]
  simp only [state, tables, forget_map]
  rfl

theorem mergeStage_map (k : Nat) (bpts : List (List Pt)) (s : Store P Path) (obs : List (BoardObs P)) (st : State G Pt P) :
    mergeStage n' k (bpts.map (List.map ψ)) s obs (state φ ψ st) = result (state φ ψ) (mergeStage n k bpts s obs st) :=
  bind_map (state φ ψ) _ (joinObjects_map φ ψ hψ ν hn k bpts s obs st) (refineAll_map φ ψ hψ ν hn k bpts)

theorem calibrateGroups_map (bpts : List (List Pt)) (s : Store P Path) (objs : OMap Nat (Object G Pt)) (oo : List (ObjObs P)) :
    calibrateGroups n' (bpts.map (List.map ψ)) s (values (object φ ψ) objs) oo =
      result (state φ ψ) (calibrateGroups n bpts s objs oo) :=
  bind_map (state φ ψ) _ (placeGroups_map φ ψ ν hn s objs oo) (refineAll_map φ ψ hψ ν hn 1 bpts)

theorem overlapping_map (bpts : List (List Pt)) (s : Store P Path) (obs : List (BoardObs P)) :
    overlapping n' (bpts.map (List.map ψ)) s obs = result (state φ ψ) (overlapping n bpts s obs) := by
  unfold overlapping
  refine bind_map _ _ (calibrateObjects_map φ ψ hψ ν hn bpts s obs) fun r => ?_
  exact bind_map (state φ ψ) _ (calibrateGroups_map φ ψ hψ ν hn bpts s r.1 r.2) (mergeStage_map φ ψ hψ ν hn 2 bpts s obs)

end

omit [SMul G Pt] [SMul H Q] [Group G] [Group H] hn in
theorem refinePoses_map {f : Nat → Nat → Nat → V} {f' : Nat → Nat → Nat → W} (hf : ∀ i b o, f' i b o = ν (f i b o))
    (op : OMap (Nat × Nat) (OMap Nat V)) : refinePoses f' (values (values ν) op) = values (values ν) (refinePoses f op) := by
  unfold refinePoses values
  rw [List.map_map, List.map_map]
  apply List.map_congr_left
  intro e _
  simp only [Function.comp_apply, List.map_map]
  congr 1
  apply List.map_congr_left
  intro p _
  simp only [Function.comp_apply, hf]

theorem nonOverlapping_map (st : State G Pt P) :
    nonOverlapping n' (state φ ψ st) = result (pairPoses φ) (nonOverlapping n st) := by
  unfold nonOverlapping
  have e : n'.objPose 3 = fun i => φ (n.objPose 3 i) := funext (hn.objPose 3)
  rw [e]
  simp only [state]
  rw [objectPoses_map φ ν hn.toVec hn.avgV, refinePoses_map ν (hn.inGroup 2), findPairs_map]
  exact findPoses_map φ ν hn.ofVec hn.he _ _ _ _ _

theorem mergeGroups1_map (s : Store P Path) (pp : PairPoses G) (st : State G Pt P) :
    mergeGroups1 n' s (pairPoses φ pp) (state φ ψ st) = result (state φ ψ) (mergeGroups1 n s pp st) := by
  unfold mergeGroups1
  rw [hn.choose]
  refine bind_map (values (group φ)) _ (mergeWith_map φ st.t.groups pp _) fun gs => ?_
  exact bind_map (tables φ) _ (mergeAllGroupObs_map φ st.oo _ { st.t with groups := gs }) fun t => rfl

theorem mergeGroups2_map (s : Store P Path) (pp : PairPoses G) (st : State G Pt P) :
    mergeGroups2 n' s (pairPoses φ pp) (state φ ψ st) = result (state φ ψ) (mergeGroups2 n s pp st) := by
  unfold mergeGroups2
  rw [hn.choose]
  refine bind_map (values (group φ)) _ (mergeWith_map φ st.t.groups pp _) fun gs => ?_
  exact bind_map (tables φ) _ (mergeAllGroupObs_map φ st.oo _ { st.t with groups := gs }) fun t => rfl

include hψ

theorem afterMerge_map (bpts : List (List Pt)) (s : Store P Path) (obs : List (BoardObs P)) (pp : PairPoses G) (st : State G Pt P) :
    afterMerge n' (bpts.map (List.map ψ)) s obs (pairPoses φ pp) (state φ ψ st) =
      result (state φ ψ) (afterMerge n bpts s obs pp st) :=
  bind_map (state φ ψ) _ (mergeGroups1_map φ ψ ν hn s pp st) (mergeStage_map φ ψ hψ ν hn 4 bpts s obs)

theorem workflow_map (bpts : List (List Pt)) (s : Store P Path) (obs : List (BoardObs P)) :
    workflow n' (bpts.map (List.map ψ)) s obs = result (state φ ψ) (workflow n bpts s obs) := by
  unfold workflow
  refine bind_map (state φ ψ) _ (overlapping_map φ ψ hψ ν hn bpts s obs) fun st => ?_
  refine bind_map (pairPoses φ) _ (nonOverlapping_map φ ψ ν hn st) fun pp => ?_
  refine bind_map (state φ ψ) _ (afterMerge_map φ ψ hψ ν hn bpts s obs pp st) fun st => ?_
  exact bind_map (state φ ψ) _ (mergeGroups2_map φ ψ ν hn s pp st) (refineAll_map φ ψ hψ ν hn 5 bpts)

end Verif.Lemmas.Units
