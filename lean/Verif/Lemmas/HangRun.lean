import Verif.Lemmas.Hang
import Verif.Model.Program

set_option linter.unusedSectionVars false
namespace Verif.Hang
open Spec.Hang Verif.Structure Objects Groups GroupPose NonOverlap Pipeline

variable {V G Pt P Path : Type} [Group G] [SMul G Pt]

/-! ### The graphs -/

theorem boardGraph_sane (s : Store P Path) (pose : Nat → G) : Sane (boardGraph s (boardPairs s pose)) := by
  refine table_sane (f := boardPair) (fun x y e h => ?_) _ _
  unfold boardPair at h
  split at h
  · rename_i hne; cases h; exact hne
  · cases h

theorem cameraGraph_sane (s : Store P Path) (oo : List (ObjObs P)) (pose : Nat → G) :
    Sane (cameraGraph s (cameraPairs s oo pose)) := by
  refine table_sane (f := cameraPair) (fun x y e h => ?_) _ _
  unfold cameraPair at h
  split at h
  · split at h
    · rename_i hne _; cases h; exact hne
    · cases h
  · cases h

theorem objectGraph_sane (ofVec : V → G) (objs : OMap Nat (Object G Pt)) (op : OMap (Nat × Nat) (OMap Nat V))
    (t : GroupTables G) (oo : List (ObjObs P)) : Sane (objectGraph objs oo (objectPairs ofVec op t oo)) := by
  refine table_sane (f := objectPair) (fun x y e h => ?_) _ _
  unfold objectPair at h
  split at h
  · rename_i hne; cases h; exact hne
  · cases h

/-- Recorded pairs are pairs of two groups. -/
def Two (pp : PairPoses G) : Prop := ∀ e ∈ pp.pose, e.1.1 ≠ e.1.2

theorem groupGraph_sane (gs : OMap Nat (CamGroup G)) {pp : PairPoses G} (h : Two pp) (cnt : Nat × Nat → Nat) :
    Sane (groupGraph gs pp.pose cnt) := by
  apply sane
  intro e he
  unfold groupEdges at he
  obtain ⟨x, hx, rfl⟩ := List.mem_map.1 he
  refine ⟨h x hx, ?_⟩
  show (0 : Rat) ≤ 1 / (cnt x.1 : Rat)
  rw [Rat.div_def, Rat.one_mul]
  exact inv_nonneg.2 (by exact_mod_cast Nat.zero_le _)

/-! ### Objects -/

theorem buildObjects_ends (s : Store P Path) (pose : Nat → G) (avg : List G → G) (bpts : List (List Pt)) (choose) :
    Ends (buildObjects s pose avg bpts choose) := by
  unfold buildObjects
  simp only
  unfold init3DObjects
  refine fold (fun m e he => ?_) _
  have hc := mem_zipIdx he
  unfold initObjectStep initObject
  refine bind (bind (minElement_ends _) fun r hr => bind (idx _ _) fun _ _ => bind (fold (fun st b hb => ?_) _)
    fun _ _ => pure' _) fun _ _ => pure' _
  unfold placeBoard
  exact bind (idx _ _) fun _ _ => bind
    (placement_ends (boardGraph_sane s pose) hc (minElement_mem hr) hb _) fun _ _ => pure' _

theorem updateObjectPts_ends (bpts : List (List Pt)) (o : Object G Pt) : Ends (updateObjectPts bpts o) := by
  unfold updateObjectPts
  refine fold (fun o e _ => ?_) _
  unfold updateBoard
  refine bind (idx _ _) fun pts _ => fold (fun o e _ => ?_) _
  unfold updatePt
  simp only
  ends

theorem refineObjects_ends (bpts : List (List Pt)) (f : Nat → Nat → G) (objs : OMap Nat (Object G Pt)) :
    Ends (refineObjects bpts f objs) := by
  unfold refineObjects
  refine fold (fun m e _ => ?_) _
  unfold refineObjectStep refineObject
  exact bind (updateObjectPts_ends _ _) fun _ _ => pure' _

theorem initAllObjectObs_ends (s : Store P Path) (objs : OMap Nat (Object G Pt)) (acc : List (ObjObs P)) :
    Ends (initAllObjectObs s objs acc) := by
  unfold initAllObjectObs
  refine fold (fun acc e _ => ?_) _
  unfold init3DObjectObs
  refine fold (fun acc c _ => ?_) _
  unfold objObsStep objObsOf
  refine bind (bind (fold (fun oo i _ => ?_) _) fun _ _ => pure' _) fun _ _ => pure' _
  unfold gatherStep
  refine bind (idx _ _) fun bo _ => ?_
  split
  · unfold insertBoardObs; ends
  · exact pure' _

theorem mergeAllObjectObs_ends (s : Store P Path) (objs : OMap Nat (Object G Pt)) :
    Ends (mergeAllObjectObs s objs) := fold (fun _ _ _ => initAllObjectObs_ends ..) _

theorem merge3DObjects_ends (toVec : G → V) (ofVec : V → G) (avg : List V → V) (avgG : List G → G) (choose)
    (bpts : List (List Pt)) (objs : OMap Nat (Object G Pt)) (t : GroupTables G) (oo : List (ObjObs P)) (pose : Nat → G) :
    Ends (merge3DObjects toVec ofVec avg avgG choose bpts objs t oo pose) := by
  unfold merge3DObjects
  simp only
  unfold mergeObjects
  refine fold (fun m e he => ?_) _
  have hc := mem_zipIdx he
  unfold mergeObjectStep mergeObject
  refine bind (bind (minElement_ends _) fun r hr => bind (deref _) fun ro _ => bind (fold (fun st j hj => ?_) _)
    fun _ _ => bind (idx _ _) fun _ _ => bind (fold (fun st o _ => ?_) _) fun _ _ => pure' _) fun _ _ => pure' _
  · unfold mergePlace
    exact bind (deref _) fun _ _ => bind
      (placement_ends (objectGraph_sane ofVec objs _ t oo) hc (minElement_mem hr) hj _) fun _ _ => pure' _
  · unfold mergeInto
    split
    · split
      · refine fold (fun _ _ _ => ?_) _
        unfold mergeBoard
        ends
      · exact throw
    · exact ok _

/-! ### Camera groups -/

theorem mergeAllCameraGroupObs_ends (oo : List (ObjObs P)) (frames : List Nat) (t : GroupTables G) :
    Ends (mergeAllCameraGroupObs oo frames t) := by
  unfold mergeAllCameraGroupObs initAllCameraGroupObs
  refine fold (fun t e _ => ?_) _
  unfold initCameraGroupObs
  exact bind (deref _) fun _ _ => pure' _

theorem buildGroups_ends (s : Store P Path) (oo : List (ObjObs P)) (pose : Nat → G) (avg : List G → G) (choose) :
    Ends (buildGroups s oo pose avg choose) := by
  unfold buildGroups
  simp only
  unfold initCameraGroup
  refine fold (fun m e he => ?_) _
  have hc := mem_zipIdx he
  unfold initGroupStep initGroup
  refine bind (bind (minElement_ends _) fun r hr => fold (fun st b hb => ?_) _) fun _ _ => pure' _
  unfold placeCamera
  exact bind (deref _) fun _ _ => bind
    (placement_ends (cameraGraph_sane s oo pose) hc (minElement_mem hr) hb _) fun _ _ => pure' _

theorem mergeWith_ends (gs : OMap Nat (CamGroup G)) {pp : PairPoses G} (h : Two pp) (choose) :
    Ends (mergeWith gs pp choose) := by
  unfold mergeWith mergeCameraGroup
  refine fold (fun m e he => ?_) _
  have hc := mem_zipIdx he
  unfold mergeGroupStep mergeGroup
  refine bind (bind (minElement_ends _) fun r hr => bind (deref _) fun rg _ => bind (fold (fun st j hj => ?_) _)
    fun _ _ => fold (fun st o _ => ?_) _) fun _ _ => pure' _
  · unfold mergeGroupPlace
    exact bind (placement_ends (groupGraph_sane gs h _) hc (minElement_mem hr) hj _) fun _ _ => pure' _
  · unfold mergeGroupInto
    ends

theorem two_set {pp : OMap (Nat × Nat) G} (h : ∀ e ∈ pp, e.1.1 ≠ e.1.2) {k : Nat × Nat} (hk : k.1 ≠ k.2) (x : G) :
    ∀ e ∈ OMap.set pp k x, e.1.1 ≠ e.1.2 := by
  induction pp with
  | nil =>
    intro e he
    rcases List.mem_singleton.1 he with rfl
    exact hk
  | cons a pp ih =>
    intro e he
    have ih := ih fun e he => h e (List.mem_cons_of_mem _ he)
    have ha := h a List.mem_cons_self
    unfold OMap.set at he
    split at he
    · rcases List.mem_cons.1 he with rfl | he
      · exact hk
      · exact h e he
    · split at he
      · rcases List.mem_cons.1 he with rfl | he
        · exact hk
        · exact h e (List.mem_cons_of_mem _ he)
      · rcases List.mem_cons.1 he with rfl | he
        · exact ha
        · exact ih e he

theorem findPoses_ends (ofVec : V → G) (op : OMap (Nat × Nat) (OMap Nat V)) (t : GroupTables G)
    (oo : List (ObjObs P)) (pairs : OMap (Nat × Nat) (Nat × Nat)) {he : List (G × G) → Outcome G}
    (hhe : ∀ l, Ends (he l)) (cnt0 : OMap (Nat × Nat) Nat) : Ends (findPoses ofVec op t oo pairs he cnt0) := by
  unfold findPoses
  refine fold (fun st a _ => ?_) _
  unfold initPairRow
  refine fold (fun st b _ => ?_) _
  split
  · unfold initPair
    simp only
    split
    · exact ok _
    · exact bind (hhe _) fun _ _ => pure' _
  · exact ok _

theorem findPoses_two {ofVec : V → G} {op : OMap (Nat × Nat) (OMap Nat V)} {t : GroupTables G}
    {oo : List (ObjObs P)} {pairs : OMap (Nat × Nat) (Nat × Nat)} {he : List (G × G) → Outcome G}
    {cnt0 : OMap (Nat × Nat) Nat} {pp : PairPoses G} (h : findPoses ofVec op t oo pairs he cnt0 = .ok pp) : Two pp := by
  unfold findPoses at h
  refine Outcome.foldlM_inv Two (fun st st' a _ hst h1 => ?_) (fun e he => absurd he (List.not_mem_nil)) h
  unfold initPairRow at h1
  refine Outcome.foldlM_inv Two (fun st st' b _ hst h2 => ?_) hst h1
  split at h2
  · rename_i hne
    unfold initPair at h2
    simp only at h2
    split at h2
    · cases h2; exact hst
    · obtain ⟨x, _, h3⟩ := Outcome.bind_eq_ok.1 h2
      cases h3
      exact two_set hst hne _
  · cases h2; exact hst

/-! ### The workflow -/

theorem refineAll_ends (n : Numerics V G) (k : Nat) (bpts : List (List Pt)) (st : State G Pt P) :
    Ends (refineAll n k bpts st) := bind (refineObjects_ends ..) fun _ _ => pure' _

theorem calibrateObjects_ends (n : Numerics V G) (bpts : List (List Pt)) (s : Store P Path) (obs : List (BoardObs P)) :
    Ends (calibrateObjects n bpts s obs) :=
  bind (buildObjects_ends ..) fun _ _ => bind (initAllObjectObs_ends ..) fun _ _ =>
    bind (refineObjects_ends ..) fun _ _ => pure' _

theorem calibrateGroups_ends (n : Numerics V G) (bpts : List (List Pt)) (s : Store P Path)
    (objs : OMap Nat (Object G Pt)) (oo : List (ObjObs P)) : Ends (calibrateGroups n bpts s objs oo) :=
  bind (bind (buildGroups_ends ..) fun _ _ => bind (mergeAllCameraGroupObs_ends ..) fun _ _ => pure' _) fun _ _ =>
    refineAll_ends ..

theorem joinObjects_ends (n : Numerics V G) (k : Nat) (bpts : List (List Pt)) (s : Store P Path)
    (obs : List (BoardObs P)) (st : State G Pt P) : Ends (joinObjects n k bpts s obs st) :=
  bind (merge3DObjects_ends ..) fun _ _ => bind (mergeAllObjectObs_ends ..) fun _ _ =>
    bind (mergeAllCameraGroupObs_ends ..) fun _ _ => pure' _

theorem mergeStage_ends (n : Numerics V G) (k : Nat) (bpts : List (List Pt)) (s : Store P Path)
    (obs : List (BoardObs P)) (st : State G Pt P) : Ends (mergeStage n k bpts s obs st) :=
  bind (joinObjects_ends ..) fun _ _ => refineAll_ends ..

theorem overlapping_ends (n : Numerics V G) (bpts : List (List Pt)) (s : Store P Path) (obs : List (BoardObs P)) :
    Ends (overlapping n bpts s obs) :=
  bind (calibrateObjects_ends ..) fun _ _ => bind (calibrateGroups_ends ..) fun _ _ => mergeStage_ends ..

theorem nonOverlapping_ends (n : Numerics V G) (hhe : ∀ l, Ends (n.he l)) (st : State G Pt P) :
    Ends (nonOverlapping n st) := findPoses_ends _ _ _ _ _ hhe _

theorem mergeGroups1_ends (n : Numerics V G) (s : Store P Path) {pp : PairPoses G} (h : Two pp) (st : State G Pt P) :
    Ends (mergeGroups1 n s pp st) :=
  bind (mergeWith_ends _ h _) fun _ _ => bind (mergeAllCameraGroupObs_ends ..) fun _ _ => pure' _

theorem mergeGroups2_ends (n : Numerics V G) (s : Store P Path) {pp : PairPoses G} (h : Two pp) (st : State G Pt P) :
    Ends (mergeGroups2 n s pp st) :=
  bind (mergeWith_ends _ h _) fun _ _ => bind (mergeAllCameraGroupObs_ends ..) fun _ _ => pure' _

theorem finalStage_ends (n : Numerics V G) (fix : Int) (bpts : List (List Pt)) (st : State G Pt P) :
    Ends (Finish.finalStage n fix bpts st) := by
  unfold Finish.finalStage Finish.lastRefine
  refine bind (refineAll_ends ..) fun _ _ => ?_
  split
  · exact bind (refineAll_ends ..) fun _ _ => pure' _
  · exact ok _

theorem run_ends (n : Numerics V G) (hhe : ∀ l, Ends (n.he l)) (fix : Int) (bpts : List (List Pt)) (s : Store P Path)
    (obs : List (BoardObs P)) : Ends (Finish.run n fix bpts s obs) :=
  bind (overlapping_ends ..) fun _ _ => bind (nonOverlapping_ends n hhe _) fun _ hpp =>
    bind (bind (mergeGroups1_ends n s (findPoses_two hpp) _) fun _ _ => mergeStage_ends ..) fun _ _ =>
      bind (mergeGroups2_ends n s (findPoses_two hpp) _) fun _ _ => finalStage_ends ..

end Verif.Hang
