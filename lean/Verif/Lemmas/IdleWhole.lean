import Verif.Lemmas.Idle
import Verif.Model.Whole

/-! C102: cameras and boards that are never seen, in whole runs. -/
namespace Verif.Lemmas.IdleWhole
open Verif Verif.Objects Verif.Groups Verif.Pipeline Verif.Ransac Verif.Program Verif.Lemmas.Idle Verif.Keypoints

variable {V G Pt P Path : Type}

section
variable [Group G] [SMul G Pt] {s s' : Store P Path} (h : SameReads s s') (bpts more : List (List Pt))

include h in
theorem joinObjects_ext (n : Numerics V G) (k : Nat) (obs : List (BoardObs P)) (st : State G Pt P) :
    Ext (joinObjects n k bpts s obs st) (joinObjects n k (bpts ++ more) s' obs st) := by
  have e : ∀ objs : OMap Nat (Object G Pt), mergeAllObjectObs { s' with obs := obs } objs = mergeAllObjectObs { s with obs := obs } objs := by
    intro objs
    unfold mergeAllObjectObs
    simp only [initAllObjectObs_same h]
  unfold joinObjects GroupPose.merge3DObjects
  refine Ext.bind (mergeObjects_ext bpts more _ _ _ _) fun objs => ?_
  rw [e, h.frames]
  exact Ext.refl _

include h in
theorem stage_ext (e : Estimator Pt P G) (n : Numerics V G) (k j : Nat) (obs : List (BoardObs P)) (st : State G Pt P) :
    Ext (Program.mergeStage e n k j bpts s obs st) (Program.mergeStage e n k j (bpts ++ more) s' obs st) := by
  unfold Program.mergeStage
  exact Ext.bind (Ext.refl _) fun ps => Ext.bind (joinObjects_ext h bpts more _ k obs st) fun st1 => Ext.bind (Ext.refl _) fun qs =>
    Ext.bind (refineAll_ext bpts more n k st1) fun _ => Ext.refl _

include h in
theorem program_ext (e : Estimator Pt P G) (n : Numerics V G) (fix : Int) (obs : List (BoardObs P)) :
    Ext (Program.run e n fix bpts s obs) (Program.run e n fix (bpts ++ more) s' obs) := by
  unfold Program.run
  refine Ext.bind ?_ fun r => ?_
  · unfold Program.overlapping
    refine Ext.bind ?_ fun r => Ext.bind (calibrateGroups_ext h bpts more _ _ _) fun st => stage_ext h bpts more e n 2 1 obs st
    unfold Program.calibrateObjects
    refine Ext.bind (buildObjects_ext h bpts more _ _ _) fun objs => ?_
    rw [initAllObjectObs_same h]
    exact Ext.bind (Ext.refl _) fun _ => Ext.bind (Ext.refl _) fun _ => Ext.bind (refineObjects_ext bpts more _ objs) fun _ => Ext.refl _
  · unfold Program.merging
    refine Ext.bind (Ext.refl _) fun pp => ?_
    rw [mergeGroups1_same (Pt := Pt) h]
    refine Ext.bind (Ext.refl _) fun st => Ext.bind (stage_ext h bpts more e n 4 3 obs st) fun q => ?_
    rw [mergeGroups2_same (Pt := Pt) h]
    refine Ext.bind (Ext.refl _) fun st => ?_
    unfold Program.finalStage
    exact Ext.bind (Ext.refl _) fun _ => finalStage_ext bpts more _ fix st
end

/-- The first step. -/
theorem first_ext {K : Type} [Field K] [LinearOrder K] (search : Search Pt P G) (garbage : G) (bpts more : List (List Pt))
    (obs : List (BoardObs P)) (refine : Option (List (Estimated P G) → Outcome (List (Estimated P G) × ReproErr.Projection P G Pt K)))
    (pr : ReproErr.Projection P G Pt K) :
    Ext (ReproErr.initIntrinsic search garbage bpts obs refine pr) (ReproErr.initIntrinsic search garbage (bpts ++ more) obs refine pr) := by
  unfold ReproErr.initIntrinsic
  refine Ext.bind ?_ fun est => Ext.bind (Ext.refl _) fun x => Ext.bind ?_ fun _ => Ext.refl _
  · unfold estimateAllBoards
    exact Ext.foldlM (fun acc (bo : BoardObs P) => Ext.bind (Ext.idx bpts more bo.board) fun _ => Ext.refl _) _ _
  · unfold ReproErr.computeReproErrAllBoard
    exact Ext.foldlM (fun acc (e : Estimated P G) => Ext.bind (Ext.idx bpts more e.obs.board) fun _ => Ext.refl _) _ _

variable [Inhabited Path]

/-- The rows of a camera in the keypoint file, with further boards. -/
theorem rows_more {s s' : Store P Path} (hf : s'.frames = s.frames) (ho : s'.obs = s.obs) {m : Nat}
    (hb : s'.boards.length = s.boards.length + m) (hk : ∀ o ∈ s.obs, o.board < s.boards.length) (c : Nat) :
    rows s' c = rows s c := by
  unfold rows
  rw [hf, ho, hb]
  congr 1
  funext ⟨f, fr⟩
  simp only
  rw [List.range_add, List.flatMap_append]
  convert List.append_nil _
  rw [List.flatMap_eq_nil_iff]
  intro b hb
  obtain ⟨j, -, rfl⟩ := List.mem_map.1 hb
  rw [List.map_eq_nil_iff, List.filter_eq_nil_iff]
  intro o ho hp
  simp only [Bool.and_eq_true, beq_iff_eq] at hp
  have := hk o ho
  omega

theorem rows_none {s : Store P Path} {c : Nat} (hk : ∀ o ∈ s.obs, o.cam ≠ c) : rows s c = [] := by
  unfold rows
  rw [List.flatMap_eq_nil_iff]
  intro e _
  rw [List.flatMap_eq_nil_iff]
  intro b _
  rw [List.map_eq_nil_iff, List.filter_eq_nil_iff]
  intro o ho hp
  simp only [Bool.and_eq_true, beq_iff_eq] at hp
  exact hk o ho hp.1.1

/-- The entries of cameras that saw nothing: the sizes of their images and empty lists. -/
def emptyEntries (n : Nat) (sz : List (Nat × Nat)) : OMap Nat (CamFile P Path) :=
  sz.zipIdx.map fun e => (n + e.2, camFile e.1 [])

theorem save_more {s s' : Store P Path} (hf : s'.frames = s.frames) (ho : s'.obs = s.obs) {mB : Nat}
    (hb : s'.boards.length = s.boards.length + mB) (sz : List (Option (Nat × Nat))) (hsz : sz.length = s.cams.length)
    (sz2 : List (Nat × Nat)) (hc : s'.cams.length = s.cams.length + sz2.length)
    (hk : ∀ o ∈ s.obs, o.cam < s.cams.length ∧ o.board < s.boards.length)
    {kp : KeyFile P Path} (h : save ⟨s, sz⟩ = .ok kp) :
    save ⟨s', sz ++ sz2.map some⟩ = .ok ⟨kp.nbCamera + sz2.length, kp.cams ++ emptyEntries s.cams.length sz2⟩ := by
  unfold save at h ⊢
  simp only at h ⊢
  obtain ⟨cams, h1, h2⟩ := Outcome.bind_eq_ok.1 h
  simp only [Outcome.pure_eq, Outcome.ok.injEq] at h2
  subst h2
  have step : ∀ (acc : OMap Nat (CamFile P Path)), ∀ c ∈ List.range s.cams.length,
      saveCam ⟨s', sz ++ sz2.map some⟩ acc c = saveCam ⟨s, sz⟩ acc c := by
    intro acc c hc
    unfold saveCam
    simp only
    rw [List.getElem?_append_left (by rw [hsz]; exact List.mem_range.1 hc), rows_more hf ho hb fun o ho => (hk o ho).2]
  have tail : ∀ (zs : List (Nat × Nat)) (acc : OMap Nat (CamFile P Path)) (j : Nat), (∀ i : Nat, sz2[j + i]? = zs[i]?) →
      Outcome.foldlM (saveCam ⟨s', sz ++ sz2.map some⟩) acc ((List.range' j zs.length).map (s.cams.length + ·)) =
        .ok (acc ++ (zs.zipIdx j).map fun e => (s.cams.length + e.2, camFile e.1 [])) := by
    intro zs
    induction zs with
    | nil => intro acc j _; simp
    | cons z zs ih =>
      intro acc j hz
      have hz0 : sz2[j]? = some z := by simpa using hz 0
      have e1 : saveCam ⟨s', sz ++ sz2.map some⟩ acc (s.cams.length + j) = .ok (acc ++ [(s.cams.length + j, camFile z [])]) := by
        unfold saveCam
        simp only
        rw [List.getElem?_append_right (by omega), hsz, Nat.add_sub_cancel_left, List.getElem?_map, hz0,
          rows_more hf ho hb fun o ho => (hk o ho).2, rows_none fun o ho e => by have := (hk o ho).1; omega]
        rfl
      rw [List.length_cons, List.range'_succ, List.map_cons, Outcome.foldlM_cons, e1, Outcome.bind_ok, ih _ _ fun i => by
        rw [Nat.add_assoc, Nat.add_comm 1 i, hz (i + 1), List.getElem?_cons_succ], List.zipIdx_cons, List.map_cons, List.append_assoc]
      rfl
  rw [hc, List.range_add, Outcome.foldlM_append, foldlM_eq_of_mem _ fun a ha b => step b a ha, h1, Outcome.bind_ok,
    List.range_eq_range' (n := sz2.length), tail sz2 cams 0 fun i => by rw [Nat.zero_add]]
  rfl

end Verif.Lemmas.IdleWhole
