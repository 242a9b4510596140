import Verif.Lemmas.ReorderFinish
import Verif.Spec.Idle

/-! C102: cameras and boards that are never seen. -/
namespace Verif.Lemmas.Idle
open Verif Verif.Objects Verif.Groups Verif.Structure Verif.GroupPose Verif.Pipeline Verif.Spec.Store

variable {V G Pt P Path : Type}

/-- `y` is what `x` is, unless `x` reads out of bounds. -/
def Ext {A : Type} (x y : Outcome A) : Prop := x = .ub ∨ y = x

namespace Ext

theorem refl {A : Type} (x : Outcome A) : Ext x x := Or.inr rfl

theorem bind {A B : Type} {x y : Outcome A} (h : Ext x y) {f g : A → Outcome B} (hk : ∀ a, Ext (f a) (g a)) :
    Ext (x >>= f) (y >>= g) := by
  rcases h with rfl | rfl
  · exact Or.inl rfl
  · rcases y with a | _ | _ | _
    · exact hk a
    all_goals exact Or.inr rfl

theorem foldlM {A B : Type} {f g : B → A → Outcome B} (h : ∀ b a, Ext (f b a) (g b a)) (l : List A) :
    ∀ b, Ext (Outcome.foldlM f b l) (Outcome.foldlM g b l) := by
  induction l with
  | nil => exact fun b => refl _
  | cons a l ih => exact fun b => bind (h b a) ih

theorem idx {A : Type} (l m : List A) (i : Nat) : Ext (Outcome.idx l i) (Outcome.idx (l ++ m) i) := by
  unfold Outcome.idx
  rcases h : l[i]? with _ | a
  · exact Or.inl rfl
  · rw [List.getElem?_append_left (List.getElem?_eq_some_iff.1 h).1, h]
    exact refl _

theorem eq {A : Type} {x y : Outcome A} (h : Ext x y) (hx : x ≠ .ub) : y = x := h.resolve_left hx

theorem eq_ok {A : Type} {x y : Outcome A} (h : Ext x y) {a : A} (hx : x = .ok a) : y = .ok a := by
  subst hx
  exact h.eq (fun e => nomatch e)

end Ext

section
variable [Group G] [SMul G Pt] (bpts more : List (List Pt))

theorem initObject_ext (T : OMap (Nat × Nat) G) (g : Graph Nat) (choose : Nat → Nat → Graph.DState → Nat) (i : Nat) (c : List Nat) :
    Ext (initObject bpts T g choose i c) (initObject (bpts ++ more) T g choose i c) := by
  unfold initObject
  refine Ext.bind (Ext.refl _) fun r => Ext.bind (Ext.idx _ _ _) fun _ => Ext.bind (Ext.foldlM (fun st b => ?_) _ _) fun _ => Ext.refl _
  exact Ext.bind (Ext.idx _ _ _) fun _ => Ext.refl _

theorem init3DObjects_ext (T : OMap (Nat × Nat) G) (g : Graph Nat) (choose : Nat → Nat → Graph.DState → Nat) :
    Ext (init3DObjects bpts T g choose) (init3DObjects (bpts ++ more) T g choose) :=
  Ext.foldlM (fun _ _ => Ext.bind (initObject_ext bpts more T g choose _ _) fun _ => Ext.refl _) _ _

theorem refineObjects_ext (f : Nat → Nat → G) (objs : OMap Nat (Object G Pt)) :
    Ext (refineObjects bpts f objs) (refineObjects (bpts ++ more) f objs) :=
  Ext.foldlM (fun _ _ => Ext.bind (Ext.foldlM (fun _ _ => Ext.bind (Ext.idx _ _ _) fun _ => Ext.refl _) _ _) fun _ => Ext.refl _) _ _

theorem refineAll_ext (n : Numerics V G) (k : Nat) (st : State G Pt P) : Ext (refineAll n k bpts st) (refineAll n k (bpts ++ more) st) :=
  Ext.bind (refineObjects_ext bpts more _ _) fun _ => Ext.refl _

theorem mergeInto_ext (c : List Nat) (toRef : OMap Nat G) (st : Object G Pt × Nat) (e : Nat × Object G Pt) :
    Ext (mergeInto bpts c toRef st e) (mergeInto (bpts ++ more) c toRef st e) := by
  unfold mergeInto
  split
  · split
    · exact Ext.foldlM (fun _ _ => Ext.bind (Ext.idx _ _ _) fun _ => Ext.refl _) _ _
    · exact Ext.refl _
  · exact Ext.refl _

theorem mergeObjects_ext (objs : OMap Nat (Object G Pt)) (T : OMap (Nat × Nat) G) (g : Graph Nat)
    (choose : Nat → Nat → Graph.DState → Nat) : Ext (mergeObjects bpts objs T g choose) (mergeObjects (bpts ++ more) objs T g choose) := by
  refine Ext.foldlM (fun _ _ => Ext.bind ?_ fun _ => Ext.refl _) _ _
  unfold mergeObject
  exact Ext.bind (Ext.refl _) fun _ => Ext.bind (Ext.refl _) fun _ => Ext.bind (Ext.refl _) fun _ =>
    Ext.bind (Ext.idx _ _ _) fun _ => Ext.bind (Ext.foldlM (mergeInto_ext bpts more _ _) _ _) fun _ => Ext.refl _

end

/-- What the calibration reads of the stored detections. -/
structure SameReads (s s' : Store P Path) : Prop where
  obs : s'.obs = s.obs
  frames : s'.frames = s.frames
  camObs : s'.camObs = s.camObs
  boards : boardVertices s' = boardVertices s
  cameras : cameraVertices s' = cameraVertices s
  count : s.cams.length ≤ s'.cams.length

variable {s s' : Store P Path}

theorem buildObjects_ext [Group G] [SMul G Pt] (h : SameReads s s') (bpts more : List (List Pt)) (pose : Nat → G) (avg : List G → G)
    (choose : Nat → Nat → Graph.DState → Nat) : Ext (buildObjects s pose avg bpts choose) (buildObjects s' pose avg (bpts ++ more) choose) := by
  have e1 : boardPairs s' pose = boardPairs s pose := by unfold boardPairs boardViews; rw [h.obs, h.camObs]
  have e2 : ∀ t : PairTable G, boardGraph s' t = boardGraph s t := fun t => by unfold boardGraph; rw [h.boards]
  unfold buildObjects
  simp only [e1, e2]
  exact init3DObjects_ext bpts more _ _ _

theorem initGroup_ext [Group G] {n m : Nat} (hnm : n ≤ m) (T : OMap (Nat × Nat) G) (g : Graph Nat)
    (choose : Nat → Nat → Graph.DState → Nat) : Ext (initCameraGroup n T g choose) (initCameraGroup m T g choose) := by
  refine Ext.foldlM (fun _ e => Ext.bind (Ext.bind (Ext.refl _) fun r => Ext.foldlM (fun st c => Ext.bind ?_ fun _ => Ext.refl _) _ _) fun _ => Ext.refl _) _ _
  by_cases hc : c < n
  · rw [if_pos hc, if_pos (by omega)]
    exact Ext.refl _
  · rw [if_neg hc]
    exact Or.inl rfl

theorem buildGroups_ext [Group G] (h : SameReads s s') (oo : List (ObjObs P)) (pose : Nat → G) (avg : List G → G)
    (choose : Nat → Nat → Graph.DState → Nat) : Ext (buildGroups s oo pose avg choose) (buildGroups s' oo pose avg choose) := by
  have e1 : cameraPairs s' oo pose = cameraPairs s oo pose := by unfold cameraPairs cameraViews; rw [h.frames]
  have e2 : ∀ t : PairTable G, cameraGraph s' t = cameraGraph s t := fun t => by unfold cameraGraph; rw [h.cameras]
  unfold buildGroups
  simp only [e1, e2]
  exact initGroup_ext h.count _ _ _

theorem initAllObjectObs_same (h : SameReads s s') (obs : List (BoardObs P)) (objs : OMap Nat (Object G Pt)) (acc : List (ObjObs P)) :
    initAllObjectObs { s' with obs := obs } objs acc = initAllObjectObs { s with obs := obs } objs acc := by
  have : ∀ o : Object G Pt, ∀ acc, init3DObjectObs { s' with obs := obs } o acc = init3DObjectObs { s with obs := obs } o acc := by
    intro o acc
    unfold init3DObjectObs
    rw [show ({ s' with obs := obs } : Store P Path).camObs = s.camObs from h.camObs]
    rfl
  unfold initAllObjectObs
  simp only [this]

theorem insert_same {a : Insertion P Path} {t t' : Store P Path} (ho : s'.obs = s.obs) (hf : s'.frames = s.frames)
    (hc : s'.camObs = s.camObs) (h : s.insertNewBoard a = .ok t) (h' : s'.insertNewBoard a = .ok t') :
    t'.obs = t.obs ∧ t'.frames = t.frames ∧ t'.camObs = t.camObs := by
  unfold Store.insertNewBoard at h h'
  rw [ho, hf, hc] at h'
  dsimp only at h h'
  split at h
  · split at h'
    · generalize OMap.get? s.frames a.obs.frame = x at h h'
      generalize OMap.get? s.camObs (a.obs.cam, a.obs.frame) = y at h h'
      rcases x with _ | x <;> rcases y with _ | y <;> cases h <;> cases h' <;> exact ⟨rfl, rfl, rfl⟩
    · cases h'
  · cases h

theorem tables_same (l : List (Insertion P Path)) : ∀ {s s' t t' : Store P Path}, s'.obs = s.obs → s'.frames = s.frames →
    s'.camObs = s.camObs → Outcome.foldlM Store.insertNewBoard s l = .ok t → Outcome.foldlM Store.insertNewBoard s' l = .ok t' →
    t'.obs = t.obs ∧ t'.frames = t.frames ∧ t'.camObs = t.camObs := by
  induction l with
  | nil =>
    intro s s' t t' ho hf hc h h'
    cases h
    cases h'
    exact ⟨ho, hf, hc⟩
  | cons a l ih =>
    intro s s' t t' ho hf hc h h'
    obtain ⟨u, hu, h⟩ := Outcome.bind_eq_ok.1 h
    obtain ⟨u', hu', h'⟩ := Outcome.bind_eq_ok.1 h'
    obtain ⟨h1, h2, h3⟩ := insert_same ho hf hc hu hu'
    exact ih h1 h2 h3 h h'

theorem filter_range_same (p : Nat → Bool) {n m : Nat} (hnm : n ≤ m) (h : ∀ i, p i = true → i < n) :
    (List.range m).filter p = (List.range n).filter p := by
  obtain ⟨k, rfl⟩ := Nat.exists_eq_add_of_le hnm
  rw [List.range_add, List.filter_append]
  refine (congrArg _ (List.filter_eq_nil_iff.2 ?_)).trans (List.append_nil _)
  intro a ha hp
  obtain ⟨j, -, rfl⟩ := List.mem_map.1 ha
  have := h _ hp
  omega

theorem sameReads {nCam nCam' nBoard nBoard' : Nat} (hc : nCam ≤ nCam') (hb : nBoard ≤ nBoard') {l : List (Insertion P Path)}
    (hl : ∀ a ∈ l, a.obs.cam < nCam ∧ a.obs.board < nBoard) (hs : Store.run nCam nBoard l = .ok s)
    (hs' : Store.run nCam' nBoard' l = .ok s') : SameReads s s' := by
  have hd := Lemmas.Pipeline.store_desc nCam nBoard l hl s hs
  have hd' := Lemmas.Pipeline.store_desc nCam' nBoard' l (fun a ha => ⟨by have := hl a ha; omega, by have := hl a ha; omega⟩) s' hs'
  obtain ⟨h1, h2, h3⟩ := tables_same l (s := Store.init nCam nBoard) (s' := Store.init nCam' nBoard') rfl rfl rfl hs hs'
  refine ⟨h1, h2, h3, ?_, ?_, by rw [hd.cams_length, hd'.cams_length]; exact hc⟩
  · rw [Lemmas.Schedule.boardVertices_eq hd, Lemmas.Schedule.boardVertices_eq hd']
    refine filter_range_same _ hb fun i hi => ?_
    obtain ⟨a, ha, e⟩ := List.any_eq_true.1 hi
    have : a.obs.board = i := by simpa [Spec.Store.byBoard] using e
    rw [← this]
    exact (hl a ha).2
  · rw [Lemmas.Schedule.cameraVertices_eq hd, Lemmas.Schedule.cameraVertices_eq hd']
    refine filter_range_same _ hc fun i hi => ?_
    obtain ⟨a, ha, e⟩ := List.any_eq_true.1 hi
    have : a.obs.cam = i := by simpa [Spec.Store.byCam] using e
    rw [← this]
    exact (hl a ha).1

variable [Group G] [SMul G Pt]

theorem calibrateObjects_ext (h : SameReads s s') (bpts more : List (List Pt)) (n : Numerics V G) (obs : List (BoardObs P)) :
    Ext (calibrateObjects n bpts s obs) (calibrateObjects n (bpts ++ more) s' obs) := by
  unfold calibrateObjects
  refine Ext.bind (buildObjects_ext h bpts more _ _ _) fun objs => ?_
  rw [initAllObjectObs_same h]
  exact Ext.bind (Ext.refl _) fun _ => Ext.bind (refineObjects_ext bpts more _ objs) fun _ => Ext.refl _

theorem calibrateGroups_ext (h : SameReads s s') (bpts more : List (List Pt)) (n : Numerics V G) (objs : OMap Nat (Object G Pt))
    (oo : List (ObjObs P)) : Ext (calibrateGroups n bpts s objs oo) (calibrateGroups n (bpts ++ more) s' objs oo) := by
  unfold calibrateGroups placeGroups
  rw [h.frames]
  exact Ext.bind (Ext.bind (buildGroups_ext h _ _ _ _) fun _ => Ext.refl _) fun _ => refineAll_ext bpts more n 1 _

theorem mergeStage_ext (h : SameReads s s') (bpts more : List (List Pt)) (n : Numerics V G) (k : Nat) (obs : List (BoardObs P))
    (st : State G Pt P) : Ext (mergeStage n k bpts s obs st) (mergeStage n k (bpts ++ more) s' obs st) := by
  have e : ∀ objs : OMap Nat (Object G Pt), mergeAllObjectObs { s' with obs := obs } objs = mergeAllObjectObs { s with obs := obs } objs := by
    intro objs
    unfold mergeAllObjectObs
    simp only [initAllObjectObs_same h]
  unfold mergeStage joinObjects merge3DObjects
  refine Ext.bind (Ext.bind (mergeObjects_ext bpts more _ _ _ _) fun objs => ?_) fun _ => refineAll_ext bpts more n k _
  rw [e, h.frames]
  exact Ext.refl _

theorem overlapping_ext (h : SameReads s s') (bpts more : List (List Pt)) (n : Numerics V G) (obs : List (BoardObs P)) :
    Ext (overlapping n bpts s obs) (overlapping n (bpts ++ more) s' obs) :=
  Ext.bind (calibrateObjects_ext h bpts more n obs) fun _ => Ext.bind (calibrateGroups_ext h bpts more n _ _) fun _ =>
    mergeStage_ext h bpts more n 2 obs _

omit [SMul G Pt] in
theorem mergeGroups1_same (h : SameReads s s') (n : Numerics V G) (pp : NonOverlap.PairPoses G) (st : State G Pt P) :
    mergeGroups1 n s' pp st = mergeGroups1 n s pp st := by
  unfold mergeGroups1
  rw [h.frames]

omit [SMul G Pt] in
theorem mergeGroups2_same (h : SameReads s s') (n : Numerics V G) (pp : NonOverlap.PairPoses G) (st : State G Pt P) :
    mergeGroups2 n s' pp st = mergeGroups2 n s pp st := by
  unfold mergeGroups2
  rw [h.frames]

theorem afterMerge_ext (h : SameReads s s') (bpts more : List (List Pt)) (n : Numerics V G) (obs : List (BoardObs P))
    (pp : NonOverlap.PairPoses G) (st : State G Pt P) : Ext (afterMerge n bpts s obs pp st) (afterMerge n (bpts ++ more) s' obs pp st) := by
  unfold afterMerge
  rw [mergeGroups1_same (Pt := Pt) h]
  exact Ext.bind (Ext.refl _) fun _ => mergeStage_ext h bpts more n 4 obs _

theorem finalStage_ext (bpts more : List (List Pt)) (n : Numerics V G) (fix : Int) (st : State G Pt P) :
    Ext (Finish.finalStage n fix bpts st) (Finish.finalStage n fix (bpts ++ more) st) := by
  unfold Finish.finalStage Finish.lastRefine
  refine Ext.bind (refineAll_ext bpts more n 5 st) fun _ => ?_
  split
  · exact Ext.bind (refineAll_ext bpts more n 6 _) fun _ => Ext.refl _
  · exact Ext.refl _

theorem run_ext (h : SameReads s s') (bpts more : List (List Pt)) (n : Numerics V G) (fix : Int) (obs : List (BoardObs P)) :
    Ext (Finish.run n fix bpts s obs) (Finish.run n fix (bpts ++ more) s' obs) := by
  unfold Finish.run
  refine Ext.bind (overlapping_ext h bpts more n obs) fun st => Ext.bind (Ext.refl _) fun pp =>
    Ext.bind (afterMerge_ext h bpts more n obs pp st) fun st => ?_
  rw [mergeGroups2_same h]
  exact Ext.bind (Ext.refl _) fun _ => finalStage_ext bpts more n fix _

theorem workflow_ext (h : SameReads s s') (bpts more : List (List Pt)) (n : Numerics V G) (obs : List (BoardObs P)) :
    Ext (workflow n bpts s obs) (workflow n (bpts ++ more) s' obs) := by
  unfold workflow
  refine Ext.bind (overlapping_ext h bpts more n obs) fun st => Ext.bind (Ext.refl _) fun pp =>
    Ext.bind (afterMerge_ext h bpts more n obs pp st) fun st => ?_
  rw [mergeGroups2_same h]
  exact Ext.bind (Ext.refl _) fun _ => refineAll_ext bpts more n 5 _

/-! ### Saving -/

theorem foldlM_eq_of_mem {A B : Type} {f g : B → A → Outcome B} (l : List A) (h : ∀ a ∈ l, ∀ b, g b a = f b a) :
    ∀ b, Outcome.foldlM g b l = Outcome.foldlM f b l := by
  induction l with
  | nil => exact fun b => rfl
  | cons a l ih =>
    intro b
    rw [Outcome.foldlM_cons, Outcome.foldlM_cons, h a (by simp)]
    exact Lemmas.Units.bind_congr' fun b => ih (fun x hx => h x (by simp [hx])) b

theorem foldlM_result_mem {A B C : Type} {f : B → A → Outcome B} {g : C → A → Outcome C} (k : B → C) (l : List A)
    (h : ∀ a ∈ l, ∀ b, g (k b) a = Spec.Units.result k (f b a)) :
    ∀ b, Outcome.foldlM g (k b) l = Spec.Units.result k (Outcome.foldlM f b l) := by
  induction l with
  | nil => exact fun b => rfl
  | cons a l ih =>
    intro b
    rw [Outcome.foldlM_cons, Outcome.foldlM_cons, h a (by simp), Lemmas.Units.result_bind, Lemmas.Units.bind_result]
    exact Lemmas.Units.bind_congr' fun b => ih (fun x hx => h x (by simp [hx])) b

theorem save3DObj_same {G Pt : Type} (bpts more : List (List Pt)) (objs : OMap Nat (Object G Pt))
    (h : ∀ e ∈ objs, ∀ b ∈ OMap.keys e.2.boards, b < bpts.length) :
    Output.save3DObj (bpts ++ more) objs = Output.save3DObj bpts objs := by
  unfold Output.save3DObj
  refine congrArg (· >>= _) (foldlM_eq_of_mem objs (fun e he fs => ?_) _)
  unfold Output.saveObjectStep Output.saveObject
  refine congrArg (· >>= _) (congrArg (· >>= _) (foldlM_eq_of_mem _ (fun b hb st => ?_) _))
  unfold Output.saveBoard
  rw [List.getElem?_append_left (h e he b.1 (List.mem_map.2 ⟨b, hb, rfl⟩))]

section
variable {K : Type} [Zero K] [One K] [Group G]
open Output Verif.Spec.Idle

/-- The storage with another number of cameras. -/
def recountAll (m : Nat) (fs : Storage (CamEntry K G)) : Storage (CamEntry K G) := { fs with out := fs.out.map (recount m) }

omit [Zero K] [One K] [Group G] in
theorem put_recount (m : Nat) (fs : Storage (CamEntry K G)) (x : CamEntry K G) :
    (recountAll m fs).put (recount m x) = recountAll m (fs.put x) := by
  unfold Storage.put recountAll
  dsimp only
  split
  · rw [List.map_append]
    rfl
  · rfl

theorem saveCamera_idle (cams idle : List (CamData K)) (m gi : Nat) (g : CamGroup G) (e : Nat × Unit) (he : e.1 < cams.length)
    (fs : Storage (CamEntry K G)) :
    saveCamera (cams ++ idle) gi g (recountAll m fs) e = Spec.Units.result (recountAll m) (saveCamera cams gi g fs e) := by
  unfold saveCamera
  rw [List.getElem?_append_left he, List.getElem?_eq_getElem he]
  show (if fs.isOpen then _ else _) = Spec.Units.result _ (if fs.isOpen then _ else _)
  dsimp only
  split
  · cases cams[e.1].size with
    | none => rfl
    | some sz =>
      show Outcome.ok _ = Outcome.ok _
      rw [← put_recount]
      rfl
  · rfl

theorem saveCameras_idle (cams idle : List (CamData K)) (gs : OMap Nat (CamGroup G))
    (h : ∀ e ∈ gs, ∀ c ∈ OMap.keys e.2.cameras, c < cams.length) :
    saveCamerasParams (cams ++ idle) gs =
      Spec.Units.result (List.map (recount (cams.length + idle.length))) (saveCamerasParams cams gs) := by
  unfold saveCamerasParams
  have := foldlM_result_mem (recountAll (cams.length + idle.length)) gs (f := saveGroup cams) (g := saveGroup (cams ++ idle)) (by
    intro e he fs
    unfold saveGroup
    rw [List.length_append, show CamEntry.nbCamera (cams.length + idle.length) =
      recount (K := K) (G := G) (cams.length + idle.length) (.nbCamera cams.length) from rfl, put_recount,
      foldlM_result_mem (recountAll (cams.length + idle.length)) _ (f := saveCamera cams e.1 e.2) (fun c hc fs =>
        saveCamera_idle cams idle _ e.1 e.2 c (h e he c.1 (List.mem_map.2 ⟨c, hc, rfl⟩)) fs),
      Lemmas.Units.bind_result, Lemmas.Units.result_bind]
    rfl) {}
  rw [show recountAll (cams.length + idle.length) ({} : Storage (CamEntry K G)) = {} from rfl] at this
  rw [this, Lemmas.Units.bind_result, Lemmas.Units.result_bind]
  rfl

end

section
open Verif.Spec.Pipeline
variable (nCam nBoard : Nat) (l : List (Insertion P Path)) (hl : ∀ a ∈ l, a.obs.cam < nCam ∧ a.obs.board < nBoard)
  (hs : Store.run nCam nBoard l = .ok s) (h : SameReads s s') (obs : List (BoardObs P)) (hobs : Spec.Objects.SameViews s.obs obs)
  (bpts more : List (List Pt)) (hb : bpts.length = nBoard) (n : Numerics V G)
include hl hs h hobs hb

theorem overlapping_eq : overlapping n (bpts ++ more) s' obs = overlapping n bpts s obs := by
  classical
  obtain ⟨st, h1, -⟩ := Props.Pipeline.C52_overlapping nCam nBoard l hl s hs obs hobs bpts hb n
  exact (overlapping_ext h bpts more n obs).eq (by rw [h1]; exact fun e => nomatch e)

theorem stages_eq {A : Type} (f g : State G Pt P → Outcome A)
    (hfg : ∀ st, Spec.Objects.Collection bpts st.objs → g st = f st) :
    (do let st ← overlapping n (bpts ++ more) s' obs
        let pp ← nonOverlapping n st
        let st ← afterMerge n (bpts ++ more) s' obs pp st
        let st ← mergeGroups2 n s' pp st
        g st) =
    (do let st ← overlapping n bpts s obs
        let pp ← nonOverlapping n st
        let st ← afterMerge n bpts s obs pp st
        let st ← mergeGroups2 n s pp st
        f st) := by
  classical
  obtain ⟨st, h1, h2, -⟩ := Props.Pipeline.C52_overlapping nCam nBoard l hl s hs obs hobs bpts hb n
  rw [overlapping_eq nCam nBoard l hl hs h obs hobs bpts more hb n, h1, Outcome.bind_ok, Outcome.bind_ok]
  rcases h3 : nonOverlapping n st with pp | _ | _ | _ <;> try rfl
  rw [Outcome.bind_ok, Outcome.bind_ok]
  have h4 := Props.Pipeline.C52_merge nCam nBoard l hl s hs obs hobs bpts n st h2 pp h3
  rw [(afterMerge_ext h bpts more n obs pp st).eq (by
    rcases h4 with ⟨st', -, h4, -⟩ | ⟨h4, -⟩ <;> rw [h4] <;> exact fun e => nomatch e)]
  rcases h4 with ⟨st', cs, h4, h5, -⟩ | ⟨h4, -⟩
  · rw [h4, Outcome.bind_ok, Outcome.bind_ok, mergeGroups2_same h]
    have : ∀ st'', mergeGroups2 n s pp st' = .ok st'' → st''.objs = st'.objs := by
      intro st'' e
      unfold mergeGroups2 at e
      obtain ⟨_, -, e⟩ := Outcome.bind_eq_ok.1 e
      obtain ⟨_, -, e⟩ := Outcome.bind_eq_ok.1 e
      cases e
      rfl
    rcases h6 : mergeGroups2 n s pp st' with st'' | _ | _ | _ <;> try rfl
    exact hfg _ (by rw [this _ h6]; exact h5.objs)
  · rw [h4]
    rfl

omit hl hs h hobs hb in
theorem finalStage_eq (fix : Int) (st : State G Pt P) (hC : Spec.Objects.Collection bpts st.objs) :
    Finish.finalStage n fix (bpts ++ more) st = Finish.finalStage n fix bpts st := by
  refine (finalStage_ext bpts more n fix st).eq ?_
  obtain ⟨o1, h1, c1, -⟩ := Lemmas.Pipeline.refineObjects_ok (n.board 5) st.objs hC
  obtain ⟨o2, h2, -⟩ := Lemmas.Pipeline.refineObjects_ok (n.board 6) o1 c1
  unfold Finish.finalStage Finish.lastRefine refineAll
  rw [h1, Outcome.bind_ok, Outcome.pure_eq, Outcome.bind_ok]
  split
  · rw [h2]
    exact fun e => nomatch e
  · exact fun e => nomatch e

theorem run_eq (fix : Int) : Finish.run n fix (bpts ++ more) s' obs = Finish.run n fix bpts s obs :=
  stages_eq nCam nBoard l hl hs h obs hobs bpts more hb n _ _ fun st hC => finalStage_eq bpts more n fix st hC

theorem workflow_eq : workflow n (bpts ++ more) s' obs = workflow n bpts s obs :=
  stages_eq nCam nBoard l hl hs h obs hobs bpts more hb n _ _ fun st hC => by
    refine (refineAll_ext bpts more n 5 st).eq ?_
    obtain ⟨o1, h1, -⟩ := Lemmas.Pipeline.refineObjects_ok (n.board 5) st.objs hC
    unfold refineAll
    rw [h1]
    exact fun e => nomatch e

omit h in
theorem run_saved (fix : Int) (r : State G Pt P × OMap (Nat × Nat) (OMap Nat V)) (hr : Finish.run n fix bpts s obs = .ok r) :
    (∀ e ∈ r.1.objs, ∀ b ∈ OMap.keys e.2.boards, b < bpts.length) ∧ (∀ e ∈ r.1.t.groups, ∀ c ∈ OMap.keys e.2.cameras, c < nCam) := by
  classical
  obtain ⟨st, h1, h2⟩ := Lemmas.FinishRun.run_ends nCam nBoard l hl s hs obs hobs bpts hb n fix r hr
  have h3 := (Lemmas.FinishRun.finalStage_ends nCam nBoard l hl s hs obs hobs bpts n fix st h1 r h2).1
  constructor
  · intro e he
    exact (h3.consistent.objs.good e.1 e.2 ((OMap.get?_eq_some h3.consistent.objs.sorted).2 he)).boards_valid
  · intro e he c hc
    have := h3.known e.1 e.2 ((OMap.get?_eq_some h3.consistent.groups.sorted).2 he) c hc
    unfold Spec.Groups.observingCams at this
    exact List.mem_range.1 (List.mem_filter.1 this).1

end

end Verif.Lemmas.Idle
