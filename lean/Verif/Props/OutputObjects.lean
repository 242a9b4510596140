import Verif.Model.Output
import Verif.Lemmas.ObjectsMerge
import Verif.Spec.Pipeline
import Verif.Props.Pipeline

/-!
C56: the file of calibrated objects.  C57: the file of object poses.
-/
namespace Verif.Props.OutputObjects
open Verif Verif.Output Verif.Objects Verif.Pipeline Verif.Spec.Objects Verif.Spec.Pipeline

variable {V G Pt P Path : Type}

/-- All corners of the boards of an object: boards ascending, corners ascending. -/
def corners (bpts : List (List Pt)) (o : Object G Pt) : List (Nat × Nat) :=
  (OMap.keys o.boards).flatMap fun b => (List.range (cornerCount bpts b)).map fun k => (b, k)

/-- The columns of an object: one for every corner of its boards, in order, and each point is the pose
of its board applied to the corner on the board. -/
structure ColumnsOf [SMul G Pt] (bpts : List (List Pt)) (o : Object G Pt) (cols : List (Column Pt)) : Prop where
  labels : cols.map (fun c => (c.board, c.corner)) = corners bpts o
  point : ∀ c ∈ cols, ∃ g ps p, OMap.get? o.poses c.board = some g ∧ bpts[c.board]? = some ps ∧
    ps[c.corner]? = some p ∧ c.pt = g • p

private theorem run (o : Object G Pt) (L : List (Nat × Nat)) (pt : Nat × Nat → Pt)
    (h : ∀ e ∈ L, o.pts[(OMap.get? o.b2o e).getD 0]? = some (pt e)) (acc : List (Column Pt)) (m : Nat)
    (hm : L.length ≤ m) :
    Outcome.foldlM (fun st e => saveCorner o e.1 st e.2) (acc.map some ++ List.replicate m none, acc.length) L =
      .ok ((acc ++ L.map fun e => (⟨pt e, e.1, e.2⟩ : Column Pt)).map some ++ List.replicate (m - L.length) none,
        acc.length + L.length) := by
  induction L generalizing acc m with
  | nil => simp
  | cons e L ih =>
    have hm' : L.length + 1 ≤ m := by simpa using hm
    obtain ⟨k, rfl⟩ : ∃ k, m = k + 1 := ⟨m - 1, by omega⟩
    rw [Outcome.foldlM_cons]
    have h1 := h e (by simp)
    have h2 : (acc.map some ++ List.replicate (k + 1) (none : Option (Column Pt)))[acc.length]? = some none := by
      rw [List.getElem?_append_right (by simp)]
      simp
    have hs : saveCorner o e.1 (acc.map some ++ List.replicate (k + 1) none, acc.length) e.2 =
        .ok ((acc ++ [(⟨pt e, e.1, e.2⟩ : Column Pt)]).map some ++ List.replicate k none,
          (acc ++ [(⟨pt e, e.1, e.2⟩ : Column Pt)]).length) := by
      unfold saveCorner
      rw [Outcome.idx_of_getElem? h1, Outcome.bind_ok]
      simp only [Outcome.idx_of_getElem? h2, Outcome.bind_ok, Outcome.pure_eq, Outcome.ok.injEq, Prod.mk.injEq]
      refine ⟨?_, by simp⟩
      rw [List.set_append_right _ _ (by simp)]
      simp [List.replicate_succ]
    rw [hs, Outcome.bind_ok, ih (fun e he => h e (by simp [he])) _ k (by omega)]
    simp only [List.map_append, List.length_append, List.length_cons, List.length_nil]
    congr 1
    simp
    omega

/-- C56: for a well-formed object every column of its matrix is written exactly once: no access is out of
range and no column stays uninitialised. -/
theorem C56_object [SMul G Pt] (bpts : List (List Pt)) (o : Object G Pt) (h : Good bpts o) :
    ∃ cols, saveObject bpts o = .ok (cols.map some) ∧ ColumnsOf bpts o cols := by
  have hb : ∀ e ∈ o.boards, ∃ ps, bpts[e.1]? = some ps ∧ cornerCount bpts e.1 = ps.length := by
    intro e he
    have : e.1 < bpts.length := h.boards_valid e.1 (List.mem_map.2 ⟨e, he, rfl⟩)
    exact ⟨bpts[e.1], List.getElem?_eq_getElem this, by simp [cornerCount, List.getElem?_eq_getElem this]⟩
  have hmem : ∀ e ∈ corners bpts o, ∃ i : Nat, OMap.get? o.b2o e = some i ∧ o.o2b[i]? = some e := by
    rintro ⟨b, k⟩ he
    have he' : b ∈ OMap.keys o.boards ∧ k < cornerCount bpts b := by
      simp only [corners, List.mem_flatMap, List.mem_map, List.mem_range, Prod.mk.injEq] at he
      obtain ⟨b', hb', k', hk', rfl, rfl⟩ := he
      exact ⟨hb', hk'⟩
    have := (h.numbering.mem b k).2 he'
    obtain ⟨i, hi⟩ := List.mem_iff_getElem?.1 this
    exact ⟨i, (h.numbering.inverse (b, k) i).2 hi, hi⟩
  have hpts : ∀ e ∈ corners bpts o, ∃ g ps p, OMap.get? o.poses e.1 = some g ∧ bpts[e.1]? = some ps ∧
      ps[e.2]? = some p ∧ o.pts[(OMap.get? o.b2o e).getD 0]? = some (g • p) := by
    rintro ⟨b, k⟩ he
    obtain ⟨i, h1, h2⟩ := hmem _ he
    obtain ⟨g, ps, p, k1, k2, k3, k4⟩ := h.posed.point i b k h2
    exact ⟨g, ps, p, k1, k2, k3, by rw [h1]; exact k4⟩
  have hlen : (corners bpts o).length = o.nbPts := by
    rw [h.numbering.nb_pts, h.numbering.total]
    simp [corners, List.length_flatMap]
  have hcases : corners bpts o = [] ∨ Nonempty G ∧ Nonempty Pt := by
    rcases hc : corners bpts o with _ | ⟨e, r⟩
    · exact .inl rfl
    · obtain ⟨g, _, p, _⟩ := hpts e (by rw [hc]; simp)
      exact .inr ⟨⟨g⟩, ⟨p⟩⟩
  have hfold : Outcome.foldlM (saveBoard bpts o) (List.replicate o.nbPts none, 0) o.boards =
      Outcome.foldlM (fun st e => saveCorner o e.1 st e.2) (List.replicate o.nbPts none, 0) (corners bpts o) := by
    rw [Verif.Lemmas.Objects.foldlM_flatMap (saveBoard bpts o) (fun st (e : Nat × Nat) => saveCorner o e.1 st e.2)
      (fun e => (List.range (cornerCount bpts e.1)).map fun k => (e.1, k)) o.boards]
    · congr 1
      simp only [corners, OMap.keys, List.flatMap_map]
    · intro st e he
      obtain ⟨ps, h1, h2⟩ := hb e he
      unfold saveBoard
      rw [h1]
      simp only
      rw [Verif.Lemmas.Objects.foldlM_map', h2]
  rcases hcases with hnil | ⟨_, _⟩
  · refine ⟨[], ?_, ⟨by simp [hnil], by simp⟩⟩
    unfold saveObject
    rw [hfold, hnil]
    rw [hnil] at hlen
    simp at hlen
    simp [← hlen]
  · choose! pg pps pp q1 q2 q3 q4 using hpts
    refine ⟨(corners bpts o).map fun e => ⟨pg e • pp e, e.1, e.2⟩, ?_, ?_, ?_⟩
    · unfold saveObject
      rw [hfold]
      have := run o (corners bpts o) (fun e => pg e • pp e) q4 [] o.nbPts hlen.le
      simp only [List.map_nil, List.nil_append, List.length_nil, hlen, Nat.sub_self, List.replicate_zero,
        List.append_nil] at this
      rw [this]
      rfl
    · simp [Function.comp_def]
    · intro c hc
      obtain ⟨e, he, rfl⟩ := List.mem_map.1 hc
      exact ⟨pg e, pps e, pp e, q1 e he, q2 e he, q3 e he, rfl⟩

/-- C56: the file has one matrix for each object, under the object's number, in ascending order. -/
theorem C56_file [Group G] [SMul G Pt] (bpts : List (List Pt)) (objs : OMap Nat (Object G Pt))
    (hC : Spec.Objects.Collection bpts objs) :
    ∃ cols : Nat → List (Column Pt), save3DObj bpts objs =
        .ok ((OMap.keys objs).map fun i => (i, (cols i).map some)) ∧
      ∀ i o, OMap.get? objs i = some o → ColumnsOf bpts o (cols i) := by
  have h : ∀ e ∈ objs, OMap.get? objs e.1 = some e.2 := fun e he => (OMap.get?_eq_some hC.sorted).2 he
  have : ∀ e ∈ objs, ∃ cols, saveObject bpts e.2 = .ok (cols.map some) ∧ ColumnsOf bpts e.2 cols :=
    fun e he => C56_object bpts e.2 (hC.good e.1 e.2 (h e he))
  have hf : ∀ i, ∃ cols, ∀ o, OMap.get? objs i = some o →
      saveObject bpts o = .ok (cols.map some) ∧ ColumnsOf bpts o cols := by
    intro i
    cases hi : OMap.get? objs i with
    | none => exact ⟨[], by simp⟩
    | some o =>
      obtain ⟨cols, h1, h2⟩ := this (i, o) ((OMap.get?_eq_some hC.sorted).1 hi)
      exact ⟨cols, fun o' ho' => by simp only [Option.some.injEq] at ho'; subst ho'; exact ⟨h1, h2⟩⟩
  choose cols hcols using hf
  refine ⟨cols, ?_, fun i o ho => (hcols i o ho).2⟩
  unfold save3DObj
  have run : ∀ (l : OMap Nat (Object G Pt)) (fs : Storage (Nat × List (Option (Column Pt)))),
      fs.isOpen = true → (∀ e ∈ l, e.2.id = e.1 ∧ saveObject bpts e.2 = .ok ((cols e.1).map some)) →
      Outcome.foldlM (saveObjectStep bpts) fs l =
        .ok { isOpen := true, out := fs.out ++ (OMap.keys l).map fun i => (i, (cols i).map some) } := by
    intro l
    induction l with
    | nil => intro fs hfs _; cases fs; simp_all [OMap.keys]
    | cons e l ih =>
      intro fs hfs hl
      obtain ⟨h1, h2⟩ := hl e (by simp)
      rw [Outcome.foldlM_cons]
      have : saveObjectStep bpts fs e = .ok (fs.put (e.1, (cols e.1).map some)) := by
        unfold saveObjectStep
        rw [h2, h1]; rfl
      rw [this, Outcome.bind_ok, ih _ (by simp [Storage.put, hfs]) fun e he => hl e (by simp [he])]
      simp [Storage.put, hfs, OMap.keys]
  rw [run objs {} rfl fun e he => ⟨hC.id e.1 e.2 (h e he), (hcols e.1 e.2 (h e he)).1⟩]
  rfl

/-- C57: the file of object poses lists, for each object, the poses of the stored observations of that
object, one column for each, in the order of the observations. -/
theorem C57_poses [Group G] [SMul G Pt] (bpts : List (List Pt)) (objs : OMap Nat (Object G Pt))
    (hC : Spec.Objects.Collection bpts objs) (oo : List (ObjObs P)) (pose : Nat → V) :
    save3DObjPose objs oo pose = (OMap.keys objs).map fun i =>
      (i, (Spec.Store.positions (fun o : ObjObs P => o.obj == i) oo).map pose) := by
  unfold save3DObjPose OMap.keys
  rw [List.map_map]
  apply List.map_congr_left
  intro e he
  have : e.2.id = e.1 := hC.id e.1 e.2 ((OMap.get?_eq_some hC.sorted).2 he)
  simp only [Function.comp, this, objectPoseColumns]
  congr 2

theorem positions_length {α : Type} (p : α → Bool) (l : List α) :
    (Spec.Store.positions p l).length = l.countP p := by
  have : (Spec.Store.positions p l).map (fun i => l[i]?) = (l.filter p).map some := by
    have h : ∀ n, n ≤ l.length → ((List.range n).filter fun i => (l[i]?).any p).map (fun i => l[i]?) =
        ((l.take n).filter p).map some := by
      intro n
      induction n with
      | zero => intro _; rfl
      | succ n ih =>
        intro hn
        rw [List.range_succ, List.filter_append, List.map_append, ih (by omega), List.take_add_one,
          List.filter_append, List.map_append]
        congr 1
        rw [List.getElem?_eq_getElem (by omega)]
        by_cases hp : p l[n] = true
        · simp [List.getElem?_eq_getElem (show n < l.length by omega), hp]
        · simp [List.getElem?_eq_getElem (show n < l.length by omega), hp]
    have := h l.length le_rfl
    rw [List.take_length] at this
    exact this
  have := congrArg List.length this
  simpa [List.countP_eq_length_filter] using this

/-- C57, number of columns after a merge of objects: each image (camera and frame) in which a corner of
the object was seen contributes not one column but as many as there are objects. -/
theorem C57_copies [Group G] [SMul G Pt] [DecidableEq P] (nCam nBoard : Nat) (l : List (Insertion P Path))
    (hl : ∀ a ∈ l, a.obs.cam < nCam ∧ a.obs.board < nBoard) (s : Store P Path)
    (hs : Store.run nCam nBoard l = .ok s) (obs' : List (BoardObs P)) (hobs : SameViews s.obs obs')
    (bpts : List (List Pt)) (objs : OMap Nat (Object G Pt)) (hC : Spec.Objects.Collection bpts objs)
    (all : List (ObjObs P)) (hall : mergeAllObjectObs { s with obs := obs' } objs = .ok all)
    (i : Nat) (o : Object G Pt) (ho : OMap.get? objs i = some o) (pose : Nat → V) :
    ∃ views : List (Nat × Nat), views.Nodup ∧ (∀ c f, (c, f) ∈ views ↔ Spec.Groups.Sees obs' o c f) ∧
      ∃ cols, (i, cols) ∈ save3DObjPose objs all pose ∧ cols.length = objs.length * views.length := by
  obtain ⟨all', once, h1, h2, h3, _⟩ :=
    Props.Objects.C25_duplicates nCam nBoard l hl s hs obs' hobs bpts objs hC
  rw [hall] at h1
  simp only [Outcome.ok.injEq] at h1
  subst h1
  obtain ⟨h4, h5⟩ := Props.Objects.C16_iff nCam nBoard l hl s hs obs' hobs bpts objs hC once h2
  refine ⟨(once.filter fun x => x.obj == i).map fun x => (x.cam, x.frame), ?_, ?_, ?_⟩
  · have h6 := (h4.sublist (List.Sublist.map _ (List.filter_sublist (p := fun x => x.obj == i) (l := once))))
    rw [List.Nodup, List.pairwise_map] at h6 ⊢
    refine h6.imp_of_mem ?_
    intro a b ha hb hab hne
    simp only [List.mem_filter, beq_iff_eq] at ha hb
    simp only [Prod.mk.injEq] at hne
    apply hab
    rw [ha.2, hb.2, hne.1, hne.2]
  · intro c f
    have := h5 i c f
    constructor
    · intro h
      obtain ⟨x, hx, hx'⟩ := List.mem_map.1 h
      simp only [List.mem_filter, beq_iff_eq] at hx
      simp only [Prod.mk.injEq] at hx'
      obtain ⟨o', ho', hs'⟩ := this.1 ⟨x, hx.1, hx.2, hx'.1, hx'.2⟩
      rw [ho] at ho'
      simp only [Option.some.injEq] at ho'
      subst ho'
      exact hs'
    · intro h
      obtain ⟨x, hx, h6, h7, h8⟩ := this.2 ⟨o, ho, h⟩
      exact List.mem_map.2 ⟨x, by simp [hx, h6], by rw [h7, h8]⟩
  · refine ⟨_, by
      rw [C57_poses bpts objs hC]
      exact List.mem_map.2 ⟨i, OMap.mem_keys.2 ⟨o, ho⟩, rfl⟩, ?_⟩
    rw [List.length_map, positions_length, h3, List.countP_flatten, List.map_replicate, List.sum_replicate,
      List.length_map, List.countP_eq_length_filter]
    rfl

/-! ### The hypotheses are met -/

open Props.Pipeline in
/-- The two cameras of `Props/Pipeline`: after the workflow there is one object of two boards, and its
file has one column for the corner of each. -/
theorem C56_example : (match runAll 2 2 twoCams with
    | .ok st => (match save3DObj (List.replicate 2 [2]) st.objs with
      | .ok f => f.map fun e => (e.1, e.2.map fun c => c.map fun c => (c.board, c.corner))
      | _ => [])
    | _ => []) = [(0, [some (0, 0), some (1, 0)])] := by decide +kernel

open Props.Pipeline in
/-- Before the cameras are joined there are two objects, each seen in four images; each has eight
columns. -/
theorem C57_example : (save3DObjPose twoState.objs twoState.oo id).map (fun e => (e.1, e.2.length)) =
    [(0, 8), (1, 8)] := by decide +kernel

end Verif.Props.OutputObjects
