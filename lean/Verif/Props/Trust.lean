import Verif.Lemmas.Trust
import Verif.Props.Groups
import Verif.Props.Average
import Mathlib.Algebra.Group.TypeTags.Basic

/-!
C79, C80: which measurements place a board in its object and a camera in its group.

`boardMeasures l pose a b` and `cameraMeasures oo pose a b` (Spec/Trust) are the measured relative poses of two boards and
of two cameras, `weakSteps` counts the steps of a path that rest on a single measurement, `IsPath` (Spec/Structure) is a
path without repetition.
-/
namespace Verif.Props.Trust
open Verif Verif.Objects Verif.Groups Verif.Structure Verif.Spec.Objects Verif.Spec.Groups Verif.Spec.Structure
open Verif.Spec.Store Verif.Spec.Trust Verif.Lemmas.Objects Verif.Lemmas.Groups Verif.Lemmas.Structure Verif.Lemmas.Trust
open Relation
open Verif.Props.Objects (Averages)

variable {G Pt P Path : Type}

/-- The average does not depend on the order of the measurements. -/
def Unordered (avg : List G → G) : Prop := ∀ zs zs' : List G, zs.Perm zs' → avg zs = avg zs'

private theorem desc (nCam nBoard : Nat) (l : List (Insertion P Path))
    (hl : ∀ a ∈ l, a.obs.cam < nCam ∧ a.obs.board < nBoard) (s : Store P Path)
    (hs : Store.run nCam nBoard l = .ok s) : Describes nCam nBoard l s := by
  obtain ⟨s', h1, h2⟩ := Props.Store.C06_indexes nCam nBoard l hl
  rw [hs] at h1
  simp only [Outcome.ok.injEq] at h1
  subst h1
  exact h2

/-- C80 (graph): a direct edge is the path returned whenever no walk between its ends has a smaller sum of integer parts of
weights, whatever the order of the calls and the tie-breaks. -/
theorem C80_path {α : Type} [DecidableEq α] (h : List (Graph.Call α)) (hn : Spec.Graph.NoFreshSelf h)
    (choose : Graph.DState → Nat) (a b : α) (w : Rat) (hne : a ≠ b) (hab : Spec.Graph.Step h a b w)
    (hw : ∀ x y w, Spec.Graph.Step h x y w → 0 ≤ Graph.trunc w)
    (hmin : ∀ p k, Spec.Graph.Walk h Graph.trunc a b p k → Graph.trunc w ≤ k) :
    (Graph.run h).shortestPathBetween choose a b = .ok [a, b] := by
  have r := Graph.rep_run h hn
  refine Lemmas.DijkstraDirect.direct r choose hne hab ?_ (fun x y w _ hs => hw x y w hs) hmin
  rcases hab with hs | hs
  · exact (Graph.mem_firstOccs ..).2 (List.mem_flatMap.2 ⟨_, hs, by simp [Spec.Graph.ids]⟩)
  · exact (Graph.mem_firstOccs ..).2 (List.mem_flatMap.2 ⟨_, hs, by simp [Spec.Graph.ids]⟩)

example (choose : Graph.DState → Nat) : (Graph.run Props.Graph.demo).shortestPathBetween choose 1 2 = .ok [1, 2] := by
  refine C80_path _ Props.Graph.demo_noFreshSelf choose 1 2 (1/2) (by decide) (Or.inl (by decide +kernel))
    (fun _ _ _ hs => Props.Graph.demo_nonneg hs) ?_
  intro p k hw
  have hall : ∀ a b p k, Spec.Graph.Walk Props.Graph.demo Graph.trunc a b p k → 0 ≤ k := by
    intro a b p k hw
    induction hw with
    | nil => exact le_refl _
    | cons hs _ ih =>
      have := Props.Graph.demo_nonneg hs
      omega
  have hk := hall _ _ _ _ hw
  have : Graph.trunc (1/2) = 0 := by decide +kernel
  omega

section Boards
variable [Group G] [SMul G Pt] (nCam nBoard : Nat) (l : List (Insertion P Path))
  (hl : ∀ a ∈ l, a.obs.cam < nCam ∧ a.obs.board < nBoard) (s : Store P Path)
  (hs : Store.run nCam nBoard l = .ok s) (pose : Nat → G) (avg : List G → G) (bpts : List (List Pt))
  (hb : bpts.length = nBoard) (choose : Nat → Nat → Graph.DState → Nat)

include hl hs hb in
private theorem board_path (havg : Unordered avg) (objs : OMap Nat (Object G Pt))
    (ho : buildObjects s pose avg bpts choose = .ok objs) (i : Nat) (o : Object G Pt) (hio : OMap.get? objs i = some o)
    (b : Nat) (hbo : b ∈ OMap.keys o.boards) :
    ∃ p, IsPath (CoSeen l) o.refBoard b p ∧
      (∀ p', IsPath (CoSeen l) o.refBoard b p' → weakSteps (boardMeasures l pose) p ≤ weakSteps (boardMeasures l pose) p') ∧
      OMap.get? o.poses b = some ((p.zip p.tail).map fun e => (avg (boardMeasures l pose e.1 e.2))⁻¹).prod ∧
      (CoSeen l o.refBoard b → ((boardMeasures l pose o.refBoard b).length ≠ 1 ∨
        ∀ p', IsPath (CoSeen l) o.refBoard b p' → 0 < weakSteps (boardMeasures l pose) p') → p = [o.refBoard, b]) := by
  have hd := desc nCam nBoard l hl s hs
  obtain ⟨objs', h1, h2, h3, h4, h5⟩ := buildObjects_ok (G := G) (Pt := Pt) hl hd pose avg bpts hb choose
  rw [ho] at h1
  simp only [Outcome.ok.injEq] at h1
  subst h1
  have hm := h5 i o hio
  obtain ⟨x, hx, hp⟩ := hm.pose b hbo
  have hT := boards_tableOk hl hd pose
  have hin : OMap.keys o.boards ∈ objs.map fun e => OMap.keys e.2.boards :=
    List.mem_map.2 ⟨(i, o), (OMap.get?_eq_some h2).1 hio, rfl⟩
  have hmem : o.refBoard ∈ observedBoards nBoard l := h4.perm.subset (List.mem_flatten.2
    ⟨_, hin, mem_of_head? hm.ref⟩)
  have hlink := (h4.linked _ hin o.refBoard (mem_of_head? hm.ref) b).1 hbo
  rw [← measured_boards hd pose] at hlink ⊢
  obtain ⟨p, q1, q2, q3, q4⟩ := TableOk.placed hT (pairTable_sorted _ _) (fun x => x⁻¹) avg havg (boardMeasures l pose)
    (fun a b hab => boards_perm hd pose a b hab) (boardMeasures_symm l pose) (choose o.refBoard b) hmem hlink
  have hg : boardGraph s (boardPairs s pose) = Graph.run (graphCalls (observedBoards nBoard l)
      (tableEdges (boardPairs s pose))) := by
    unfold boardGraph; rw [boardVertices_eq hd]
  rw [hg, q3] at hx
  simp only [Outcome.ok.injEq] at hx
  exact ⟨p, q1, q2, by rw [hp, ← hx], q4⟩

include hl hs hb in
/-- C79 (boards): the pose of a board in its object is the product, along a path from the reference board through boards
seen together, of the average measured relative poses (of all joint sightings of two consecutive boards); no other path has
fewer steps that rest on a single joint sighting. -/
theorem C79_boards (havg : Unordered avg) (objs : OMap Nat (Object G Pt))
    (ho : buildObjects s pose avg bpts choose = .ok objs) (i : Nat) (o : Object G Pt) (hio : OMap.get? objs i = some o)
    (b : Nat) (hbo : b ∈ OMap.keys o.boards) :
    ∃ p, IsPath (CoSeen l) o.refBoard b p ∧
      (∀ p', IsPath (CoSeen l) o.refBoard b p' → weakSteps (boardMeasures l pose) p ≤ weakSteps (boardMeasures l pose) p') ∧
      OMap.get? o.poses b = some ((p.zip p.tail).map fun e => (avg (boardMeasures l pose e.1 e.2))⁻¹).prod := by
  obtain ⟨p, h1, h2, h3, _⟩ := board_path nCam nBoard l hl s hs pose avg bpts hb choose havg objs ho i o hio b hbo
  exact ⟨p, h1, h2, h3⟩

include hl hs hb in
/-- C80 (boards): a board seen together with the reference board in at least two images, or in one image when every other
path rests on a single joint sighting somewhere, is placed by the average of these direct measurements alone. -/
theorem C80_boards (havg : Unordered avg) (objs : OMap Nat (Object G Pt))
    (ho : buildObjects s pose avg bpts choose = .ok objs) (i : Nat) (o : Object G Pt) (hio : OMap.get? objs i = some o)
    (b : Nat) (hne : b ≠ o.refBoard)
    (hdir : 2 ≤ (boardMeasures l pose o.refBoard b).length ∨ ((boardMeasures l pose o.refBoard b).length = 1 ∧
      ∀ p, IsPath (CoSeen l) o.refBoard b p → 0 < weakSteps (boardMeasures l pose) p)) :
    OMap.get? o.poses b = some (avg (boardMeasures l pose o.refBoard b))⁻¹ := by
  have hco : CoSeen l o.refBoard b := by
    have : 0 < (boardMeasures l pose o.refBoard b).length := by
      rcases hdir with h | h <;> omega
    obtain ⟨z, hz⟩ := List.exists_mem_of_length_pos this
    unfold boardMeasures at hz
    obtain ⟨x, hx, hz⟩ := List.mem_flatMap.1 hz
    obtain ⟨y, hy, hz⟩ := List.mem_filterMap.1 hz
    split at hz
    · rename_i hc
      exact ⟨Ne.symm hne, x.1, List.fst_mem_of_mem_zipIdx hx, y.1, List.fst_mem_of_mem_zipIdx hy, hc⟩
    · cases hz
  have hmem : b ∈ OMap.keys o.boards := by
    have hd := desc nCam nBoard l hl s hs
    obtain ⟨objs', h1, h2, h3, h4, h5⟩ := buildObjects_ok (G := G) (Pt := Pt) hl hd pose avg bpts hb choose
    rw [ho] at h1
    simp only [Outcome.ok.injEq] at h1
    subst h1
    have hin : OMap.keys o.boards ∈ objs.map fun e => OMap.keys e.2.boards :=
      List.mem_map.2 ⟨(i, o), (OMap.get?_eq_some h2).1 hio, rfl⟩
    exact (h4.linked _ hin o.refBoard (mem_of_head? (h5 i o hio).ref) b).2 (ReflTransGen.single hco)
  obtain ⟨p, _, _, h3, h4⟩ := board_path nCam nBoard l hl s hs pose avg bpts hb choose havg objs ho i o hio b hmem
  have := h4 hco (by
    rcases hdir with h | h
    · exact Or.inl (by omega)
    · exact Or.inr h.2)
  subst this
  rw [h3]
  simp

end Boards

private theorem measured_share [Group G] {oo : List (ObjObs P)} {pose : Nat → G} {a b : Nat}
    (h : 0 < (cameraMeasures oo pose a b).length) (hne : a ≠ b) : ShareObject oo a b := by
  obtain ⟨z, hz⟩ := List.exists_mem_of_length_pos h
  unfold cameraMeasures at hz
  obtain ⟨x, hx, hz⟩ := List.mem_flatMap.1 hz
  obtain ⟨y, hy, hz⟩ := List.mem_filterMap.1 hz
  split at hz
  · rename_i hc
    exact ⟨hne, x.1, List.fst_mem_of_mem_zipIdx hx, y.1, List.fst_mem_of_mem_zipIdx hy, hc⟩
  · cases hz

/-- Two different common sightings give two measurements. -/
theorem two_measures [Group G] (oo : List (ObjObs P)) (pose : Nat → G) (a b : Nat) (x y x' y' : ObjObs P) (hx : x ∈ oo)
    (hy : y ∈ oo) (hx' : x' ∈ oo) (hy' : y' ∈ oo) (h : x.frame = y.frame ∧ x.obj = y.obj ∧ x.cam = a ∧ y.cam = b)
    (h' : x'.frame = y'.frame ∧ x'.obj = y'.obj ∧ x'.cam = a ∧ y'.cam = b) (hne : x ≠ x') :
    2 ≤ (cameraMeasures oo pose a b).length := by
  obtain ⟨i, hi⟩ := List.getElem?_of_mem hx
  obtain ⟨j, hj⟩ := List.getElem?_of_mem hy
  obtain ⟨i', hi'⟩ := List.getElem?_of_mem hx'
  obtain ⟨j', hj'⟩ := List.getElem?_of_mem hy'
  let c : ObjObs P × Nat → ObjObs P × Nat → Bool := fun x y =>
    decide (x.1.frame = y.1.frame ∧ x.1.obj = y.1.obj ∧ x.1.cam = a ∧ y.1.cam = b)
  have e : (cameraMeasures oo pose a b).length =
      (oo.zipIdx.flatMap fun x => (oo.zipIdx.filter (c x)).map fun y => (x, y)).length := by
    unfold cameraMeasures
    rw [List.length_flatMap, List.length_flatMap]
    congr 1
    apply List.map_congr_left
    intro u _
    rw [List.length_map]
    generalize oo.zipIdx = m
    induction m with
    | nil => rfl
    | cons v m ih =>
      rw [List.filterMap_cons, List.filter_cons]
      by_cases hc : u.1.frame = v.1.frame ∧ u.1.obj = v.1.obj ∧ u.1.cam = a ∧ v.1.cam = b
      · rw [if_pos hc, if_pos (by simpa [c] using hc)]
        simp only [List.length_cons, ih]
      · rw [if_neg hc, if_neg (by simpa [c] using hc)]
        exact ih
  rw [e]
  have hnd : [((x, i), (y, j)), ((x', i'), (y', j'))].Nodup := by
    simp [hne]
  refine (List.subperm_of_subset hnd ?_).length_le
  intro z hz
  simp only [List.mem_cons, List.not_mem_nil, or_false] at hz
  rw [List.mem_flatMap]
  rcases hz with rfl | rfl
  · exact ⟨(x, i), List.mem_zipIdx_iff_getElem?.2 hi, List.mem_map.2 ⟨(y, j), List.mem_filter.2
      ⟨List.mem_zipIdx_iff_getElem?.2 hj, by simpa [c] using h⟩, rfl⟩⟩
  · exact ⟨(x', i'), List.mem_zipIdx_iff_getElem?.2 hi', List.mem_map.2 ⟨(y', j'), List.mem_filter.2
      ⟨List.mem_zipIdx_iff_getElem?.2 hj', by simpa [c] using h'⟩, rfl⟩⟩

section Cameras
variable [Group G] [SMul G Pt] (nCam nBoard : Nat) (l : List (Insertion P Path))
  (hl : ∀ a ∈ l, a.obs.cam < nCam ∧ a.obs.board < nBoard) (s : Store P Path)
  (hs : Store.run nCam nBoard l = .ok s) (obs' : List (BoardObs P))
  (hobs : Spec.Objects.SameViews s.obs obs')
  (bpts : List (List Pt)) (objs : OMap Nat (Object G Pt)) (hC : Spec.Objects.Collection bpts objs)
  (oo : List (ObjObs P)) (hoo : initAllObjectObs { s with obs := obs' } objs [] = .ok oo)
  (pose : Nat → G) (avg : List G → G) (choose : Nat → Nat → Graph.DState → Nat)

include hl hs hobs hC hoo in
private theorem camera_path (havg : Unordered avg) (gs : OMap Nat (CamGroup G))
    (hg : buildGroups s oo pose avg choose = .ok gs) (i : Nat) (g : CamGroup G) (hi : OMap.get? gs i = some g) (c : Nat)
    (hc : c ∈ OMap.keys g.cameras) :
    ∃ p, IsPath (ShareObject oo) g.refCam c p ∧
      (∀ p', IsPath (ShareObject oo) g.refCam c p' →
        weakSteps (cameraMeasures oo pose) p ≤ weakSteps (cameraMeasures oo pose) p') ∧
      OMap.get? g.poses c = some ((p.zip p.tail).map fun e => avg (cameraMeasures oo pose e.1 e.2)).prod ∧
      (ShareObject oo g.refCam c → ((cameraMeasures oo pose g.refCam c).length ≠ 1 ∨
        ∀ p', IsPath (ShareObject oo) g.refCam c p' → 0 < weakSteps (cameraMeasures oo pose) p') → p = [g.refCam, c]) := by
  have hd := desc nCam nBoard l hl s hs
  have hf := Props.Groups.fromBoards nCam nBoard l hl s hs obs' hobs bpts objs hC oo hoo
  obtain ⟨gs', pl, h1, hcol, h3, hpl, h4, h5⟩ := buildGroups_ok hl hd hf pose avg choose
  rw [hg] at h1
  simp only [Outcome.ok.injEq] at h1
  subst h1
  have hm := h5 i g hi
  have hin : OMap.keys g.cameras ∈ gs.map fun e => OMap.keys e.2.cameras :=
    List.mem_map.2 ⟨(i, g), (OMap.get?_eq_some hcol.sorted).1 hi, rfl⟩
  have hmem : g.refCam ∈ observingCams nCam l := h4.perm.subset (List.mem_flatten.2
    ⟨_, hin, mem_of_head? hm.ref⟩)
  have hlink := (h4.linked _ hin g.refCam (mem_of_head? hm.ref) c).1 hc
  have e1 := hpl _ hmem c hlink
  rw [← measured_cams hd hf pose] at hlink ⊢
  obtain ⟨p, q1, q2, q3, q4⟩ := TableOk.placed (cams_tableOk hl hd hf pose) (pairTable_sorted _ _) id avg havg
    (cameraMeasures oo pose) (fun a b hab => cameras_perm hd hf pose a b hab) (cameraMeasures_symm oo pose)
    (choose g.refCam c) hmem hlink
  refine ⟨p, q1, q2, ?_, q4⟩
  have hgr : cameraGraph s (cameraPairs s oo pose) = Graph.run (graphCalls (observingCams nCam l)
      (tableEdges (cameraPairs s oo pose))) := by
    unfold cameraGraph; rw [cameraVertices_eq hd]
  rw [q3] at e1
  simp only [Outcome.ok.injEq] at e1
  rw [hm.filled.poses, if_pos hc, ← e1]
  rfl

include hl hs hobs hC hoo in
/-- C79 (cameras): the pose of a camera in its group is the product, along a path from the reference camera through
cameras that saw a common object, of the average measured relative poses; no other path has fewer steps that rest on a
single measurement. -/
theorem C79_cameras (havg : Unordered avg) (gs : OMap Nat (CamGroup G))
    (hg : buildGroups s oo pose avg choose = .ok gs) (i : Nat) (g : CamGroup G) (hi : OMap.get? gs i = some g) (c : Nat)
    (hc : c ∈ OMap.keys g.cameras) :
    ∃ p, IsPath (ShareObject oo) g.refCam c p ∧
      (∀ p', IsPath (ShareObject oo) g.refCam c p' →
        weakSteps (cameraMeasures oo pose) p ≤ weakSteps (cameraMeasures oo pose) p') ∧
      OMap.get? g.poses c = some ((p.zip p.tail).map fun e => avg (cameraMeasures oo pose e.1 e.2)).prod := by
  obtain ⟨p, h1, h2, h3, _⟩ := camera_path nCam nBoard l hl s hs obs' hobs bpts objs hC oo hoo pose avg choose havg gs hg
    i g hi c hc
  exact ⟨p, h1, h2, h3⟩

include hl hs hobs hC hoo in
/-- C80 (cameras): a camera that saw an object together with the reference camera at least twice, or once when every other
path rests on a single measurement somewhere, is placed by the average of these direct measurements alone. -/
theorem C80_cameras (havg : Unordered avg) (gs : OMap Nat (CamGroup G))
    (hg : buildGroups s oo pose avg choose = .ok gs) (i : Nat) (g : CamGroup G) (hi : OMap.get? gs i = some g) (c : Nat)
    (hne : c ≠ g.refCam)
    (hdir : 2 ≤ (cameraMeasures oo pose g.refCam c).length ∨ ((cameraMeasures oo pose g.refCam c).length = 1 ∧
      ∀ p, IsPath (ShareObject oo) g.refCam c p → 0 < weakSteps (cameraMeasures oo pose) p)) :
    OMap.get? g.poses c = some (avg (cameraMeasures oo pose g.refCam c)) := by
  have hco : ShareObject oo g.refCam c := measured_share (pose := pose) (by rcases hdir with h | h <;> omega) (Ne.symm hne)
  have hmem : c ∈ OMap.keys g.cameras := by
    have hd := desc nCam nBoard l hl s hs
    have hf := Props.Groups.fromBoards nCam nBoard l hl s hs obs' hobs bpts objs hC oo hoo
    obtain ⟨gs', pl, h1, hcol, h3, hpl, h4, h5⟩ := buildGroups_ok hl hd hf pose avg choose
    rw [hg] at h1
    simp only [Outcome.ok.injEq] at h1
    subst h1
    have hin : OMap.keys g.cameras ∈ gs.map fun e => OMap.keys e.2.cameras :=
      List.mem_map.2 ⟨(i, g), (OMap.get?_eq_some hcol.sorted).1 hi, rfl⟩
    exact (h4.linked _ hin g.refCam (mem_of_head? (h5 i g hi).ref) c).2 (ReflTransGen.single hco)
  obtain ⟨p, _, _, h3, h4⟩ := camera_path nCam nBoard l hl s hs obs' hobs bpts objs hC oo hoo pose avg choose havg gs hg
    i g hi c hmem
  have := h4 hco (by
    rcases hdir with h | h
    · exact Or.inl (by omega)
    · exact Or.inr h.2)
  subst this
  rw [h3]
  simp

include hl hs hobs hC hoo in
/-- C80 with exact data: the pose of a camera that saw an object together with the reference camera at least twice is its
true pose relative to the reference camera, however large the group. -/
theorem C80_exact (hmean : Averages avg) (C : Nat → G) (W : Nat → Nat → G)
    (hexact : ∀ (i : Nat) o, oo[i]? = some o → pose i = C o.cam * W o.frame o.obj) (gs : OMap Nat (CamGroup G))
    (hg : buildGroups s oo pose avg choose = .ok gs) (i : Nat) (g : CamGroup G) (hi : OMap.get? gs i = some g) (c : Nat)
    (hne : c ≠ g.refCam) (hdir : 2 ≤ (cameraMeasures oo pose g.refCam c).length) :
    OMap.get? g.poses c = some (C c * (C g.refCam)⁻¹) := by
  have hd := desc nCam nBoard l hl s hs
  have hf := Props.Groups.fromBoards nCam nBoard l hl s hs obs' hobs bpts objs hC oo hoo
  have hperm := fun a b (hab : a ≠ b) => cameras_perm hd hf pose a b hab
  have hco : ShareObject oo g.refCam c := measured_share (pose := pose) (by omega) (Ne.symm hne)
  have hmem : c ∈ OMap.keys g.cameras := by
    obtain ⟨gs', pl, h1, hcol, h3, hpl, h4, h5⟩ := buildGroups_ok hl hd hf pose avg choose
    rw [hg] at h1
    simp only [Outcome.ok.injEq] at h1
    subst h1
    have hin : OMap.keys g.cameras ∈ gs.map fun e => OMap.keys e.2.cameras :=
      List.mem_map.2 ⟨(i, g), (OMap.get?_eq_some hcol.sorted).1 hi, rfl⟩
    exact (h4.linked _ hin g.refCam (mem_of_head? (h5 i g hi).ref) c).2 (ReflTransGen.single hco)
  have hM : Measured (cameraPairs s oo pose) g.refCam c := by rw [measured_cams hd hf pose]; exact hco
  have hpath := TableOk.direct (cams_tableOk hl hd hf pose) (pairTable_sorted _ _) (fun a b => by
    by_cases hab : a = b
    · rw [hab]
    · rw [(hperm a b hab).length_eq, (hperm b a (Ne.symm hab)).length_eq, cameraMeasures_symm])
    (choose g.refCam c) hM (Or.inl (by rw [(hperm _ _ (Ne.symm hne)).length_eq]; omega))
  have hgr : cameraGraph s (cameraPairs s oo pose) = Graph.run (graphCalls (observingCams nCam l)
      (tableEdges (cameraPairs s oo pose))) := by
    unfold cameraGraph; rw [cameraVertices_eq hd]
  exact Props.Groups.C19_direct nCam nBoard l hl s hs obs' hobs bpts objs hC oo hoo pose avg choose hmean C W hexact gs hg
    i g hi c hmem [g.refCam, c] (by rw [hgr]; exact hpath) (by simp)

end Cameras

section Average
open Verif.Average
variable {K : Type} [Field K] [LinearOrder K] [IsStrictOrderedRing K]

/-- C79, the average: the code's average of relative poses (medians of the six coordinates) does not depend on the order,
and gives the common value of equal measurements, so it may be taken as `avg` above. -/
theorem C79_average (toVec : G → Vec6 K) (ofVec : Vec6 K → G) (h : ∀ g, ofVec (toVec g) = g) :
    Unordered (interAverage toVec ofVec) ∧ Averages (interAverage toVec ofVec) := by
  refine ⟨?_, Props.Average.interAverage_averages toVec ofVec h⟩
  intro zs zs' hp
  unfold interAverage medianPose
  have hm : ∀ f : Vec6 K → K, median ((zs.map toVec).map f) = median ((zs'.map toVec).map f) :=
    fun f => Props.Average.C31_order ((hp.map _).map _)
  rw [hm, hm, hm, hm, hm, hm]

end Average

/-! Concrete cases: poses are translations along one axis. -/

abbrev Shift := Multiplicative ℚ
instance : SMul Shift ℚ := ⟨fun g x => g.toAdd + x⟩

/-- The code's average. -/
def shiftAvg : List Shift → Shift :=
  Average.interAverage (fun g => ⟨0, 0, 0, g.toAdd, 0, 0⟩) (fun v => Multiplicative.ofAdd v.t1)

theorem shiftAvg_ok : Unordered shiftAvg ∧ Averages shiftAvg := C79_average _ _ fun _ => rfl

/-- Boards 0 and 1 are seen together twice, 1 and 2 twice, 0 and 2 once. -/
def demoBoards : List (Insertion Nat Nat) :=
  [⟨⟨0, 0, 0, [7], [0]⟩, 0⟩, ⟨⟨0, 0, 1, [8], [0]⟩, 0⟩, ⟨⟨0, 1, 0, [7], [0]⟩, 0⟩, ⟨⟨0, 1, 1, [8], [0]⟩, 0⟩,
   ⟨⟨0, 2, 1, [7], [0]⟩, 0⟩, ⟨⟨0, 2, 2, [8], [0]⟩, 0⟩, ⟨⟨0, 3, 1, [7], [0]⟩, 0⟩, ⟨⟨0, 3, 2, [8], [0]⟩, 0⟩,
   ⟨⟨0, 4, 0, [7], [0]⟩, 0⟩, ⟨⟨0, 4, 2, [8], [0]⟩, 0⟩]

/-- Noisy poses. -/
def demoPoses (i : Nat) : Shift :=
  Multiplicative.ofAdd (([0, 10, 0, 12, 0, 10, 0, 14, 0, 30] : List ℚ)[i]?.getD 0)

/-- The poses of the boards. -/
def demoPlaced : List (Nat × List (Nat × ℚ)) :=
  match Store.run 1 3 demoBoards with
  | .ok s => match buildObjects s demoPoses shiftAvg ([[0], [0], [0]] : List (List ℚ)) (fun _ _ _ => 0) with
    | .ok objs => objs.map fun e => (e.2.refBoard, e.2.poses.map fun x => (x.1, x.2.toAdd))
    | _ => []
  | _ => []

/-- Board 1 is placed by its two direct measurements (their median 11).  Board 2, seen once together with board 0 (at 30),
is placed through board 1 (at 11 + 12), each step of this path being measured twice. -/
example : demoPlaced = [(0, [(0, 0), (1, 11), (2, 23)])] ∧
    (boardMeasures demoBoards demoPoses 0 1).map (fun z => z.toAdd) = [-10, -12] ∧
    weakSteps (boardMeasures demoBoards demoPoses) [0, 2] = 1 ∧
    weakSteps (boardMeasures demoBoards demoPoses) [0, 1, 2] = 0 := by
  decide +kernel

/-- The hypotheses of the theorems about boards are met. -/
example : (∀ a ∈ demoBoards, a.obs.cam < 1 ∧ a.obs.board < 3) ∧ Unordered shiftAvg ∧
    ∃ s, Store.run 1 3 demoBoards = .ok s ∧ ∃ objs,
      buildObjects s demoPoses shiftAvg ([[0], [0], [0]] : List (List ℚ)) (fun _ _ _ => 0) = .ok objs ∧
      ∃ o, OMap.get? objs 0 = some o ∧ o.refBoard = 0 ∧ OMap.keys o.boards = [0, 1, 2] ∧
        2 ≤ (boardMeasures demoBoards demoPoses 0 1).length := by
  have hl : ∀ a ∈ demoBoards, a.obs.cam < 1 ∧ a.obs.board < 3 := by decide
  refine ⟨hl, shiftAvg_ok.1, ?_⟩
  obtain ⟨s, hs, hd⟩ := Props.Store.C06_indexes 1 3 demoBoards hl
  refine ⟨s, hs, ?_⟩
  obtain ⟨objs, h1, _⟩ := buildObjects_ok (G := Shift) (Pt := ℚ) hl hd demoPoses shiftAvg [[0], [0], [0]] rfl
    (fun _ _ _ => 0)
  have hshow : (match Store.run 1 3 demoBoards with
    | .ok s => match buildObjects s demoPoses shiftAvg ([[0], [0], [0]] : List (List ℚ)) (fun _ _ _ => 0) with
      | .ok objs => (OMap.get? objs 0).map fun o => (o.refBoard, OMap.keys o.boards)
      | _ => none
    | _ => none) = some (0, [0, 1, 2]) := by decide +kernel
  rw [hs] at hshow
  simp only [h1] at hshow
  cases ho : OMap.get? objs 0 with
  | none => rw [ho] at hshow; cases hshow
  | some o =>
    rw [ho] at hshow
    simp only [Option.map_some, Option.some.injEq, Prod.mk.injEq] at hshow
    exact ⟨objs, h1, o, ho, hshow.1, hshow.2, by decide +kernel⟩

/-- Cameras 0, 1 and 1, 2 see the board together twice, cameras 0, 2 twice as well. -/
def demoCams : List (Insertion Nat Nat) :=
  [⟨⟨0, 0, 0, [7], [0]⟩, 0⟩, ⟨⟨1, 0, 0, [8], [0]⟩, 0⟩, ⟨⟨2, 0, 0, [8], [0]⟩, 0⟩,
   ⟨⟨0, 1, 0, [7], [0]⟩, 0⟩, ⟨⟨1, 1, 0, [8], [0]⟩, 0⟩, ⟨⟨2, 1, 0, [8], [0]⟩, 0⟩]

private theorem demoCams_twice (oo : List (ObjObs Nat)) (pose : Nat → Shift)
    (h : oo.map (fun o => (o.obj, o.cam, o.frame)) = [(0, 0, 0), (0, 0, 1), (0, 1, 0), (0, 1, 1), (0, 2, 0), (0, 2, 1)]) :
    2 ≤ (cameraMeasures oo pose 0 2).length := by
  simp only [List.map_eq_cons_iff, List.map_eq_nil_iff] at h
  obtain ⟨a, _, rfl, ha, b, _, rfl, hb, c, _, rfl, hc, d, _, rfl, hd, e, _, rfl, he, f, _, rfl, hf, rfl⟩ := h
  simp only [Prod.mk.injEq] at ha hb hc hd he hf
  simp [cameraMeasures, List.zipIdx, ha, hb, hc, hd, he, hf]

/-- The hypotheses of the theorems about cameras are met, with exact poses `C c * W f o`. -/
example (C : Nat → Shift) (W : Nat → Nat → Shift) : (∀ a ∈ demoCams, a.obs.cam < 3 ∧ a.obs.board < 1) ∧
    ∃ (s : Store Nat Nat) (objs : OMap Nat (Object Shift ℚ)) (oo : List (ObjObs Nat)) (pose : Nat → Shift),
      Store.run 3 1 demoCams = .ok s ∧ Spec.Objects.SameViews s.obs s.obs ∧
      Spec.Objects.Collection ([[0]] : List (List ℚ)) objs ∧
      initAllObjectObs { s with obs := s.obs } objs [] = .ok oo ∧
      (∀ (i : Nat) o, oo[i]? = some o → pose i = C o.cam * W o.frame o.obj) ∧
      2 ≤ (cameraMeasures oo pose 0 2).length ∧ ∃ gs, buildGroups s oo pose shiftAvg (fun _ _ _ => 0) = .ok gs := by
  have hl : ∀ a ∈ demoCams, a.obs.cam < 3 ∧ a.obs.board < 1 := by decide
  refine ⟨hl, ?_⟩
  obtain ⟨s, hs, hd⟩ := Props.Store.C06_indexes 3 1 demoCams hl
  have hsv : Spec.Objects.SameViews s.obs s.obs := by
    refine ⟨rfl, ?_⟩
    rw [hd.obs]
    decide
  obtain ⟨objs, h1, _⟩ := buildObjects_ok (G := Shift) (Pt := ℚ) hl hd (fun _ => 1) shiftAvg [[0]] rfl (fun _ _ _ => 0)
  have hC := buildObjects_collection hl hd (fun _ => 1) shiftAvg [[0]] rfl (fun _ _ _ => 0) objs h1
  have hoo := Props.Objects.C16_observations 3 1 demoCams hl s hs s.obs hsv _ objs hC
  have hshow : (match Store.run 3 1 demoCams with
    | .ok s => match buildObjects s (fun _ => 1) shiftAvg ([[0]] : List (List ℚ)) (fun _ _ _ => 0) with
      | .ok objs => match initAllObjectObs { s with obs := s.obs } objs [] with
        | .ok oo => oo.map fun o => (o.obj, o.cam, o.frame)
        | _ => []
      | _ => []
    | _ => []) = [(0, 0, 0), (0, 0, 1), (0, 1, 0), (0, 1, 1), (0, 2, 0), (0, 2, 1)] := by decide +kernel
  rw [hs] at hshow
  simp only [h1, hoo] at hshow
  generalize (objs.flatMap fun e => Spec.Objects.allObjObs e.2 s.obs (OMap.keys s.camObs)) = oo at hoo hshow
  let pose : Nat → Shift := fun i => (((oo[i]?).map fun o => C o.cam * W o.frame o.obj)).getD 1
  obtain ⟨gs, hg, _⟩ := Props.Groups.C18_partition 3 1 demoCams hl s hs s.obs hsv _ objs hC _ hoo pose shiftAvg
    (fun _ _ _ => 0)
  refine ⟨s, objs, oo, pose, hs, hsv, hC, hoo, ?_, ?_, gs, hg⟩
  · intro i o hi
    simp only [pose, hi, Option.map_some, Option.getD_some]
  · exact demoCams_twice oo pose hshow

end Verif.Props.Trust
