import Verif.Lemmas.Agree
import Verif.Props.WholeSame

/-!
C89: the files of results fit together, whatever the data.
-/
namespace Verif.Props.Agree
open Verif Verif.Spec.Agree Verif.Lemmas.Agree Verif.Keypoints Verif.Spec.Store Verif.Spec.Objects Verif.Objects Verif.Output
open Verif.Spec.Groups Verif.Groups Verif.Spec.Finish Verif.Lemmas.FinishRun Verif.Spec.Report Verif.Pipeline

variable {V G Pt K K' Q P Img Path : Type}

section
variable [Group G] [MulAction G Pt]

theorem placed_once {bpts : List (List Pt)} {objs : OMap Nat (Object G Pt)} (hC : Spec.Objects.Collection bpts objs)
    {cols : Nat → List (Column Pt)} (hcols : ∀ i o, OMap.get? objs i = some o → OutputObjects.ColumnsOf bpts o (cols i))
    {i : Nat} {o : Object G Pt} (ho : OMap.get? objs i = some o) {b k : Nat} (hb : b ∈ OMap.keys o.boards)
    (hk : k < cornerCount bpts b) :
    ((((OMap.keys objs).map fun i => (i, (cols i).map some)).flatMap (·.2)).filter (isCorner b k)).length = 1 := by
  have hnd := OMap.keys_nodup hC.sorted
  have hother : ∀ j ∈ OMap.keys objs, j ≠ i → ((cols j).map some).filter (isCorner b k) = [] := by
    intro j hj hne
    obtain ⟨o', ho'⟩ := OMap.mem_keys.1 hj
    rw [List.filter_eq_nil_iff]
    intro x hx hp
    have : ((cols j).map some).any (isCorner b k) = true := List.any_eq_true.2 ⟨x, hx, hp⟩
    exact hne (hC.disjoint j i o' o ho' ho b ((any_corner (hcols j o' ho') b k).1 this).1 hb)
  obtain ⟨k1, k2, e⟩ := List.append_of_mem (OMap.mem_keys.2 ⟨o, ho⟩)
  rw [List.flatMap_map]
  simp only
  rw [e] at hnd hother ⊢
  have hn1 : i ∉ k1 ∧ i ∉ k2 := by
    rw [List.nodup_append] at hnd
    exact ⟨fun h => hnd.2.2 i h i (by simp) rfl, (List.nodup_cons.1 hnd.2.1).1⟩
  have hnil : ∀ ks : List Nat, (∀ j ∈ ks, j ∈ k1 ++ i :: k2) → i ∉ ks →
      ((ks.flatMap fun i => (cols i).map some).filter (isCorner b k)) = [] := by
    intro ks hsub hni
    rw [List.filter_eq_nil_iff]
    intro x hx hp
    obtain ⟨j, hj, hx⟩ := List.mem_flatMap.1 hx
    have : x ∈ ((cols j).map some).filter (isCorner b k) := List.mem_filter.2 ⟨hx, hp⟩
    rw [hother j (hsub j hj) (fun h => hni (h ▸ hj))] at this
    cases this
  rw [List.flatMap_append, List.flatMap_cons, List.filter_append, List.filter_append,
    hnil k1 (fun j hj => by simp [hj]) hn1.1, hnil k2 (fun j hj => by simp [hj]) hn1.2, List.append_nil, List.nil_append]
  have hl := (hcols i o ho).labels
  have hnl := Pixels.corners_nodup bpts o (OMap.keys_nodup (hC.good i o ho).boards_sorted)
  have hml := (mem_corners bpts o b k).2 ⟨hb, hk⟩
  rw [← hl] at hnl hml
  rw [← List.countP_eq_length_filter, List.countP_map]
  have := List.count_eq_one_of_mem hnl hml
  rw [List.count, List.countP_map] at this
  rw [← this]
  apply List.countP_congr
  intro x _
  simp [isCorner, Function.comp]

theorem sees_iff (o : Object G Pt) (obs : List (BoardObs P)) (c f : Nat) :
    (objObs o obs c f).pts ≠ [] ↔ Sees obs o c f := by
  rw [objObs_pts, Ne, List.flatMap_eq_nil_iff]
  unfold Sees view
  push Not
  constructor
  · rintro ⟨bo, h1, h2⟩
    obtain ⟨h3, h4⟩ := List.mem_filter.1 h1
    obtain ⟨h5, h6⟩ := List.mem_filter.1 h3
    simp only [Bool.and_eq_true, beq_iff_eq, decide_eq_true_eq] at h4 h6
    exact ⟨bo, h5, h6.1, h6.2, h4, h2⟩
  · rintro ⟨bo, h1, h2, h3, h4, h5⟩
    exact ⟨bo, List.mem_filter.2 ⟨List.mem_filter.2 ⟨h1, by simp [h2, h3]⟩, by simpa using h4⟩, h5⟩

theorem objObs_aligned (o : Object G Pt) {obs : List (BoardObs P)} (hal : ∀ bo ∈ obs, bo.pts.length = bo.ids.length) (c f : Nat) :
    (objObs o obs c f).pts.length = (objObs o obs c f).ids.length := by
  unfold objObs
  simp only
  rw [List.length_flatMap, List.length_flatMap]
  congr 1
  apply List.map_congr_left
  intro bo hbo
  obtain ⟨i, _, h⟩ := List.mem_filterMap.1 hbo
  rw [List.length_map, hal bo (List.mem_of_getElem? h)]

end

section
variable [Group G] [MulAction G Pt] [Inhabited Path] [Zero K] [One K] (nCam nBoard : Nat)
  (l : List (Insertion (ℝ × ℝ) Path))
  (hl : ∀ a ∈ l, a.obs.cam < nCam ∧ a.obs.board < nBoard) (s : Store (ℝ × ℝ) Path)
  (hs : Store.run nCam nBoard l = .ok s) (obs : List (BoardObs (ℝ × ℝ)))
  (hobs : Spec.Objects.SameViews s.obs obs) (bpts : List (List Pt)) (hb : bpts.length = nBoard)
  (n : Numerics V G) (fix : Int) (r : State G Pt (ℝ × ℝ) × OMap (Nat × Nat) (OMap Nat V))
  (hr : Finish.run n fix bpts s obs = .ok r)
  (hids : ∀ bo ∈ obs, ∀ k ∈ bo.ids, k < Spec.Objects.cornerCount bpts bo.board)
  (en : Finish.Env V G Pt K Path Img) (rd : Reading G Pt)

include hl hs hobs in
theorem known (o : BoardObs (ℝ × ℝ)) (ho : o ∈ obs) :
    o.cam < s.cams.length ∧ o.board < s.boards.length ∧ o.frame ∈ OMap.keys s.frames := by
  have D := (Lemmas.Schedule.describes_of_run hs).1
  have hk : (o.cam, o.frame, o.board) ∈ s.obs.map fun o => (o.cam, o.frame, o.board) := by
    rw [← hobs.keys]; exact List.mem_map.2 ⟨o, ho, rfl⟩
  obtain ⟨o1, ho1, he⟩ := List.mem_map.1 hk
  rw [D.obs] at ho1
  obtain ⟨a, ha, rfl⟩ := List.mem_map.1 ho1
  simp only [Prod.mk.injEq] at he
  obtain ⟨e1, e2, e3⟩ := he
  rw [D.cams_length, D.boards_length, D.frame_key, ← e1, ← e2, ← e3]
  exact ⟨(hl a ha).1, (hl a ha).2, a, ha, rfl⟩

omit [Group G] [MulAction G Pt] in
theorem corners_iff {kp : KeyFile (ℝ × ℝ) Path} {c f : Nat} (hp : (corners kp c f).Perm (cornersOf (view obs c f)))
    (hal : ∀ bo ∈ obs, bo.pts.length = bo.ids.length) :
    corners kp c f ≠ [] ↔ ∃ bo ∈ obs, bo.cam = c ∧ bo.frame = f ∧ bo.pts ≠ [] := by
  rw [Ne, ← List.length_eq_zero_iff, hp.length_eq, List.length_eq_zero_iff]
  unfold cornersOf view
  rw [List.flatMap_eq_nil_iff]
  push Not
  constructor
  · rintro ⟨bo, h1, h2⟩
    obtain ⟨h3, h4⟩ := List.mem_filter.1 h1
    simp only [Bool.and_eq_true, beq_iff_eq] at h4
    refine ⟨bo, h3, h4.1, h4.2, fun h => h2 ?_⟩
    rw [h, List.zip_nil_left, List.map_nil]
  · rintro ⟨bo, h1, h2, h3, h4⟩
    refine ⟨bo, List.mem_filter.2 ⟨h1, by simp [h2, h3]⟩, fun h => h4 ?_⟩
    have := congrArg List.length h
    rw [List.length_map, List.length_zip, ← hal bo h1, Nat.min_self] at this
    exact List.length_eq_zero_iff.1 this

include hl hs hobs hb hr in
theorem nodes {rep : Finish.Reports V G Pt K Img} (hc : Finish.Correct en bpts s.frames r rd rep) (nd : GroupNode) :
    nd ∈ rep.errors.2 → ∃ g, OMap.get? r.1.t.groups nd.group = some g ∧ nd.frames = (OMap.keys g.frames).map fun f =>
      ⟨f, frameErrors (Finish.scene en r) rd g f, (frameErrors (Finish.scene en r) rd g f).map (·.1)⟩ := by
  intro h
  obtain ⟨h1, h2, h3⟩ := hc.errors
  obtain ⟨k, hk⟩ := List.mem_iff_getElem?.1 h
  have hlt : k < r.1.t.groups.length := by
    rw [← h2]
    exact (List.getElem?_eq_some_iff.1 hk).1
  obtain ⟨n', e1, e2, e3⟩ := h3 k _ _ (List.getElem?_eq_getElem (l := r.1.t.groups) hlt)
  rw [hk] at e1
  cases e1
  refine ⟨(r.1.t.groups[k]'hlt).2, ?_, e3⟩
  rw [e2]
  have hE := (Finish.ends nCam nBoard l hl s hs obs hobs bpts hb n fix r hr).1
  exact (OMap.get?_eq_some hE.consistent.groups.sorted).2 (List.getElem_mem hlt)

include hl hs hobs hb hr in
theorem nodes_all {rep : Finish.Reports V G Pt K Img} (hc : Finish.Correct en bpts s.frames r rd rep) {i : Nat} {g : CamGroup G}
    (hg : OMap.get? r.1.t.groups i = some g) : ∃ nd ∈ rep.errors.2, nd.group = i ∧ nd.frames = (OMap.keys g.frames).map fun f =>
      ⟨f, frameErrors (Finish.scene en r) rd g f, (frameErrors (Finish.scene en r) rd g f).map (·.1)⟩ := by
  have hE := (Finish.ends nCam nBoard l hl s hs obs hobs bpts hb n fix r hr).1
  obtain ⟨h1, h2, h3⟩ := hc.errors
  obtain ⟨k, hk⟩ := List.mem_iff_getElem?.1 ((OMap.get?_eq_some hE.consistent.groups.sorted).1 hg)
  obtain ⟨n', e1, e2, e3⟩ := h3 k _ _ hk
  exact ⟨n', List.mem_of_getElem? e1, e2, e3⟩

omit [Inhabited Path] [Zero K] [One K] in
theorem mem_frameErrors (g : CamGroup G) (f c : Nat) : c ∈ (frameErrors (Finish.scene en r) rd g f).map (·.1) ↔
    c ∈ OMap.keys g.cameras ∧ ∃ o ∈ r.1.oo, o.cam = c ∧ o.frame = f := by
  unfold frameErrors
  rw [List.map_map, List.mem_map]
  constructor
  · rintro ⟨o, ho, rfl⟩
    obtain ⟨h1, h2⟩ := List.mem_filter.1 ho
    simp only [Bool.and_eq_true, beq_iff_eq, decide_eq_true_eq] at h2
    exact ⟨h2.2, o, h1, rfl, h2.1⟩
  · rintro ⟨hc, o, ho, rfl, rfl⟩
    exact ⟨o, List.mem_filter.2 ⟨ho, by simpa using hc⟩, rfl⟩

include hl hs hobs hb hr hids in
theorem distances_of {kp : KeyFile (ℝ × ℝ) Path} {c f : Nat} (hp : (corners kp c f).Perm (cornersOf (view obs c f)))
    {cols : Nat → List (Column Pt)}
    (hcols : ∀ i o, OMap.get? r.1.objs i = some o → OutputObjects.ColumnsOf bpts o (cols i)) (g : CamGroup G)
    (hcg : c ∈ OMap.keys g.cameras) :
    ((frameErrors (Finish.scene en r) rd g f).filter fun e => e.1 == c).map (·.2.length) =
      (List.replicate r.1.objs.length (((OMap.keys r.1.objs).map fun i => (share kp ((cols i).map some) c f).length).filter
        (· ≠ 0))).flatten := by
  have hE := (Finish.ends nCam nBoard l hl s hs obs hobs bpts hb n fix r hr).1
  have D := (Lemmas.Schedule.describes_of_run hs).1
  have hlen : ∀ o ∈ r.1.oo, (errors rd o).length = o.pts.length := by
    intro o ho
    rw [hE.joins.shape] at ho
    obtain ⟨x, hx, hox⟩ := List.mem_flatten.1 ho
    obtain ⟨_, rfl⟩ := List.mem_replicate.1 hx
    obtain ⟨e, -, hox⟩ := List.mem_flatMap.1 hox
    obtain ⟨v, -, rfl⟩ := List.mem_map.1 (List.mem_filter.1 hox).1
    unfold errors
    rw [List.length_map, List.length_zip, objObs_aligned e.2 hobs.aligned, Nat.min_self]
  have e1 : ((frameErrors (Finish.scene en r) rd g f).filter fun e => e.1 == c).map (·.2.length) =
      (r.1.oo.filter fun oo => oo.frame == f && oo.cam == c).map (·.pts.length) := by
    unfold frameErrors
    rw [List.filter_map, List.filter_filter, List.map_map]
    have e2 : (Finish.scene en r).oo.filter (fun a => ((fun e : Nat × List ℝ => e.1 == c) ∘ fun o => (o.cam, errors rd o)) a &&
        (a.frame == f && decide (a.cam ∈ OMap.keys g.cameras))) = r.1.oo.filter fun oo => oo.frame == f && oo.cam == c := by
      show r.1.oo.filter _ = _
      congr 1
      funext o
      rw [Bool.eq_iff_iff]
      simp only [Function.comp, Bool.and_eq_true, beq_iff_eq, decide_eq_true_eq]
      constructor
      · rintro ⟨h1, h2, h3⟩
        exact ⟨h2, h1⟩
      · rintro ⟨h1, h2⟩
        exact ⟨h2, h1, h2 ▸ hcg⟩
    rw [e2]
    apply List.map_congr_left
    intro o ho
    exact hlen o (List.mem_filter.1 ho).1
  rw [e1, hE.joins.shape, filter_oo obs r.1.objs _ (OMap.keys_nodup D.camObs_sorted) _ c f]
  · congr 3
    unfold OMap.keys
    rw [List.map_map]
    apply List.map_congr_left
    intro e he
    exact (share_length (hcols e.1 e.2 ((OMap.get?_eq_some hE.consistent.objs.sorted).2 he)) hobs.aligned hids hp).symm
  · intro e _ hne
    obtain ⟨bo, hbo, q1, q2, _, _⟩ := (sees_iff e.2 obs c f).1 hne
    have hk : (bo.cam, bo.frame, bo.board) ∈ s.obs.map fun o => (o.cam, o.frame, o.board) := by
      rw [← hobs.keys]; exact List.mem_map.2 ⟨bo, hbo, rfl⟩
    obtain ⟨o1, ho1, he⟩ := List.mem_map.1 hk
    rw [D.obs] at ho1
    obtain ⟨a, ha, rfl⟩ := List.mem_map.1 ho1
    simp only [Prod.mk.injEq] at he
    exact (D.camObs_key c f).2 ⟨a, ha, he.1.trans q1, he.2.1.trans q2⟩


include hl hs hobs hb hr hids in
theorem poseCount_of {kp : KeyFile (ℝ × ℝ) Path} (hp : ∀ c f, (corners kp c f).Perm (cornersOf (view obs c f)))
    {i : Nat} {o : Object G Pt} (ho : OMap.get? r.1.objs i = some o) {cols : List (Column Pt)}
    (hcols : OutputObjects.ColumnsOf bpts o cols) :
    ∃ views : List (Nat × Nat), views.Nodup ∧ (∀ c f, (c, f) ∈ views ↔ share kp (cols.map some) c f ≠ []) ∧
      (positions (fun o : ObjObs (ℝ × ℝ) => o.obj == i) r.1.oo).length = r.1.objs.length * views.length := by
  have hE := (Finish.ends nCam nBoard l hl s hs obs hobs bpts hb n fix r hr).1
  obtain ⟨os, o1, o2, o3⟩ := Finish.once_list nCam nBoard l hl s hs obs hobs bpts hb n fix r hr
  refine ⟨(os.filter fun o => o.obj == i).map fun o => (o.cam, o.frame), ?_, fun c f => ?_, ?_⟩
  · have h1 : ((os.filter fun o => o.obj == i).map fun o => (o.obj, o.cam, o.frame)).Nodup :=
      o1.sublist (List.filter_sublist.map _)
    have h2 : ((os.filter fun o => o.obj == i).map fun o => (o.obj, o.cam, o.frame)) =
        ((os.filter fun o => o.obj == i).map fun o => (o.cam, o.frame)).map fun v => (i, v) := by
      rw [List.map_map]
      apply List.map_congr_left
      intro o ho
      have := (List.mem_filter.1 ho).2
      rw [beq_iff_eq] at this
      rw [Function.comp, this]
    rw [h2] at h1
    exact List.Nodup.of_map _ h1
  · have h3 : share kp (cols.map some) c f ≠ [] ↔ Sees obs o c f := by
      rw [← sees_iff, ← List.length_pos_iff, ← List.length_pos_iff,
        share_length hcols hobs.aligned hids (hp c f)]
    rw [h3, List.mem_map]
    constructor
    · rintro ⟨x, hx, he⟩
      obtain ⟨h4, h5⟩ := List.mem_filter.1 hx
      simp only [Prod.mk.injEq] at he
      rw [beq_iff_eq] at h5
      obtain ⟨ob, h6, h7⟩ := (hE.consistent.sees i c f).1 ⟨x, (o2 x).1 h4, h5, he.1, he.2⟩
      rw [ho] at h6
      cases h6
      exact h7
    · intro h
      obtain ⟨x, h4, h5, h6, h7⟩ := (hE.consistent.sees i c f).2 ⟨o, ho, h⟩
      exact ⟨x, List.mem_filter.2 ⟨(o2 x).2 h4, by simpa using h5⟩, by rw [h6, h7]⟩
  · rw [OutputObjects.positions_length, o3, List.countP_flatten, List.map_replicate, List.sum_replicate, List.length_map,
      List.countP_eq_length_filter, smul_eq_mul]

include hl hs hobs hb hr hids in
theorem agree {rep : Finish.Reports V G Pt K Img} (hc : Finish.Correct en bpts s.frames r rd rep)
    (hnil : r.1.t.groups = [] → rep.cameras = []) {szs : List (Option (Nat × Nat))} {kp : KeyFile (ℝ × ℝ) Path}
    (hkp : save ⟨{ s with obs := obs }, szs⟩ = .ok kp) (hcam : en.cams.length = nCam)
    (hsz : ∀ (c : Nat) cam, en.cams[c]? = some cam → cam.size = (szs[c]?).join) :
    Spec.Agree.Agree kp rep.cameras rep.objects rep.poses rep.errors := by
  have hE := (Finish.ends nCam nBoard l hl s hs obs hobs bpts hb n fix r hr).1
  have hT := Finish.C76_tables nCam nBoard l hl s hs obs hobs bpts hb n fix r hr
  have D := (Lemmas.Schedule.describes_of_run hs).1
  have hp : ∀ c f, (corners kp c f).Perm (cornersOf (view obs c f)) := fun c f =>
    corners_saved hkp D.frames_sorted (known nCam nBoard l hl s hs obs hobs) c f
  obtain ⟨cols, k1, k2⟩ := hc.objects
  have hkeys : rep.objects.map (·.1) = OMap.keys r.1.objs := by
    rw [k1, List.map_map]; exact List.map_id _
  have hlen : rep.objects.length = r.1.objs.length := by
    rw [k1, List.length_map]; exact List.length_map ..
  have hnum : ∀ nd ∈ rep.errors.2, ∃ g, OMap.get? r.1.t.groups nd.group = some g ∧ (∀ f, f ∈ nd.frames.map (·.frame) →
      f ∈ OMap.keys g.frames) ∧ nd.frames = (OMap.keys g.frames).map fun f =>
      ⟨f, frameErrors (Finish.scene en r) rd g f, (frameErrors (Finish.scene en r) rd g f).map (·.1)⟩ := by
    intro nd h
    obtain ⟨g, h1, h2⟩ := nodes nCam nBoard l hl s hs obs hobs bpts hb n fix r hr en rd hc nd h
    refine ⟨g, h1, fun f hf => ?_, h2⟩
    rw [h2, List.map_map] at hf
    obtain ⟨x, hx, rfl⟩ := List.mem_map.1 hf
    exact hx
  refine ⟨?_, ⟨?_, ?_⟩, ?_, ⟨?_, ?_, ?_⟩, ?_, ?_, ?_, ?_, ?_, ?_⟩
  · rintro c f e he
    obtain ⟨bo, hbo, he'⟩ := List.mem_flatMap.1 ((hp c f).mem_iff.1 he)
    obtain ⟨hbo, hcf⟩ := List.mem_filter.1 hbo
    obtain ⟨x, hx, rfl⟩ := List.mem_map.1 he'
    have hne : bo.pts ≠ [] := fun h => by rw [h, List.zip_nil_left] at hx; cases hx
    obtain ⟨i, o, ho, hbb⟩ := hT.boards bo hbo hne
    rw [k1]
    exact placed_once hE.consistent.objs k2 ho hbb (hids bo hbo _ (List.of_mem_zip hx).2)
  · rw [hkeys]; exact OMap.keys_nodup hE.consistent.objs.sorted
  · rw [hkeys, hc.poses, List.map_map]; exact List.map_id _
  · intro i cs ps h1 h2
    rw [k1] at h1
    obtain ⟨j, hj, e⟩ := List.mem_map.1 h1
    simp only [Prod.mk.injEq] at e
    obtain ⟨rfl, rfl⟩ := e
    rw [hc.poses] at h2
    obtain ⟨j', hj', e⟩ := List.mem_map.1 h2
    simp only [Prod.mk.injEq] at e
    obtain ⟨rfl, rfl⟩ := e
    obtain ⟨o, ho⟩ := OMap.mem_keys.1 hj
    rw [List.length_map, hlen]
    exact poseCount_of nCam nBoard l hl s hs obs hobs bpts hb n fix r hr hids hp ho (k2 _ _ ho)
  · rw [hc.errors.1, hc.errors.2.1]
  · obtain ⟨k, hk⟩ := hE.numbered
    have hkl : k = r.1.t.groups.length := by
      have := congrArg List.length hk
      rw [List.length_range] at this
      rw [← this]; exact List.length_map ..
    have : rep.errors.2.map (·.group) = OMap.keys r.1.t.groups := by
      apply List.ext_getElem?
      intro j
      rw [List.getElem?_map]
      unfold OMap.keys
      rw [List.getElem?_map]
      rcases hj : r.1.t.groups[j]? with _ | ⟨i, g⟩
      · rw [List.getElem?_eq_none_iff, ← hc.errors.2.1, ← List.getElem?_eq_none_iff] at hj
        rw [hj]
        rfl
      · obtain ⟨n', e1, e2, -⟩ := hc.errors.2.2 j i g hj
        rw [e1, Option.map_some, Option.map_some, e2]
    rw [this, hk, hc.errors.2.1, hkl]
  · intro nd hnd
    obtain ⟨g, h1, -, h2⟩ := hnum nd hnd
    rw [h2, List.map_map]
    show (List.map id _).Nodup
    rw [List.map_id]
    exact OMap.keys_nodup (hE.consistent.lists.sorted _ _ h1)
  · intro c f
    rw [corners_iff obs (hp c f) hobs.aligned]
    constructor
    · rintro ⟨bo, hbo, rfl, rfl, hne⟩
      obtain ⟨i, g, hg, hcg⟩ := hT.cameras bo hbo hne
      obtain ⟨nd, hnd, -, hf⟩ := nodes_all nCam nBoard l hl s hs obs hobs bpts hb n fix r hr en rd hc hg
      refine ⟨nd, hnd, ⟨bo.frame, frameErrors (Finish.scene en r) rd g bo.frame,
        (frameErrors (Finish.scene en r) rd g bo.frame).map (·.1)⟩, ?_, rfl, ?_⟩
      · rw [hf]
        exact List.mem_map.2 ⟨bo.frame, (hT.groupFrames i g hg _).2 ⟨bo, hbo, hne, rfl, hcg⟩, rfl⟩
      · exact (mem_frameErrors r en rd g bo.frame bo.cam).2 ⟨hcg,
          (views hE.consistent hE.joins.boards bo.cam bo.frame).2 ⟨bo, hbo, rfl, rfl, hne⟩⟩
    · rintro ⟨nd, hnd, fr, hfr, rfl, hcf⟩
      obtain ⟨g, h1, -, h2⟩ := hnum nd hnd
      rw [h2] at hfr
      obtain ⟨f, hf, rfl⟩ := List.mem_map.1 hfr
      exact (views hE.consistent hE.joins.boards c f).1 ((mem_frameErrors r en rd g f c).1 hcf).2
  · intro nd hnd nd' hnd' fr hfr fr' hfr' c hcf hcf'
    obtain ⟨g, h1, -, h2⟩ := hnum nd hnd
    obtain ⟨g', h1', -, h2'⟩ := hnum nd' hnd'
    rw [h2] at hfr
    obtain ⟨f, hf, rfl⟩ := List.mem_map.1 hfr
    rw [h2'] at hfr'
    obtain ⟨f', hf', rfl⟩ := List.mem_map.1 hfr'
    exact hE.consistent.groups.disjoint _ _ g g' h1 h1' c ((mem_frameErrors r en rd g f c).1 hcf).1
      ((mem_frameErrors r en rd g' f' c).1 hcf').1
  · intro nd hnd fr hfr c hcf
    obtain ⟨g, h1, -, h2⟩ := hnum nd hnd
    rw [h2] at hfr
    obtain ⟨f, hf, rfl⟩ := List.mem_map.1 hfr
    rw [hlen, k1, List.map_map]
    exact distances_of nCam nBoard l hl s hs obs hobs bpts hb n fix r hr hids en rd (hp c f) k2 g
      ((mem_frameErrors r en rd g f c).1 hcf).1
  · intro nd hnd fr hfr c hcf
    obtain ⟨g, h1, -, h2⟩ := hnum nd hnd
    rw [h2] at hfr
    obtain ⟨f, hf, rfl⟩ := List.mem_map.1 hfr
    have hcg := ((mem_frameErrors r en rd g f c).1 hcf).1
    obtain ⟨k, hk⟩ := hE.numbered
    have h0 : 0 ∈ OMap.keys r.1.t.groups := by
      rw [hk, List.mem_range]
      have : nd.group ∈ OMap.keys r.1.t.groups := OMap.mem_keys.2 ⟨g, h1⟩
      rw [hk, List.mem_range] at this
      omega
    obtain ⟨g0, hg0⟩ := OMap.mem_keys.1 h0
    obtain ⟨node, n1, -⟩ := hc.cameras g0 hg0
    rw [n1, Output.lookup_cams]
    split
    · next h => exact iff_of_true rfl (hE.consistent.groups.disjoint _ _ g g0 h1 hg0 c hcg h)
    · next h =>
      refine iff_of_false (by simp) fun h3 => h ?_
      rw [h3, hg0] at h1
      cases h1
      exact hcg
  · intro c node hn
    have h0 : r.1.t.groups ≠ [] := fun h => by rw [hnil h] at hn; cases hn
    obtain ⟨k, hk⟩ := hE.numbered
    obtain ⟨e, he⟩ := List.exists_mem_of_ne_nil _ h0
    have h0 : 0 ∈ OMap.keys r.1.t.groups := by
      rw [hk, List.mem_range]
      have : e.1 ∈ OMap.keys r.1.t.groups := List.mem_map.2 ⟨e, he, rfl⟩
      rw [hk, List.mem_range] at this
      omega
    obtain ⟨g0, hg0⟩ := OMap.mem_keys.1 h0
    obtain ⟨nd, n1, n2⟩ := hc.cameras g0 hg0
    rw [n1, Output.lookup_cams] at hn
    split at hn
    · next hmem =>
      cases hn
      obtain ⟨cam, c1, -, -, -, -, c2⟩ := (n2 c hmem).camera
      have hlt : c < nCam := by rw [← hcam]; exact (List.getElem?_eq_some_iff.1 c1).1
      obtain ⟨sz, s1, rfl⟩ := save_inv hkp
      have hlt' : c < s.cams.length := by rw [D.cams_length]; exact hlt
      refine ⟨_, (get_range _ _ c).trans (if_pos hlt'), ?_⟩
      have h5 := s1 c hlt'
      have h6 := hsz c cam c1
      rw [c2, h5] at h6
      exact (Option.some.inj h6).symm
    · cases hn
  · intro hne
    obtain ⟨sz, s1, rfl⟩ := save_inv hkp
    obtain ⟨nd, hnd⟩ := List.exists_mem_of_ne_nil _ hne
    obtain ⟨g, h1, -, h2⟩ := hnum nd hnd
    obtain ⟨k, hk⟩ := hE.numbered
    have h0 : 0 ∈ OMap.keys r.1.t.groups := by
      rw [hk, List.mem_range]
      have : nd.group ∈ OMap.keys r.1.t.groups := OMap.mem_keys.2 ⟨g, h1⟩
      rw [hk, List.mem_range] at this
      omega
    obtain ⟨g0, hg0⟩ := OMap.mem_keys.1 h0
    obtain ⟨node, n1, -⟩ := hc.cameras g0 hg0
    rw [n1, List.head?_cons, hcam, ← D.cams_length]

end

section
open Verif.Folders Verif.Start Verif.Disk Verif.Ransac Verif.Program Verif.Whole Verif.Spec.Whole Verif.Props.Outliers
open Verif.Props.WholeSame
variable [Group G] [MulAction G Pt] [Field K'] [LinearOrder K'] [Inhabited Pt] [Zero K] [One K]

/-- What is asked of the parts that are not modelled: pose searches succeed on four points or more and answer with some of
them, the refinement of the first step keeps the detections, and points are projected one by one. -/
structure Parts (u : Setup V G Pt K K' Q Img) (pix : Nat → Pt → ℝ × ℝ) : Prop where
  search : Sound u.search
  searches : ∀ k, Sound (u.e.search k) ∧ Fails (u.e.search k)
  refine : ∀ f ∈ u.refine, ∀ est x, f est = .ok x → x.1.map (·.obs) = est.map (·.obs)
  models : ∀ c < u.nbCam, u.en.model c = 0 ∨ u.en.model c = 1
  brown : ∀ c g ps, ps ≠ [] → u.en.projBrown c g ps = .ok (ps.map fun p => pix c (g • p))
  kannala : ∀ c g ps, ps ≠ [] → u.en.projKannala c g ps = .ok (ps.map fun p => pix c (g • p))
  cams : u.en.cams.length = u.nbCam
  boards : u.bpts.length = u.geoms.length

variable (u : Setup V G Pt K K' Q Img) (pix : Nat → Pt → ℝ × ℝ)

omit [Group G] [MulAction G Pt] [Inhabited Pt] [Zero K] [One K] in
theorem first_obs (hr : ∀ f ∈ u.refine, ∀ est x, f est = .ok x → x.1.map (·.obs) = est.map (·.obs))
    {obs : List (BoardObs (ℝ × ℝ))} {x : List (Estimated (ℝ × ℝ) G) × List (ReproErr.Warning K')}
    (h : ReproErr.initIntrinsic u.search u.e.garbage u.bpts obs u.refine u.pr = .ok x) :
    ∃ est, estimateAllBoards u.search u.e.garbage u.bpts obs = .ok est ∧ x.1.map (·.obs) = est.map (·.obs) := by
  unfold ReproErr.initIntrinsic at h
  obtain ⟨est, h1, h⟩ := Outcome.bind_eq_ok.1 h
  obtain ⟨y, h2, h⟩ := Outcome.bind_eq_ok.1 h
  obtain ⟨w, h3, h⟩ := Outcome.bind_eq_ok.1 h
  cases h
  refine ⟨est, h1, ?_⟩
  unfold ReproErr.refineStep at h2
  cases hu : u.refine with
  | none => rw [hu] at h2; cases h2; rfl
  | some g => rw [hu] at h2; exact hr g hu _ _ h2

/-- C89: whatever the data and wherever the detections come from: after a run that ends, the files of keypoints, camera
parameters, objects, object poses and reprojection errors it has written agree. -/
theorem C89_agree (hu : Parts u pix) (l : List (Insertion (ℝ × ℝ) Str)) (d d' : Files V G Pt K Img)
    (hready : Ready u.en.save u.name d)
    (hdet : ∀ k, extract u l d = .ok k → ∀ o ∈ k.store.obs, Usable u.bpts o)
    (hrun : Verif.Whole.run u l d = .ok d') :
    ∃ rep kp, Props.Disk.Written u.en.save u.name rep kp d d' ∧
      Spec.Agree.Agree kp rep.cameras rep.objects rep.poses rep.errors := by
  unfold Verif.Whole.run at hrun
  obtain ⟨k, h1, h⟩ := Outcome.bind_eq_ok.1 hrun
  obtain ⟨m, hm⟩ := extract_history u h1
  have D := (Lemmas.Schedule.describes_of_run hm).1
  have hl := (Props.Store.C06_run_ok_iff u.nbCam u.geoms.length m).1 ⟨_, hm⟩
  obtain ⟨x, r, rep, kp, a1, a2, a3, a4, w, -⟩ := conclude_written u D hready h
  have hm4 : ∀ a ∈ m, a.obs.pts.length = a.obs.ids.length ∧ 4 ≤ a.obs.pts.length ∧
      ∀ k ∈ a.obs.ids, k < cornerCount u.bpts a.obs.board := by
    intro a ha
    have hU := hdet k h1 a.obs (by rw [D.obs]; exact List.mem_map.2 ⟨a, ha, rfl⟩)
    refine ⟨hU.aligned, hU.four, fun j hj => ?_⟩
    obtain ⟨b, b1, b2⟩ := hU.corners j hj
    unfold cornerCount
    rw [b1]
    exact b2
  obtain ⟨est, e1, e2⟩ := first_obs u hu.refine a1
  obtain ⟨est', f1, f2, f3⟩ := Program.filtered u.nbCam u.geoms.length m hl k.store hm u.bpts hu.boards hm4 u.search hu.search u.e
  rw [e1] at f1
  cases f1
  rw [e2] at a2 a4
  have hS := fun k => (hu.searches k).1
  have hF := fun k => (hu.searches k).2
  by_cases hT : Spec.Program.Thin m (est.map (·.obs))
  · rw [Program.C83_thin u.nbCam u.geoms.length m hl k.store hm _ f2 u.bpts hu.boards f3 u.e hS hF _ hT] at a2
    cases a2
  obtain ⟨poses, -, p1⟩ := Program.C83_run u.nbCam u.geoms.length m hl k.store hm _ f2 u.bpts hu.boards f3 u.e hS hF
    { u.n with boardPose := poseAt (x.1.map (·.pose)) } hT u.fix
  rw [p1] at a2
  obtain ⟨sz, s1, -⟩ := save_inv a4
  have s2 : ∀ c < u.nbCam, (k.sizes[c]?).join = some (sz c) := by
    intro c hc
    exact s1 c (by show c < k.store.cams.length; rw [D.cams_length]; exact hc)
  have hsz : ∀ c < u.nbCam, k.sizes[c]? = some (some (sz c)) := by
    intro c hc
    have := s2 c hc
    cases hx : k.sizes[c]? with
    | none => rw [hx] at this; cases this
    | some y => rw [hx] at this; exact congrArg some this
  have hget : ∀ c < u.nbCam, ∃ cam, (withSizes u.en k.sizes).cams[c]? = some cam ∧ cam.size = some (sz c) := by
    intro c hc
    have h1 : c < u.en.cams.length := by rw [hu.cams]; exact hc
    refine ⟨{ u.en.cams[c] with size := some (sz c) }, ?_, rfl⟩
    show (List.zipWith _ _ _)[c]? = _
    rw [List.getElem?_zipWith, List.getElem?_eq_getElem h1, hsz c hc]
  have hlen : (withSizes u.en k.sizes).cams.length = u.nbCam := by
    show (List.zipWith _ _ _).length = _
    rw [List.length_zipWith, hu.cams, min_eq_left]
    by_contra hlt
    push Not at hlt
    have := hsz k.sizes.length hlt
    rw [List.getElem?_eq_none (Nat.le_refl _)] at this
    cases this
  obtain ⟨rep', q1, q2⟩ := Finish.C76_reports u.nbCam u.geoms.length m hl k.store hm _ f2 u.bpts hu.boards _ u.fix r a2 f3
    (withSizes u.en k.sizes) hu.models pix hu.brown hu.kannala (fun c hc => by
      obtain ⟨cam, c1, c2⟩ := hget c (List.mem_range.1 (List.mem_filter.1 hc).1)
      exact ⟨cam, _, c1, c2⟩)
  rw [a3] at q1
  cases q1
  refine ⟨rep, kp, w, agree u.nbCam u.geoms.length m hl k.store hm _ f2 u.bpts hu.boards _ u.fix r a2 f3 _ _ q2 ?_ a4 hlen ?_⟩
  · intro hg
    unfold Finish.report at a3
    simp only at a3
    obtain ⟨_, -, a3⟩ := Outcome.bind_eq_ok.1 a3
    obtain ⟨_, -, a3⟩ := Outcome.bind_eq_ok.1 a3
    obtain ⟨_, -, a3⟩ := Outcome.bind_eq_ok.1 a3
    obtain ⟨_, -, a3⟩ := Outcome.bind_eq_ok.1 a3
    obtain ⟨cs, b, a3⟩ := Outcome.bind_eq_ok.1 a3
    obtain ⟨_, -, a3⟩ := Outcome.bind_eq_ok.1 a3
    obtain ⟨_, -, a3⟩ := Outcome.bind_eq_ok.1 a3
    obtain ⟨_, -, a3⟩ := Outcome.bind_eq_ok.1 a3
    cases a3
    rw [hg] at b
    cases b
    rfl
  · intro c cam hc
    have hlt : c < u.nbCam := by rw [← hlen]; exact (List.getElem?_eq_some_iff.1 hc).1
    obtain ⟨cam', c1, c2⟩ := hget c hlt
    rw [hc] at c1
    cases c1
    rw [c2, s2 c hlt]

/-- C89: the keypoint file has detected corners only: each comes from a detection by its camera, in its frame, of its
board. -/
theorem C89_detected (hu : Parts u pix) (l : List (Insertion (ℝ × ℝ) Str)) (d d' : Files V G Pt K Img)
    (hready : Ready u.en.save u.name d)
    (hdet : ∀ k, extract u l d = .ok k → ∀ o ∈ k.store.obs, Usable u.bpts o)
    (hrun : Verif.Whole.run u l d = .ok d') :
    ∃ k rep kp, extract u l d = .ok k ∧ Props.Disk.Written u.en.save u.name rep kp d d' ∧
      ∀ c f, ∀ e ∈ corners kp c f, ∃ o ∈ k.store.obs, o.cam = c ∧ o.frame = f ∧ o.board = e.1 ∧
        (e.2.2, e.2.1) ∈ o.pts.zip o.ids := by
  unfold Verif.Whole.run at hrun
  obtain ⟨k, h1, h⟩ := Outcome.bind_eq_ok.1 hrun
  obtain ⟨m, hm⟩ := extract_history u h1
  have D := (Lemmas.Schedule.describes_of_run hm).1
  have hl := (Props.Store.C06_run_ok_iff u.nbCam u.geoms.length m).1 ⟨_, hm⟩
  obtain ⟨x, r, rep, kp, a1, a2, a3, a4, w, -⟩ := conclude_written u D hready h
  refine ⟨k, rep, kp, h1, w, fun c f e he => ?_⟩
  obtain ⟨est, e1, e2⟩ := first_obs u hu.refine a1
  obtain ⟨est', f1, f2⟩ := C30_all u.search hu.search u.e.garbage u.bpts k.store.obs fun bo hbo => by
    have hU := hdet k h1 bo hbo
    have hb : bo.board < u.bpts.length := by
      rw [D.obs] at hbo
      obtain ⟨a, ha, rfl⟩ := List.mem_map.1 hbo
      rw [hu.boards]
      exact (hl a ha).2
    refine ⟨hU.aligned, hU.four, _, List.getElem?_eq_getElem hb, fun i hi => ?_⟩
    obtain ⟨b, b1, b2⟩ := hU.corners i hi
    rw [List.getElem?_eq_getElem hb] at b1
    cases b1
    exact b2
  rw [e1] at f1
  cases f1
  rw [e2] at a4
  have hobs := C30_same_views _ _ f2
  have hp := corners_saved a4 D.frames_sorted (known u.nbCam u.geoms.length m hl k.store hm _ hobs) c f
  obtain ⟨bo, hbo, he'⟩ := List.mem_flatMap.1 (hp.mem_iff.1 he)
  obtain ⟨hbo, hcf⟩ := List.mem_filter.1 hbo
  obtain ⟨z, hz, rfl⟩ := List.mem_map.1 he'
  simp only [Bool.and_eq_true, beq_iff_eq] at hcf
  obtain ⟨y, hy, rfl⟩ := List.mem_map.1 hbo
  obtain ⟨i, hi, rfl⟩ := List.mem_iff_getElem.1 hy
  have hi' : i < k.store.obs.length := by rw [f2.length_eq]; exact hi
  have hf := f2.get hi' hi
  simp only [List.get_eq_getElem] at hf
  exact ⟨_, List.getElem_mem hi', hf.same.1.symm.trans hcf.1, hf.same.2.1.symm.trans hcf.2, hf.same.2.2.symm, hf.sub.subset hz⟩

end

section
open Verif.Detection
variable {F : Type} [Field F] [LinearOrder F]

theorem refined_length (ps : List P) (qs : List (Option P)) (r : List P) (h : applyRefined ps qs = .ok r) : r.length = ps.length := by
  induction ps generalizing qs r with
  | nil => cases h; rfl
  | cons p ps ih =>
    cases qs with
    | nil => cases h
    | cons q qs =>
      cases q with
      | none => cases h; rfl
      | some q =>
        obtain ⟨r', h1, h2⟩ := Outcome.bind_eq_ok.1 h
        cases h2
        rw [List.length_cons, List.length_cons, ih _ _ h1]

omit [Field F] [LinearOrder F] in
theorem boardPts_ids (g : Geom F) (ids : List Nat) (r : List (F × F)) (h : boardPts g ids = .ok r) : ∀ k ∈ ids, k < g.pts.length := by
  unfold boardPts at h
  obtain ⟨ys, -, e⟩ := Lemmas.Collect.foldlM_append_inv (v := fun i => Outcome.idx g.pts i) (fun acc c => rfl) h
  clear h
  induction e with
  | nil => exact fun k hk => nomatch hk
  | @cons a b as bs h1 h2 ih =>
    intro k hk
    rcases List.mem_cons.1 hk with rfl | hk
    · unfold Outcome.idx at h1
      by_contra hlt
      rw [List.getElem?_eq_none (by omega)] at h1
      cases h1
    · exact ih k hk

/-- What is stored for a board has more than four corners, with their pixels, if the detector gives an id to each corner. -/
theorem board_usable {fitLine : List (F × F) → F × F × F × F} {cfg : Cfg} {g : Geom F} {r : Raw P} {x : List P × List Nat}
    (hr : r.corners.length = r.ids.length) (h : detectBoard fitLine cfg g r = .ok (some x)) :
    x.1.length = x.2.length ∧ 4 < x.1.length ∧ ∀ k ∈ x.2, k < g.pts.length := by
  unfold detectBoard at h
  obtain ⟨m, -, h⟩ := Outcome.bind_eq_ok.1 h
  split at h
  · obtain ⟨cs, h1, h⟩ := Outcome.bind_eq_ok.1 h
    obtain ⟨b, h2, h⟩ := Outcome.bind_eq_ok.1 h
    simp only at h
    split at h
    · next hc =>
      cases h
      refine ⟨?_, hc.2, boardPts_ids g _ _ h2⟩
      unfold storedCorners at h1
      split at h1
      · exact (refined_length _ _ _ h1).trans hr
      · cases h1; exact hr
    · cases h
  · cases h

theorem image_usable {fitLine : List (F × F) → F × F × F × F} {cfg : Cfg} {geoms : List (Geom F)} {c f : Nat} {p : Path}
    {raw : Option (Nat → Raw P)} {t : List (Insertion P Path)} (hraw : ∀ w ∈ raw, ∀ b < geoms.length, (w b).corners.length = (w b).ids.length)
    (h : detectImage fitLine cfg geoms c f p raw = .ok t) (bpts : List (List Pt))
    (hb : ∀ (b : Nat) g, geoms[b]? = some g → ∃ m, bpts[b]? = some m ∧ m.length = g.pts.length) :
    ∀ a ∈ t, Usable bpts a.obs := by
  unfold detectImage at h
  cases raw with
  | none => cases h; exact fun a ha => nomatch ha
  | some w =>
    simp only at h
    refine Outcome.foldlM_inv (fun t : List (Insertion P Path) => ∀ a ∈ t, Usable bpts a.obs) ?_ (by simp) h
    rintro s t ⟨g, b⟩ hg hs hst
    have hg' : geoms[b]? = some g := by
      obtain ⟨i, hi⟩ := List.mem_iff_getElem?.1 hg
      rw [List.getElem?_zipIdx] at hi
      cases hx : geoms[i]? with
      | none => rw [hx] at hi; cases hi
      | some y =>
        rw [hx] at hi
        simp only [Option.map_some, Option.some.injEq, Prod.mk.injEq, Nat.zero_add] at hi
        obtain ⟨rfl, rfl⟩ := hi
        exact hx
    obtain ⟨o, h1, h2⟩ := Outcome.bind_eq_ok.1 hst
    cases o with
    | none => cases h2; exact hs
    | some x =>
      cases h2
      intro a ha
      rcases List.mem_append.1 ha with ha | ha
      · exact hs a ha
      · rw [List.mem_singleton] at ha
        subst ha
        obtain ⟨q1, q2, q3⟩ := board_usable (hraw w rfl b (List.getElem?_eq_some_iff.1 hg').1) h1
        obtain ⟨m, m1, m2⟩ := hb b g hg'
        exact ⟨q1, q2.le, fun k hk => ⟨m, m1, m2 ▸ q3 k hk⟩⟩

end

section
open Verif.Folders Verif.Start Verif.Disk Verif.Ransac Verif.Program Verif.Whole Verif.Spec.Whole Verif.Detection
variable [Group G] [MulAction G Pt] [Field K'] [LinearOrder K'] [Inhabited Pt] [Zero K] [One K] [Field Q] [LinearOrder Q]
  (u : Setup V G Pt K K' Q Img) (pix : Nat → Pt → ℝ × ℝ)

/-- C89 for runs on images: for every schedule of the detection threads, whatever corners and ids the detector returns in
the images, as long as they are equally many. -/
theorem C89_images (hu : Parts u pix) (hsame : ∀ (b : Nat) g, u.geoms[b]? = some g → ∃ m, u.bpts[b]? = some m ∧ m.length = g.pts.length)
    (hraw : ∀ p w, u.raw p = some w → ∀ b < u.geoms.length, (w b).corners.length = (w b).ids.length)
    (ts : List (List (List (Insertion (ℝ × ℝ) Str)))) (hts : cameraTasks u.fitLine u.cfg u.geoms u.raw u.glob u.root u.pre u.nbCam = .ok ts)
    (l : List (Insertion (ℝ × ℝ) Str)) (hl : Schedule ts l) (d d' : Files V G Pt K Img) (hready : Ready u.en.save u.name d)
    (hnokey : u.keypoints = [] ∨ u.keypoints = "None".toList ∨ d.has u.keypoints = false)
    (hrun : Verif.Whole.run u l d = .ok d') :
    ∃ rep kp, Props.Disk.Written u.en.save u.name rep kp d d' ∧
      Spec.Agree.Agree kp rep.cameras rep.objects rep.poses rep.errors := by
  refine C89_agree u pix hu l d d' hready (fun k hk o ho => ?_) hrun
  have hex : detect u l = .ok k := by
    rw [← hk]
    unfold extract boardExtraction
    rw [if_neg]
    rintro ⟨h1, h2, h3⟩
    rcases hnokey with h | h | h
    · exact h1 h
    · exact h2 h
    · rw [h] at h3; cases h3
  unfold detect at hex
  obtain ⟨sz, -, h1⟩ := Outcome.bind_eq_ok.1 hex
  obtain ⟨s, h3, h1⟩ := Outcome.bind_eq_ok.1 h1
  cases h1
  simp only at ho
  rw [(Lemmas.Schedule.describes_of_run h3).1.obs] at ho
  obtain ⟨a, ha, rfl⟩ := List.mem_map.1 ho
  obtain ⟨c, f, p, t, -, -, ht, hat⟩ := (Start.C67_detected u.fitLine u.cfg u.geoms u.raw u.glob u.root u.pre u.nbCam ts hts l hl a).1.1 ha
  exact image_usable (hraw p) ht u.bpts hsame a hat

end

end Verif.Props.Agree
