import Verif.Lemmas.GroupPose
import Verif.Lemmas.ObjectsMerge

namespace Verif.Lemmas.GroupPose
open Verif Verif.GroupPose Verif.Groups Verif.Objects Verif.Structure Verif.Spec.Store
open Verif.Spec.Groups Verif.Lemmas.Structure Verif.Lemmas.Groups Relation

variable {V G Pt P Path : Type}

theorem merge_groupObsOf [Group G] (oo : List (ObjObs P)) (frames : List Nat) (hnd : frames.Nodup)
    (t0 : GroupTables G) (hC : Collection t0.groups)
    (hfs : ∀ i g, OMap.get? t0.groups i = some g → OMap.Sorted g.frames) :
    ∃ t, mergeAllCameraGroupObs oo frames t0 = .ok t ∧ Collection t.groups ∧ GroupObsOf oo frames t ∧
      (∀ i, (OMap.get? t.groups i).map (fun g => (g.refCam, g.cameras, g.poses)) =
        (OMap.get? t0.groups i).map (fun g => (g.refCam, g.cameras, g.poses))) ∧
      ∀ i g, OMap.get? t.groups i = some g → OMap.Sorted g.frames := by
  have hid : ∀ e ∈ t0.groups, e.2.id = e.1 := fun e he =>
    hC.id e.1 e.2 ((OMap.get?_eq_some hC.sorted).2 he)
  obtain ⟨t, h1, h2⟩ := groupsDone oo frames hnd t0.groups hC.sorted hfs (OMap.keys t0.groups)
    (OMap.keys_nodup hC.sorted) fun i hi => hi
  have hrel : ∀ i g, OMap.get? t.groups i = some g → ∃ g0, OMap.get? t0.groups i = some g0 ∧
      g.id = g0.id ∧ g.refCam = g0.refCam ∧ g.cameras = g0.cameras ∧ g.camIdx = g0.camIdx ∧
      g.poses = g0.poses := by
    intro i g hg
    have := h2.groups i
    rw [hg] at this
    cases h0 : OMap.get? t0.groups i with
    | none => rw [h0] at this; cases this
    | some g0 =>
      rw [h0, Option.map_some, Option.some.injEq] at this
      refine ⟨g0, rfl, ?_⟩
      rw [this]
      split <;> exact ⟨rfl, rfl, rfl, rfl, rfl⟩
  have hback : ∀ i g0, OMap.get? t0.groups i = some g0 → ∃ g, OMap.get? t.groups i = some g ∧
      g.cameras = g0.cameras ∧ g.camIdx = g0.camIdx ∧ g.refCam = g0.refCam ∧ g.poses = g0.poses := by
    intro i g0 h0
    have := h2.groups i
    rw [h0, Option.map_some] at this
    refine ⟨_, this, ?_⟩
    split <;> exact ⟨rfl, rfl, rfl, rfl⟩
  have hC' : Collection t.groups := by
    refine ⟨h2.sorted, ?_, ?_, ?_, ?_, ?_, ?_, ?_, ?_, ?_, ?_⟩
    · intro i g hg; obtain ⟨g0, q0, q1, q2, q3, q4, q5⟩ := hrel i g hg; rw [q1]; exact hC.id i g0 q0
    · intro i g hg; obtain ⟨g0, q0, q1, q2, q3, q4, q5⟩ := hrel i g hg
      rw [q3]; exact hC.cameras_sorted i g0 q0
    · intro i g hg; obtain ⟨g0, q0, q1, q2, q3, q4, q5⟩ := hrel i g hg
      rw [q5]; exact hC.poses_sorted i g0 q0
    · intro i g hg; obtain ⟨g0, q0, q1, q2, q3, q4, q5⟩ := hrel i g hg
      rw [q5, q3]; exact hC.poses i g0 q0
    · intro i g hg; obtain ⟨g0, q0, q1, q2, q3, q4, q5⟩ := hrel i g hg
      rw [q4, q3]; exact hC.camIdx i g0 q0
    · intro i j g g' hg hg' c hc hc'
      obtain ⟨g0, q0, q1, q2, q3, q4, q5⟩ := hrel i g hg
      obtain ⟨g0', q0', q1', q2', q3', q4', q5'⟩ := hrel j g' hg'
      rw [q3] at hc; rw [q3'] at hc'
      exact hC.disjoint i j g0 g0' q0 q0' c hc hc'
    · intro i g hg; obtain ⟨g0, q0, q1, q2, q3, q4, q5⟩ := hrel i g hg
      rw [q2, q3]; exact hC.ref_mem i g0 q0
    · intro i g hg; obtain ⟨g0, q0, q1, q2, q3, q4, q5⟩ := hrel i g hg
      rw [q2, q3]; exact hC.ref_least i g0 q0
    · intro i g hg; obtain ⟨g0, q0, q1, q2, q3, q4, q5⟩ := hrel i g hg
      rw [q2, q5]; exact hC.ref_pose i g0 q0
    · intro i j g g' hg hg' hij
      obtain ⟨g0, q0, q1, q2, q3, q4, q5⟩ := hrel i g hg
      obtain ⟨g0', q0', q1', q2', q3', q4', q5'⟩ := hrel j g' hg'
      rw [q2, q2']; exact hC.ref_incr i j g0 g0' q0 q0' hij
  refine ⟨t, ?_, hC', ⟨h2.obs_sorted, ?_⟩, ?_, h2.frames_sorted⟩
  · unfold mergeAllCameraGroupObs
    rw [initAllCameraGroupObs_eq oo frames { groups := t0.groups } hid]
    exact h1
  · have hsees : ∀ i g, OMap.get? t.groups i = some g → ∀ f, groupSees oo g.camIdx f =
        positions (fun o : ObjObs P => o.frame == f && decide (o.cam ∈ OMap.keys g.cameras)) oo := by
      intro i g hi f
      rw [groupSees_eq]
      congr 1
      funext o
      congr 1
      exact decide_eq_decide.2 ((hC'.camIdx i g hi).mem_iff)
    intro i f is
    rw [h2.obs]
    constructor
    · rintro ⟨_, g0, q1, q2, q3, q4⟩
      obtain ⟨g, hg, e1, e2, _⟩ := hback i g0 q1
      exact ⟨g, hg, q2, q4, by rw [← hsees i g hg, e2]; exact q3⟩
    · rintro ⟨g, q1, q2, q3, q4⟩
      obtain ⟨g0, q0, e1, e2, e3, e4, e5⟩ := hrel i g q1
      exact ⟨OMap.mem_keys.2 ⟨g0, q0⟩, g0, q0, q2, by rw [← e4, hsees i g q1]; exact q4, q3⟩
  · intro i
    cases h0 : OMap.get? t0.groups i with
    | none =>
      have := h2.groups i
      rw [h0] at this
      rw [this]; rfl
    | some g0 =>
      obtain ⟨g, hg, e1, e2, e3, e4⟩ := hback i g0 h0
      rw [hg]
      simp [e1, e3, e4]

theorem objectPair_eq_some [Group G] {x y : Nat × G} {k : Nat × Nat} {z : G} :
    objectPair x y = some (k, z) ↔ x.1 ≠ y.1 ∧ k = (x.1, y.1) ∧ z = y.2⁻¹ * x.2 := by
  unfold objectPair
  split
  · rename_i h
    simp only [Option.some.injEq, Prod.mk.injEq]
    exact ⟨fun ⟨a, b⟩ => ⟨h, a.symm, b.symm⟩, fun ⟨_, a, b⟩ => ⟨a.symm, b.symm⟩⟩
  · rename_i h
    simp only [reduceCtorEq, false_iff]
    exact fun h' => h h'.1

/-- Members of a view. -/
theorem mem_objectViews [Group G] (ofVec : V → G) (op : OMap (Nat × Nat) (OMap Nat V))
    (t : GroupTables G) (oo : List (ObjObs P)) {frames : List Nat} (ht : GroupObsOf oo frames t)
    (x y : Nat × G) (hxy : x.1 ≠ y.1) :
    (∃ v ∈ objectViews ofVec op t oo, x ∈ v ∧ y ∈ v) ↔
      ∃ k is a b, OMap.get? t.groupObs k = some is ∧ a ∈ is ∧ b ∈ is ∧
        (oo[a]?).map (·.obj) = some x.1 ∧ (oo[b]?).map (·.obj) = some y.1 ∧
        x.2 = (((OMap.get? op k).bind fun m => OMap.get? m x.1).map ofVec).getD 1 ∧
        y.2 = (((OMap.get? op k).bind fun m => OMap.get? m y.1).map ofVec).getD 1 := by
  constructor
  · rintro ⟨v, hv, hx, hy⟩
    unfold objectViews at hv
    obtain ⟨⟨k, is⟩, he, rfl⟩ := List.mem_map.1 hv
    dsimp only at hx hy
    split at hx
    · rename_i hlen
      rw [if_pos hlen] at hy
      obtain ⟨o, ho, rfl⟩ := List.mem_map.1 hx
      obtain ⟨o', ho', rfl⟩ := List.mem_map.1 hy
      obtain ⟨a, ha, ha'⟩ := List.mem_filterMap.1 ho
      obtain ⟨b, hb, hb'⟩ := List.mem_filterMap.1 ho'
      exact ⟨k, is, a, b, (OMap.get?_eq_some ht.sorted).2 he, ha, hb, ha', hb', rfl, rfl⟩
    · cases hx
  · rintro ⟨k, is, a, b, hk, ha, hb, ha', hb', hx, hy⟩
    refine ⟨_, List.mem_map.2 ⟨(k, is), (OMap.get?_eq_some ht.sorted).1 hk, rfl⟩, ?_⟩
    dsimp only
    have hma : x.1 ∈ is.filterMap fun i => (oo[i]?).map (·.obj) := List.mem_filterMap.2 ⟨a, ha, ha'⟩
    have hmb : y.1 ∈ is.filterMap fun i => (oo[i]?).map (·.obj) := List.mem_filterMap.2 ⟨b, hb, hb'⟩
    have hlen := Verif.Lemmas.Objects.length_gt_one_of_ne hma hmb hxy
    rw [if_pos hlen]
    exact ⟨List.mem_map.2 ⟨x.1, hma, by rw [← hx]⟩, List.mem_map.2 ⟨y.1, hmb, by rw [← hy]⟩⟩

theorem mem_keys_objectPairs [Group G] (ofVec : V → G) (op : OMap (Nat × Nat) (OMap Nat V))
    (t : GroupTables G) (oo : List (ObjObs P)) {frames : List Nat} (ht : GroupObsOf oo frames t)
    (hfr : ∀ o ∈ oo, o.frame ∈ frames) (a b : Nat) :
    (a, b) ∈ OMap.keys (objectPairs ofVec op t oo) ↔ SeenTogether t.groups oo a b := by
  unfold objectPairs
  rw [mem_keys_pairTable]
  constructor
  · rintro ⟨v, hv, x, hx, y, hy, z, hz⟩
    obtain ⟨hne, hk, _⟩ := objectPair_eq_some.1 hz
    obtain ⟨⟨i, f⟩, is, p, q, h1, h2, h3, h4, h5, _⟩ :=
      (mem_objectViews ofVec op t oo ht x y hne).1 ⟨v, hv, hx, hy⟩
    simp only [Prod.mk.injEq] at hk
    obtain ⟨rfl, rfl⟩ := hk
    obtain ⟨g, hg, hf, _, rfl⟩ := (ht.obs i f is).1 h1
    obtain ⟨op', hp1, hp2⟩ := (Props.Store.positions_get _ _ _).1 h2
    obtain ⟨oq', hq1, hq2⟩ := (Props.Store.positions_get _ _ _).1 h3
    rw [hp1] at h4
    rw [hq1] at h5
    simp only [Option.map_some, Option.some.injEq, Bool.and_eq_true, beq_iff_eq,
      decide_eq_true_eq] at h4 h5 hp2 hq2
    exact ⟨hne, i, g, op', oq', hg, List.mem_of_getElem? hp1, List.mem_of_getElem? hq1,
      hp2.1.trans hq2.1.symm, hp2.2, hq2.2, h4, h5⟩
  · rintro ⟨hne, i, g, x, y, hg, hx, hy, hf, hcx, hcy, rfl, rfl⟩
    obtain ⟨p, hp⟩ := List.mem_iff_getElem?.1 hx
    obtain ⟨q, hq⟩ := List.mem_iff_getElem?.1 hy
    have hpm : p ∈ positions (fun o : ObjObs P => o.frame == x.frame &&
        decide (o.cam ∈ OMap.keys g.cameras)) oo :=
      (Props.Store.positions_get _ _ _).2 ⟨x, hp, by simp [hcx]⟩
    have hqm : q ∈ positions (fun o : ObjObs P => o.frame == x.frame &&
        decide (o.cam ∈ OMap.keys g.cameras)) oo :=
      (Props.Store.positions_get _ _ _).2 ⟨y, hq, by simp [hcy, hf]⟩
    have hk := (ht.obs i x.frame _).2 ⟨g, hg, hfr x hx, List.ne_nil_of_mem hpm, rfl⟩
    obtain ⟨v, hv, h1, h2⟩ := (mem_objectViews ofVec op t oo ht
      (x.obj, (((OMap.get? op (i, x.frame)).bind fun m => OMap.get? m x.obj).map ofVec).getD 1)
      (y.obj, (((OMap.get? op (i, x.frame)).bind fun m => OMap.get? m y.obj).map ofVec).getD 1) hne).2
      ⟨(i, x.frame), _, p, q, hk, hpm, hqm, by rw [hp]; rfl, by rw [hq]; rfl, rfl, rfl⟩
    exact ⟨v, hv, _, h1, _, h2, _, objectPair_eq_some.2 ⟨hne, rfl, rfl⟩⟩

theorem get?_objectPairs [Group G] (ofVec : V → G) (op : OMap (Nat × Nat) (OMap Nat V))
    (t : GroupTables G) (oo : List (ObjObs P)) {frames : List Nat} (ht : GroupObsOf oo frames t)
    {a b : Nat} {zs : List G} (h : OMap.get? (objectPairs ofVec op t oo) (a, b) = some zs) :
    zs ≠ [] ∧ ∀ z ∈ zs, ∃ i f is p q, OMap.get? t.groupObs (i, f) = some is ∧ p ∈ is ∧ q ∈ is ∧
      (oo[p]?).map (·.obj) = some a ∧ (oo[q]?).map (·.obj) = some b ∧
      z = ((((OMap.get? op (i, f)).bind fun m => OMap.get? m b).map ofVec).getD 1)⁻¹ *
        (((OMap.get? op (i, f)).bind fun m => OMap.get? m a).map ofVec).getD 1 := by
  obtain ⟨hne, hz⟩ := get?_pairTable _ _ h
  refine ⟨hne, fun z hzz => ?_⟩
  obtain ⟨v, hv, x, hx, y, hy, he⟩ := hz z hzz
  obtain ⟨hxy, hk, rfl⟩ := objectPair_eq_some.1 he
  obtain ⟨⟨i, f⟩, is, p, q, h1, h2, h3, h4, h5, h6, h7⟩ :=
    (mem_objectViews ofVec op t oo ht x y hxy).1 ⟨v, hv, hx, hy⟩
  simp only [Prod.mk.injEq] at hk
  obtain ⟨rfl, rfl⟩ := hk
  exact ⟨i, f, is, p, q, h1, h2, h3, h4, h5, by rw [h6, h7]⟩

theorem objectVertices_eq [Group G] [SMul G Pt] {bpts : List (List Pt)}
    {objs : OMap Nat (Object G Pt)} (hC : Spec.Objects.Collection bpts objs) (oo : List (ObjObs P)) :
    objectVertices objs oo = observedObjects objs oo := by
  unfold objectVertices observedObjects OMap.keys
  rw [List.filter_map]
  have hid : ∀ e ∈ objs, e.2.id = e.1 := fun e he =>
    hC.id e.1 e.2 ((OMap.get?_eq_some hC.sorted).2 he)
  have h1 : (objs.filter fun e => oo.any fun o => o.obj == e.2.id) =
      objs.filter ((fun i => oo.any fun o => o.obj == i) ∘ fun x => x.1) := by
    apply List.filter_congr
    intro e he
    simp only [Function.comp_apply, hid e he]
  rw [h1]
  apply List.map_congr_left
  intro e he
  exact hid e (List.mem_of_mem_filter he)

theorem mem_observedObjects {objs : OMap Nat (Object G Pt)} {oo : List (ObjObs P)} {i : Nat} :
    i ∈ observedObjects objs oo ↔ i ∈ OMap.keys objs ∧ ∃ o ∈ oo, o.obj = i := by
  unfold observedObjects
  simp [List.mem_filter, List.any_eq_true]

end Verif.Lemmas.GroupPose
