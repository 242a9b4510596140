import Verif.Lemmas.Trust
import Verif.Props.GroupPose

/-! The entries of the table of object pairs. -/
namespace Verif.Lemmas.TrustObjects
open Verif Verif.Objects Verif.Groups Verif.Structure Verif.GroupPose Verif.Spec.Groups Verif.Spec.Trust Verif.Spec.Store Verif.Lemmas.Trust

variable {V G Pt P : Type}

theorem objectMeasures_symm [Group G] (gs : OMap Nat (CamGroup G)) (oo : List (ObjObs P)) (pose : Nat → Nat → Nat → G) (a b : Nat) :
    (objectMeasures gs oo pose a b).length = (objectMeasures gs oo pose b a).length := by
  unfold objectMeasures
  rw [(swap_loops _ _ _).length_eq, List.length_flatMap, List.length_flatMap]
  congr 1
  apply List.map_congr_left
  intro x _
  apply length_filterMap_congr
  intro y
  by_cases h : x.1 = y.1 ∧ x.2.frame = y.2.frame ∧ x.2.obj = b ∧ y.2.obj = a
  · rw [if_pos h, if_pos ⟨h.1.symm, h.2.1.symm, h.2.2.2, h.2.2.1⟩]; rfl
  · rw [if_neg h, if_neg fun q => h ⟨q.1.symm, q.2.1.symm, q.2.2.2, q.2.2.1⟩]

/-- What a group saw in a frame. -/
theorem seenBy_filter {gs : OMap Nat (CamGroup G)} (hs : OMap.Sorted gs) {i : Nat} {g : CamGroup G} (hg : OMap.get? gs i = some g)
    (oo : List (ObjObs P)) (f : Nat) :
    ((seenBy gs oo).filter fun x => decide ((x.1, x.2.frame) = (i, f))) =
      (oo.filter fun o => o.frame == f && decide (o.cam ∈ OMap.keys g.cameras)).map fun o => (i, o) := by
  have hmem := (OMap.get?_eq_some hs).1 hg
  have hnd : (OMap.keys gs).Nodup := OMap.keys_nodup hs
  obtain ⟨l1, l2, e⟩ := List.append_of_mem hmem
  have other : ∀ l : List (Nat × CamGroup G), (∀ e ∈ l, e.1 ≠ i) →
      ((l.flatMap fun e => (oo.filter fun o => decide (o.cam ∈ OMap.keys e.2.cameras)).map fun o => (e.1, o)).filter
        fun x => decide ((x.1, x.2.frame) = (i, f))) = [] := by
    intro l hl
    rw [List.filter_eq_nil_iff]
    intro x hx
    obtain ⟨e, he, hx⟩ := List.mem_flatMap.1 hx
    obtain ⟨o, _, rfl⟩ := List.mem_map.1 hx
    simp [hl e he]
  unfold OMap.keys at hnd
  rw [e, List.map_append, List.map_cons] at hnd
  have h1 : ∀ e ∈ l1, e.1 ≠ i := fun x hx hxi =>
    (List.nodup_append.1 hnd).2.2 _ (List.mem_map_of_mem hx) _ (List.mem_cons_self) hxi
  have h2 : ∀ e ∈ l2, e.1 ≠ i := fun x hx hxi =>
    (List.nodup_cons.1 (List.nodup_append.1 hnd).2.1).1 (List.mem_map.2 ⟨x, hx, hxi⟩)
  unfold seenBy
  rw [e, List.flatMap_append, List.filter_append, other l1 h1, List.nil_append, List.flatMap_cons, List.filter_append, other l2 h2,
    List.append_nil, List.filter_map, List.filter_filter]
  congr 1
  apply List.filter_congr
  intro o _
  rw [Bool.eq_iff_iff]
  simp

/-- The entries of the table of objects. -/
theorem objects_perm [Group G] (ofVec : V → G) (op : OMap (Nat × Nat) (OMap Nat V)) (oo : List (ObjObs P)) (frames : List Nat)
    (t : GroupTables G) (hC : Spec.Groups.Collection t.groups) (ht : GroupObsOf oo frames t) (hfr : ∀ o ∈ oo, o.frame ∈ frames)
    (a b : Nat) (hab : a ≠ b) :
    ((OMap.get? (objectPairs ofVec op t oo) (a, b)).getD []).Perm
      (objectMeasures t.groups oo (fun i f j => (((OMap.get? op (i, f)).bind fun m => OMap.get? m j).map ofVec).getD 1) a b) := by
  let pose : Nat → Nat → Nat → G := fun i f j => (((OMap.get? op (i, f)).bind fun m => OMap.get? m j).map ofVec).getD 1
  let T : Nat × ObjObs P → Nat × G := fun x => (x.2.obj, pose x.1 x.2.frame x.2.obj)
  let g : Nat × ObjObs P → Nat × Nat := fun x => (x.1, x.2.frame)
  let F : Nat × ObjObs P → Nat × ObjObs P → Option ((Nat × Nat) × G) := fun x y => objectPair (T x) (T y)
  have hF : ∀ x, F x x = none := fun x => by simp [F, objectPair]
  have hviews : (objectViews ofVec op t oo).flatMap (pairsOfView objectPair) =
      (OMap.keys t.groupObs).flatMap fun k => ((seenBy t.groups oo).filter fun x => decide (g x = k)).flatMap fun x =>
        ((seenBy t.groups oo).filter fun x => decide (g x = k)).filterMap (F x) := by
    unfold objectViews OMap.keys
    rw [List.flatMap_map, List.flatMap_map]
    apply List.flatMap_congr
    rintro ⟨⟨i, f⟩, is⟩ he
    obtain ⟨gr, hg, _, _, his⟩ := (ht.obs i f is).1 ((OMap.get?_eq_some ht.sorted).2 he)
    have hfil : ((seenBy t.groups oo).filter fun x => decide (g x = (i, f))) =
        (oo.filter fun o => o.frame == f && decide (o.cam ∈ OMap.keys gr.cameras)).map fun o => (i, o) :=
      seenBy_filter hC.sorted hg oo f
    have hos : (is.filterMap fun k => (oo[k]?).map (·.obj)) =
        (oo.filter fun o => o.frame == f && decide (o.cam ∈ OMap.keys gr.cameras)).map (·.obj) := by
      rw [his, positions_map (fun o : ObjObs P => o.frame == f && decide (o.cam ∈ OMap.keys gr.cameras)) oo (fun o _ => o.obj)]
      have := List.filter_map (f := fun x : ObjObs P × Nat => x.1)
        (p := fun o : ObjObs P => o.frame == f && decide (o.cam ∈ OMap.keys gr.cameras)) (l := oo.zipIdx)
      rw [List.zipIdx_map_fst] at this
      rw [this, List.map_map]
      rfl
    dsimp only
    rw [hos, hfil]
    split
    · rw [List.map_map, pairs_map, List.flatMap_map]
      apply List.flatMap_congr
      intro x hx
      rw [List.filterMap_map]
      apply List.filterMap_congr
      intro y hy
      have ex := (List.mem_filter.1 hx).2
      have ey := (List.mem_filter.1 hy).2
      simp only [Bool.and_eq_true, beq_iff_eq] at ex ey
      simp only [Function.comp_apply, F, T, pose, ex.1, ey.1]
    · rename_i hlen
      rw [pairs_short F _ (by simp only [List.length_map] at hlen ⊢; omega) hF]
      rfl
  rw [objectPairs, entries_pairTable, hviews]
  have hp := views_perm g (OMap.keys t.groupObs) (OMap.keys_nodup ht.sorted) (seenBy t.groups oo) (fun x hx => by
    unfold seenBy at hx
    obtain ⟨⟨i, gr⟩, he, hx⟩ := List.mem_flatMap.1 hx
    obtain ⟨o, ho, rfl⟩ := List.mem_map.1 hx
    obtain ⟨ho1, ho2⟩ := List.mem_filter.1 ho
    obtain ⟨k, hk⟩ := List.getElem?_of_mem ho1
    have hmem : k ∈ positions (fun x : ObjObs P => x.frame == o.frame && decide (x.cam ∈ OMap.keys gr.cameras)) oo :=
      (Props.Store.positions_get _ _ _).2 ⟨o, hk, by simpa using ho2⟩
    exact OMap.mem_keys.2 ⟨_, (ht.obs i o.frame _).2 ⟨gr, (OMap.get?_eq_some hC.sorted).2 he, hfr o ho1, List.ne_nil_of_mem hmem, rfl⟩⟩) F
  refine ((hp.filter _).map _).trans (List.Perm.of_eq ?_)
  unfold objectMeasures
  rw [List.filter_flatMap, List.map_flatMap]
  apply List.flatMap_congr
  intro x _
  rw [List.filter_filterMap, List.map_filterMap]
  apply List.filterMap_congr
  intro y _
  simp only [g, F, T, objectPair, Prod.mk.injEq]
  by_cases h1 : x.1 = y.1 ∧ x.2.frame = y.2.frame
  · by_cases h2 : x.2.obj = a ∧ y.2.obj = b
    · have hne : x.2.obj ≠ y.2.obj := by rw [h2.1, h2.2]; exact hab
      simp [h1, h2, hab, pose]
    · by_cases hne : x.2.obj = y.2.obj
      · simp [h1, hne]; grind
      · simp [h1, hne, h2]
  · simp [h1]; grind

end Verif.Lemmas.TrustObjects
