import Verif.Lemmas.Reorder
import Verif.Props.GroupPose

/-! C97: the merge of the objects does not depend on the order of the images. -/
namespace Verif.Lemmas.ReorderMerge
open Verif Verif.Objects Verif.Groups Verif.Structure Verif.GroupPose Verif.Spec.Store Verif.Spec.Groups Verif.Spec.Reorder
open Verif.Spec.Schedule Verif.Lemmas.GroupPose Verif.Lemmas.Structure
open Verif.Props.Trust (Unordered)
open Verif.Props.GroupPose (get?_mapKey)

variable {V G Pt P : Type}

/-! ### One group observation -/

/-- What is compared of a group observation with these entries. -/
def viewE (ofVec : V → G) (avg : List V → V) (ref : Nat) (es : List (Entry V)) : List (Nat × G) :=
  if es.length > 1 then es.map fun e => (e.obj, ofVec (finalPose avg ref es e.obj)) else []

theorem getLast?_same {α : Type} {l l' : List α} (hp : l'.Perm l) (h : ∀ x ∈ l, ∀ y ∈ l, x = y) : l'.getLast? = l.getLast? := by
  rcases e : l.getLast? with _ | x
  · rw [List.getLast?_eq_none_iff] at e
    subst e
    rw [List.perm_nil.1 hp]
    rfl
  · rcases e' : l'.getLast? with _ | y
    · rw [List.getLast?_eq_none_iff] at e'
      subst e'
      rw [List.nil_perm.1 hp] at e
      exact absurd e (by simp)
    · rw [h y (hp.mem_iff.1 (List.mem_of_getLast? e')) x (List.mem_of_getLast? e)]

theorem finalPose_perm {avg : List V → V} (ha : Unordered avg) (hk : Repeated avg) {es es' : List (Entry V)} (hp : es'.Perm es)
    (h1 : ∀ x ∈ es, ∀ y ∈ es, x.cam = y.cam → x.obj = y.obj → x = y) (ref o : Nat) (ho : o ∈ es.map (·.obj)) :
    finalPose avg ref es' o = finalPose avg ref es o := by
  have ho' : o ∈ es'.map (·.obj) := (hp.map _).mem_iff.2 ho
  unfold finalPose poseOf
  rw [getLast?_same (l' := (es'.filter fun e => e.obj == o).filter fun e => e.cam == ref)
    (l := (es.filter fun e => e.obj == o).filter fun e => e.cam == ref) ((hp.filter _).filter _) (by
      intro x hx y hy
      simp only [List.mem_filter, beq_iff_eq] at hx hy
      exact h1 x hx.1.1 y hy.1.1 (hx.2.trans hy.2.symm) (hx.1.2.trans hy.1.2.symm))]
  split
  · rfl
  · rw [hk _ _ (runs_pos ho'), hk _ _ (runs_pos ho)]
    exact ha _ _ ((hp.filter _).map _)

theorem viewE_perm (ofVec : V → G) {avg : List V → V} (ha : Unordered avg) (hk : Repeated avg) {es es' : List (Entry V)}
    (hp : es'.Perm es) (h1 : ∀ x ∈ es, ∀ y ∈ es, x.cam = y.cam → x.obj = y.obj → x = y) (ref : Nat) :
    (viewE ofVec avg ref es').Perm (viewE ofVec avg ref es) := by
  unfold viewE
  rw [hp.length_eq]
  split
  · refine (List.Perm.of_eq ?_).trans (hp.map _)
    apply List.map_congr_left
    intro e he
    rw [finalPose_perm ha hk hp h1 ref e.obj (List.mem_map.2 ⟨e, hp.mem_iff.1 he, rfl⟩)]
  · exact List.Perm.refl _

theorem pairsOfView_perm {E : Type} (f : E → E → Option ((Nat × Nat) × G)) {v v' : List E} (h : v'.Perm v) :
    (pairsOfView f v').Perm (pairsOfView f v) := by
  unfold pairsOfView
  exact (h.flatMap_right _).trans (List.Perm.flatMap_left _ fun x _ => h.filterMap _)

/-! ### All group observations -/

/-- The observations of frame `f` by cameras of `g`. -/
def seen (g : CamGroup G) (f : Nat) (oo : List (ObjObs P)) : List (ObjObs P) :=
  oo.filter fun o => o.frame == f && decide (o.cam ∈ OMap.keys g.cameras)

/-- Their entries. -/
def ents [Group G] (toVec : G → V) (g : CamGroup G) (q : ObjObs P → G) (l : List (ObjObs P)) : List (Entry V) :=
  l.map fun o => ⟨o.cam, o.obj, poseInGroup toVec g o.cam (q o)⟩

theorem filterMap_positions {β : Type} (oo : List (ObjObs P)) (p : ObjObs P → Bool) (F : Nat → ObjObs P → β) (F' : ObjObs P → β)
    (h : ∀ (i : Nat) o, oo[i]? = some o → F i o = F' o) :
    ((positions p oo).filterMap fun i => (oo[i]?).map (F i)) = (oo.filter p).map F' := by
  rw [← positions_filterMap, List.map_filterMap]
  apply List.filterMap_congr
  intro i _
  rcases e : oo[i]? with _ | o
  · rfl
  · simp only [Option.map_some, h i o e]

/-- What is compared of the group observation with key `k`. -/
def viewAt [Group G] (toVec : G → V) (ofVec : V → G) (avg : List V → V) (gs : OMap Nat (CamGroup G)) (oo : List (ObjObs P))
    (q : ObjObs P → G) (k : Nat × Nat) : List (Nat × G) :=
  match OMap.get? gs k.1 with
  | some g => viewE ofVec avg g.refCam (ents toVec g q (seen g k.2 oo))
  | none => []

theorem objectViews_eq [Group G] (toVec : G → V) (ofVec : V → G) (avg : List V → V) {t : GroupTables G} {oo : List (ObjObs P)}
    {frames : List Nat} (ht : GroupObsOf oo frames t) (q : ObjObs P → G) :
    objectViews ofVec (objectPoses toVec avg t oo (objPosesOf oo q)) t oo =
      (OMap.keys t.groupObs).map (viewAt toVec ofVec avg t.groups oo q) := by
  unfold objectViews OMap.keys
  rw [List.map_map]
  apply List.map_congr_left
  rintro ⟨⟨i, f⟩, is⟩ he
  have hg := (OMap.get?_eq_some ht.sorted).2 he
  obtain ⟨g, h1, -, -, rfl⟩ := (ht.obs i f is).1 hg
  have hq : ∀ (i : Nat) o, oo[i]? = some o → objPosesOf oo q i = q o := by
    intro i o h
    unfold objPosesOf
    rw [h]
    rfl
  have hent : entries toVec g oo (objPosesOf oo q) (positions (fun o : ObjObs P => o.frame == f && decide (o.cam ∈ OMap.keys g.cameras)) oo) =
      ents toVec g q (seen g f oo) := by
    unfold entries ents seen
    exact filterMap_positions oo _ (fun i o => (⟨o.cam, o.obj, poseInGroup toVec g o.cam (objPosesOf oo q i)⟩ : Entry V))
      (fun o => (⟨o.cam, o.obj, poseInGroup toVec g o.cam (q o)⟩ : Entry V)) (fun i o h => by rw [hq i o h])
  have hos : ((positions (fun o : ObjObs P => o.frame == f && decide (o.cam ∈ OMap.keys g.cameras)) oo).filterMap
      fun i => (oo[i]?).map (·.obj)) = (ents toVec g q (seen g f oo)).map (·.obj) := by
    unfold ents seen
    rw [List.map_map]
    exact filterMap_positions oo _ (fun _ o => o.obj) _ fun _ _ _ => rfl
  have hmap : OMap.get? (objectPoses toVec avg t oo (objPosesOf oo q)) (i, f) =
      some (computeObjectsPose avg g.refCam [] (ents toVec g q (seen g f oo))).1 := by
    unfold objectPoses
    refine (get?_mapKey (fun (k : Nat × Nat) (is : List Nat) => match OMap.get? t.groups k.1 with
      | some g => (computeObjectsPose avg g.refCam [] (entries toVec g oo (objPosesOf oo q) is)).1
      | none => []) _ _).trans ?_
    rw [hg]
    simp only [Option.map_some, h1, hent]
  simp only [Function.comp_apply, viewAt, h1, viewE, hos, List.length_map, hmap]
  split
  · rw [List.map_map]
    apply List.map_congr_left
    intro e he
    simp only [Function.comp_apply, Option.bind_some]
    rw [(computeObjectsPose_spec avg g.refCam [] List.Pairwise.nil _).2.1 e.obj, if_pos (List.mem_map.2 ⟨e, he, rfl⟩)]
    rfl
  · rfl

/-- The groups have the same reference cameras, cameras and poses. -/
def SameGroups (gs gs' : OMap Nat (CamGroup G)) : Prop :=
  ∀ i, (OMap.get? gs' i).map (fun g => (g.refCam, OMap.keys g.cameras, g.poses)) =
    (OMap.get? gs i).map (fun g => (g.refCam, OMap.keys g.cameras, g.poses))

/-- One observation of an object per camera and frame. -/
def Single (oo : List (ObjObs P)) : Prop :=
  ∀ x ∈ oo, ∀ y ∈ oo, x.cam = y.cam → x.frame = y.frame → x.obj = y.obj → unnumbered x = unnumbered y

theorem seen_perm {σ : Equiv.Perm Nat} {oo oo' : List (ObjObs P)} (h : SameObjects σ oo oo') (g g' : CamGroup G)
    (hc : OMap.keys g'.cameras = OMap.keys g.cameras) (f : Nat) :
    ((seen g' (σ f) oo').map unnumbered).Perm ((seen g f oo).map fun o => unnumbered (renamedObj σ o)) := by
  have h' := h.filter fun o => o.frame == σ f && decide (o.cam ∈ OMap.keys g.cameras)
  rw [List.filter_map, List.filter_map] at h'
  unfold seen
  rw [hc]
  refine (List.Perm.of_eq ?_).trans (h'.trans (List.Perm.of_eq ?_))
  · rfl
  · congr 1
    apply List.filter_congr
    intro o _
    have e : (σ o.frame == σ f) = (o.frame == f) := by
      rw [Bool.eq_iff_iff, beq_iff_eq, beq_iff_eq, σ.injective.eq_iff]
    simp only [Function.comp_apply, unnumbered, renamedObj, e]

theorem ents_perm [Group G] (toVec : G → V) {σ : Equiv.Perm Nat} {oo oo' : List (ObjObs P)} (h : SameObjects σ oo oo')
    (g g' : CamGroup G) (hc : OMap.keys g'.cameras = OMap.keys g.cameras) (hp : g'.poses = g.poses) (q : ObjObs P → G)
    (hq : ∀ o, q (unnumbered o) = q o ∧ q (renamedObj σ o) = q o) (f : Nat) :
    (ents toVec g' q (seen g' (σ f) oo')).Perm (ents toVec g q (seen g f oo)) := by
  have h' := (seen_perm h g g' hc f).map fun o => (⟨o.cam, o.obj, poseInGroup toVec g o.cam (q o)⟩ : Entry V)
  rw [List.map_map, List.map_map] at h'
  unfold ents
  refine (List.Perm.of_eq ?_).trans (h'.trans (List.Perm.of_eq ?_))
  · apply List.map_congr_left
    intro o _
    simp only [Function.comp_apply, (hq o).1, poseInGroup, hp]
    rfl
  · apply List.map_congr_left
    intro o _
    simp only [Function.comp_apply, (hq _).1, (hq o).2]
    rfl

theorem mem_keys_obs {oo : List (ObjObs P)} {frames : List Nat} {t : GroupTables G} (ht : GroupObsOf oo frames t)
    (hfr : ∀ o ∈ oo, o.frame ∈ frames) (i f : Nat) :
    (i, f) ∈ OMap.keys t.groupObs ↔ ∃ g, OMap.get? t.groups i = some g ∧ seen g f oo ≠ [] := by
  rw [OMap.mem_keys]
  constructor
  · rintro ⟨is, h⟩
    obtain ⟨g, h1, -, h3, h4⟩ := (ht.obs i f is).1 h
    refine ⟨g, h1, fun e => h3 ?_⟩
    rw [h4]
    rcases e' : positions _ oo with _ | ⟨j, js⟩
    · rfl
    · exfalso
      obtain ⟨o, ho, hpo⟩ := (Props.Store.positions_get _ _ j).1 (e' ▸ List.mem_cons_self)
      have : o ∈ seen g f oo := List.mem_filter.2 ⟨List.mem_of_getElem? ho, hpo⟩
      rw [e] at this
      exact nomatch this
  · rintro ⟨g, h1, h2⟩
    refine ⟨_, (ht.obs i f _).2 ⟨g, h1, ?_, ?_, rfl⟩⟩
    · obtain ⟨o, ho⟩ := List.exists_mem_of_ne_nil _ h2
      unfold seen at ho
      rw [List.mem_filter, Bool.and_eq_true, beq_iff_eq] at ho
      rw [← ho.2.1]
      exact hfr o ho.1
    · intro e
      apply h2
      unfold seen
      rw [← positions_filterMap, e]
      rfl

theorem viewAt_perm [Group G] (toVec : G → V) (ofVec : V → G) {avg : List V → V} (ha : Unordered avg) (hk : Repeated avg)
    {σ : Equiv.Perm Nat} {oo oo' : List (ObjObs P)} (h : SameObjects σ oo oo') (h1 : Single oo) {gs gs' : OMap Nat (CamGroup G)}
    (hg : SameGroups gs gs') (q : ObjObs P → G) (hq : ∀ o, q (unnumbered o) = q o ∧ q (renamedObj σ o) = q o) (i f : Nat) :
    (viewAt toVec ofVec avg gs' oo' q (i, σ f)).Perm (viewAt toVec ofVec avg gs oo q (i, f)) := by
  have hi := hg i
  unfold viewAt
  rcases e : OMap.get? gs i with _ | g <;> rcases e' : OMap.get? gs' i with _ | g' <;>
    simp only [e, e', Option.map_some, Option.map_none, reduceCtorEq, Option.some.injEq, Prod.mk.injEq] at hi
  · exact List.Perm.refl _
  · simp only []
    rw [hi.1]
    refine viewE_perm ofVec ha hk (ents_perm toVec h g g' hi.2.1 hi.2.2 q hq f) ?_ _
    intro x hx y hy hxc hxo
    obtain ⟨a, ha', rfl⟩ := List.mem_map.1 hx
    obtain ⟨b, hb', rfl⟩ := List.mem_map.1 hy
    unfold seen at ha' hb'
    rw [List.mem_filter, Bool.and_eq_true, beq_iff_eq] at ha' hb'
    have hu := h1 a ha'.1 b hb'.1 hxc (ha'.2.1.trans hb'.2.1.symm) hxo
    have hqq : q a = q b := by rw [← (hq a).1, hu, (hq b).1]
    simp only at hxc hxo
    simp only [hxc, hxo, hqq]

theorem keys_perm {σ : Equiv.Perm Nat} {oo oo' : List (ObjObs P)} (h : SameObjects σ oo oo') {t t' : GroupTables G}
    {frames frames' : List Nat} (ht : GroupObsOf oo frames t) (ht' : GroupObsOf oo' frames' t') (hfr : ∀ o ∈ oo, o.frame ∈ frames)
    (hfr' : ∀ o ∈ oo', o.frame ∈ frames') (hg : SameGroups t.groups t'.groups) :
    (OMap.keys t'.groupObs).Perm ((OMap.keys t.groupObs).map fun k => (k.1, σ k.2)) := by
  have hinj : Function.Injective fun k : Nat × Nat => (k.1, σ k.2) := by
    rintro ⟨a, b⟩ ⟨c, d⟩ e
    simp only [Prod.mk.injEq, σ.injective.eq_iff] at e
    exact Prod.ext e.1 e.2
  rw [List.perm_ext_iff_of_nodup (OMap.keys_nodup ht'.sorted) ((OMap.keys_nodup ht.sorted).map hinj)]
  rintro ⟨i, f'⟩
  obtain ⟨f, rfl⟩ := σ.surjective f'
  rw [mem_keys_obs ht' hfr', show (i, σ f) = (fun k : Nat × Nat => (k.1, σ k.2)) (i, f) from rfl, List.mem_map_of_injective hinj,
    mem_keys_obs ht hfr]
  have hi := hg i
  rcases e : OMap.get? t.groups i with _ | g <;> rcases e' : OMap.get? t'.groups i with _ | g' <;>
    simp only [e, e', Option.map_some, Option.map_none, reduceCtorEq, Option.some.injEq, Prod.mk.injEq] at hi
  · simp
  · have hp := (seen_perm h g g' hi.2.1 f).length_eq
    rw [List.length_map, List.length_map] at hp
    simp only [Option.some.injEq, exists_eq_left', ne_eq, ← List.length_eq_zero_iff, hp]

theorem objectPairs_perm [Group G] (toVec : G → V) (ofVec : V → G) {avg : List V → V} (ha : Unordered avg) (hk : Repeated avg)
    {σ : Equiv.Perm Nat} {oo oo' : List (ObjObs P)} (h : SameObjects σ oo oo') (h1 : Single oo) {t t' : GroupTables G}
    {frames frames' : List Nat} (ht : GroupObsOf oo frames t) (ht' : GroupObsOf oo' frames' t') (hfr : ∀ o ∈ oo, o.frame ∈ frames)
    (hfr' : ∀ o ∈ oo', o.frame ∈ frames') (hg : SameGroups t.groups t'.groups)
    (q : ObjObs P → G) (hq : ∀ o, q (unnumbered o) = q o ∧ q (renamedObj σ o) = q o) :
    ((objectViews ofVec (objectPoses toVec avg t' oo' (objPosesOf oo' q)) t' oo').flatMap (pairsOfView objectPair)).Perm
      ((objectViews ofVec (objectPoses toVec avg t oo (objPosesOf oo q)) t oo).flatMap (pairsOfView objectPair)) := by
  rw [objectViews_eq toVec ofVec avg ht, objectViews_eq toVec ofVec avg ht', List.flatMap_map, List.flatMap_map]
  refine ((keys_perm h ht ht' hfr hfr' hg).flatMap_right _).trans ?_
  rw [List.flatMap_map]
  refine List.Perm.flatMap_left _ fun k _ => ?_
  exact pairsOfView_perm _ (viewAt_perm toVec ofVec ha hk h h1 hg q hq k.1 k.2)

theorem objects_seen {σ : Equiv.Perm Nat} {oo oo' : List (ObjObs P)} (h : SameObjects σ oo oo') (i : Nat) :
    (oo'.any fun o => o.obj == i) = oo.any fun o => o.obj == i := by
  rw [Bool.eq_iff_iff, List.any_eq_true, List.any_eq_true]
  have hm := (h.map fun o : ObjObs P => o.obj).mem_iff (a := i)
  rw [List.map_map, List.map_map, List.mem_map, List.mem_map] at hm
  simpa [unnumbered, renamedObj] using hm

theorem push_perm {l l' : List ((Nat × Nat) × G)} (hp : l'.Perm l) (k : Nat × Nat) :
    ((OMap.get? (l'.foldl push []) k).getD []).Perm ((OMap.get? (l.foldl push []) k).getD []) := by
  rw [(push_fold _).2, (push_fold _).2]
  have hf := hp.filter fun e => e.1 = k
  have hl := hf.length_eq
  by_cases e : (l.filter fun e => e.1 = k) = []
  · rw [e] at hf
    rw [if_pos e, if_pos (List.perm_nil.1 hf)]
  · rw [if_neg e, if_neg fun e' => e (by rw [e'] at hf; exact List.nil_perm.1 hf)]
    exact hf.map _

/-- The merge of the objects gives the same objects. -/
theorem merge3D_same [Group G] [SMul G Pt] (toVec : G → V) (ofVec : V → G) {avgV : List V → V} (ha : Unordered avgV) (hk : Repeated avgV)
    {avg : List G → G} (hav : Unordered avg) (choose : Nat → Nat → Graph.DState → Nat) (bpts : List (List Pt))
    (objs : OMap Nat (Object G Pt))
    {σ : Equiv.Perm Nat} {oo oo' : List (ObjObs P)} (h : SameObjects σ oo oo') (h1 : Single oo) {t t' : GroupTables G}
    {frames frames' : List Nat} (ht : GroupObsOf oo frames t) (ht' : GroupObsOf oo' frames' t') (hfr : ∀ o ∈ oo, o.frame ∈ frames)
    (hfr' : ∀ o ∈ oo', o.frame ∈ frames') (hg : SameGroups t.groups t'.groups)
    (q : ObjObs P → G) (hq : ∀ o, q (unnumbered o) = q o ∧ q (renamedObj σ o) = q o) :
    merge3DObjects toVec ofVec avgV avg choose bpts objs t' oo' (objPosesOf oo' q) =
      merge3DObjects toVec ofVec avgV avg choose bpts objs t oo (objPosesOf oo q) := by
  have hp := objectPairs_perm toVec ofVec ha hk h h1 ht ht' hfr hfr' hg q hq
  have hne : ∀ l : List ((Nat × Nat) × G), ∀ k zs, OMap.get? (l.foldl push []) k = some zs → zs ≠ [] := by
    intro l k zs hz
    rw [(push_fold l).2] at hz
    split at hz
    · exact nomatch hz
    · rename_i hn
      simp only [Option.some.injEq] at hz
      subst hz
      simpa using hn
  have hs := Reorder.tables_same
    (t := objectPairs ofVec (objectPoses toVec avgV t oo (objPosesOf oo q)) t oo)
    (t' := objectPairs ofVec (objectPoses toVec avgV t' oo' (objPosesOf oo' q)) t' oo')
    (push_fold _).1 (push_fold _).1 (hne _) (hne _) (fun k => push_perm hp k) avg hav
  unfold merge3DObjects objectGraph
  dsimp only
  rw [hs.1, hs.2]
  have : objectVertices objs oo' = objectVertices objs oo := by
    unfold objectVertices
    congr 1
    apply List.filter_congr
    intro e _
    exact objects_seen h _
  rw [this]

end Verif.Lemmas.ReorderMerge
