import Verif.Lemmas.ReorderGroups
import Verif.Lemmas.NonOverlapPoses

/-! C97: the transforms between groups without common views do not depend on the order of the images. -/
namespace Verif.Lemmas.ReorderPairs
open Verif Verif.Objects Verif.Groups Verif.Structure Verif.GroupPose Verif.NonOverlap Verif.Pipeline Verif.Spec.Groups
open Verif.Spec.NonOverlap Verif.Spec.Reorder Verif.Spec.Schedule Verif.Spec.Store Verif.Lemmas.NonOverlap
open Verif.Spec.Units (values)
open Verif.Lemmas.ReorderMerge Verif.Lemmas.ReorderGroups
open Verif.Props.GroupPose (get?_mapKey)

variable {V G Pt P Path : Type}

theorem frames_perm {nCam nBoard : Nat} {σ : Equiv.Perm Nat} {l l' : List (Insertion P Path)} {s s' : Store P Path}
    (hs : Describes nCam nBoard l s) (hs' : Describes nCam nBoard l' s') (h : Reordered σ l l') :
    (OMap.keys s'.frames).Perm ((OMap.keys s.frames).map σ) := by
  rw [List.perm_ext_iff_of_nodup (OMap.keys_nodup hs'.frames_sorted) ((OMap.keys_nodup hs.frames_sorted).map σ.injective)]
  intro f
  rw [hs'.frame_key, List.mem_map]
  have hp := fun x => (Lemmas.Reorder.perm_of_reordered h).mem_iff (a := x)
  constructor
  · rintro ⟨a, ha, rfl⟩
    obtain ⟨b, hb, e⟩ := List.mem_map.1 ((hp a.obs).1 (List.mem_map.2 ⟨a, ha, rfl⟩))
    exact ⟨b.obs.frame, (hs.frame_key _).2 ⟨b, hb, rfl⟩, by rw [← e]; rfl⟩
  · rintro ⟨f, hf, rfl⟩
    obtain ⟨b, hb, rfl⟩ := (hs.frame_key _).1 hf
    obtain ⟨a, ha, e⟩ := List.mem_map.1 ((hp (renamed σ b.obs)).2 (List.mem_map.2 ⟨b, hb, rfl⟩))
    exact ⟨a, ha, by rw [e]; rfl⟩

theorem seenIn_same {σ : Equiv.Perm Nat} {oo oo' : List (ObjObs P)} (h : SameObjects σ oo oo') {g g' : CamGroup G}
    (hc : OMap.keys g'.cameras = OMap.keys g.cameras) (f a : Nat) : seenIn oo' g' (σ f) a = seenIn oo g f a := by
  have hp := ((seen_perm h g g' hc f).filter fun o => o.obj == a).length_eq
  rw [List.filter_map, List.filter_map, List.length_map, List.length_map] at hp
  unfold seen at hp
  rw [List.filter_filter, List.filter_filter] at hp
  unfold seenIn
  have e : ∀ (p q : ObjObs P → Bool) (l : List (ObjObs P)), (∀ x, p x = q x) → (l.filter p).length = (l.filter q).length :=
    fun p q l hpq => by rw [show p = q from funext hpq]
  refine (e _ _ _ fun x => ?_).trans (hp.trans (e _ _ _ fun x => ?_))
  all_goals
    simp only [Function.comp_apply, unnumbered, renamedObj]
    exact Bool.and_comm _ _

theorem joint_same {σ : Equiv.Perm Nat} {oo oo' : List (ObjObs P)} (h : SameObjects σ oo oo') {frames frames' : List Nat}
    (hf : frames'.Perm (frames.map σ)) {g1 g1' g2 g2' : CamGroup G} (h1 : OMap.keys g1'.cameras = OMap.keys g1.cameras)
    (h2 : OMap.keys g2'.cameras = OMap.keys g2.cameras) (ab : Nat × Nat) :
    jointSightings oo' frames' g1' g2' ab = jointSightings oo frames g1 g2 ab ∧
      (jointFrames oo' frames' g1' g2' ab).Perm ((jointFrames oo frames g1 g2 ab).map σ) := by
  constructor
  · unfold jointSightings
    rw [(hf.map _).sum_eq, List.map_map]
    congr 1
    apply List.map_congr_left
    intro f _
    simp only [Function.comp_apply, seenIn_same h h1, seenIn_same h h2]
  · unfold jointFrames
    refine (hf.filter _).trans (List.Perm.of_eq ?_)
    rw [List.filter_map]
    congr 1
    apply List.filter_congr
    intro f _
    simp only [Function.comp_apply, seenIn_same h h1, seenIn_same h h2]

theorem argMax_same {m m' : OMap (Nat × Nat) Nat} (hm : OMap.Sorted m) (hm' : OMap.Sorted m') (h : ∀ q, cntOf m' q = cntOf m q) :
    argMax m' = argMax m := by
  obtain ⟨a1, a2⟩ := argMax_spec m hm
  obtain ⟨b1, b2⟩ := argMax_spec m' hm'
  by_cases hz : ∀ q, cntOf m q = 0
  · rw [a1 hz, b1 fun q => by rw [h]; exact hz q]
  · have hz' : ∃ q, 0 < cntOf m q := by
      obtain ⟨q, hq⟩ := not_forall.1 hz
      exact ⟨q, Nat.pos_of_ne_zero hq⟩
    have hz'' : ∃ q, 0 < cntOf m' q := by
      obtain ⟨q, hq⟩ := hz'
      exact ⟨q, by rw [h]; exact hq⟩
    obtain ⟨_, a2⟩ := a2 hz'
    obtain ⟨_, b2⟩ := b2 hz''
    simp only [h] at b2
    have e : cntOf m (argMax m') = cntOf m (argMax m) := le_antisymm (a2 _).1 (b2 _).1
    have l1 := (a2 _).2 e
    have l2 := (b2 _).2 e.symm
    unfold lexLe at l1 l2
    apply Prod.ext <;> omega

/-- A refined pose of an object in a group observation. -/
theorem refined_get [Group G] (toVec : G → V) (avg : List V → V) (φ : Nat → Nat → Nat → V) {t : GroupTables G} {oo : List (ObjObs P)}
    (pose : Nat → G) {i f a : Nat} {g : CamGroup G} {is : List Nat} (hg : OMap.get? t.groups i = some g)
    (h : OMap.get? t.groupObs (i, f) = some is) (ha : a ∈ objIdx oo is) :
    (OMap.get? (refinePoses φ (objectPoses toVec avg t oo pose)) (i, f)).bind (fun m => OMap.get? m a) = some (φ i f a) := by
  have e0 : OMap.get? (objectPoses toVec avg t oo pose) (i, f) =
      some (computeObjectsPose avg g.refCam [] (entries toVec g oo pose is)).1 := by
    unfold objectPoses
    refine (get?_mapKey (fun (k : Nat × Nat) (is : List Nat) => match OMap.get? t.groups k.1 with
        | some g => (computeObjectsPose avg g.refCam [] (entries toVec g oo pose is)).1
        | none => []) _ _).trans ?_
    rw [h]
    simp only [Option.map_some, hg]
  have e1 : OMap.get? (refinePoses φ (objectPoses toVec avg t oo pose)) (i, f) =
      some ((computeObjectsPose avg g.refCam [] (entries toVec g oo pose is)).1.map fun p => (p.1, φ i f p.1)) := by
    unfold refinePoses
    refine (get?_mapKey (fun (k : Nat × Nat) (m : OMap Nat V) => m.map fun p => (p.1, φ k.1 k.2 p.1)) _ _).trans ?_
    rw [e0]
    rfl
  rw [e1, Option.bind_some]
  refine (get?_mapKey (fun (k : Nat) (_ : V) => φ i f k) _ _).trans ?_
  rw [(Lemmas.GroupPose.computeObjectsPose_spec avg g.refCam [] List.Pairwise.nil _).2.1 a, if_pos]
  · rfl
  · unfold entries objIdx at *
    obtain ⟨k, hk, e⟩ := List.mem_filterMap.1 ha
    obtain ⟨o, ho, rfl⟩ := Option.map_eq_some_iff.1 e
    rw [List.mem_map]
    exact ⟨⟨o.cam, o.obj, poseInGroup toVec g o.cam (pose k)⟩, List.mem_filterMap.2 ⟨k, hk, by rw [ho]; rfl⟩, rfl⟩

section
variable [Group G] {σ : Equiv.Perm Nat} {oo oo' : List (ObjObs P)} (h : SameObjects σ oo oo') {frames frames' : List Nat}
  (hf : frames'.Perm (frames.map σ)) (hs : frames.Pairwise (· < ·)) (hs' : frames'.Pairwise (· < ·)) {t t' : GroupTables G}
  (hC : Collection t.groups) (hC' : Collection t'.groups)
  (ht : GroupObsOf oo frames t) (ht' : GroupObsOf oo' frames' t') (hL : ListsCover t) (hL' : ListsCover t')
  (hb : values bare t'.groups = values bare t.groups)

include h hf hs hs' ht ht' hL hL' in
theorem pairFor_same (objs : OMap Nat (Object G Pt)) {i j : Nat} {g1 g1' g2 g2' : CamGroup G}
    (e1 : OMap.get? t.groups i = some g1) (e1' : OMap.get? t'.groups i = some g1') (e2 : OMap.get? t.groups j = some g2)
    (e2' : OMap.get? t'.groups j = some g2') (h1 : OMap.keys g1'.cameras = OMap.keys g1.cameras)
    (h2 : OMap.keys g2'.cameras = OMap.keys g2.cameras) :
    objectPairFor objs t' oo' i j g1' g2' = objectPairFor objs t oo i j g1 g2 := by
  obtain ⟨k1, k2⟩ := counts_spec ht hL hs objs e1 e2
  obtain ⟨k1', k2'⟩ := counts_spec ht' hL' hs' objs e1' e2'
  exact argMax_same k1 k1' fun q => by rw [k2, k2', (joint_same h hf h1 h2 q).1]

include h hf hs hs' hC hC' ht ht' hL hL' hb in
theorem pairs_get (objs : OMap Nat (Object G Pt)) (k : Nat × Nat) :
    OMap.get? (findPairs objs t' oo') k = OMap.get? (findPairs objs t oo) k := by
  obtain ⟨i, j⟩ := k
  rw [findPairs_get? objs t hC.sorted, findPairs_get? objs t' hC'.sorted]
  split
  · have hi := sameGroups_of hb i
    have hj := sameGroups_of hb j
    rcases e1 : OMap.get? t.groups i with _ | g1 <;> rcases e1' : OMap.get? t'.groups i with _ | g1' <;>
      simp only [e1, e1', Option.map_some, Option.map_none, reduceCtorEq, Option.some.injEq, Prod.mk.injEq] at hi
    · rfl
    · rcases e2 : OMap.get? t.groups j with _ | g2 <;> rcases e2' : OMap.get? t'.groups j with _ | g2' <;>
        simp only [e2, e2', Option.map_some, Option.map_none, reduceCtorEq, Option.some.injEq, Prod.mk.injEq] at hj
      · rfl
      · simp only [Option.bind_some, Option.map_some, pairFor_same h hf hs hs' ht ht' hL hL' objs e1 e1' e2 e2' hi.2.1 hj.2.1]
  · rfl

include h hf hs hs' hC hC' ht ht' hL hL' hb in
theorem posesFor_perm (toVec : G → V) (ofVec : V → G) (avg : List V → V) (φ φ' : Nat → Nat → Nat → V)
    (hφ : ∀ i f o, φ' i (σ f) o = φ i f o) (pose pose' : Nat → G) (objs : OMap Nat (Object G Pt)) (k : Nat × Nat) :
    (posesFor ofVec (refinePoses φ' (objectPoses toVec avg t' oo' pose')) t' oo' (findPairs objs t' oo') k).Perm
      (posesFor ofVec (refinePoses φ (objectPoses toVec avg t oo pose)) t oo (findPairs objs t oo) k) := by
  obtain ⟨i, j⟩ := k
  unfold posesFor
  rw [pairs_get h hf hs hs' hC hC' ht ht' hL hL' hb objs (i, j)]
  generalize (OMap.get? (findPairs objs t oo) (i, j)).getD (0, 0) = ab
  dsimp only
  have hi := sameGroups_of hb i
  have hj := sameGroups_of hb j
  rcases e1 : OMap.get? t.groups i with _ | g1 <;> rcases e1' : OMap.get? t'.groups i with _ | g1' <;>
    simp only [e1, e1', Option.map_some, Option.map_none, reduceCtorEq, Option.some.injEq, Prod.mk.injEq] at hi
  · exact List.Perm.refl _
  rcases e2 : OMap.get? t.groups j with _ | g2 <;> rcases e2' : OMap.get? t'.groups j with _ | g2' <;>
    simp only [e2, e2', Option.map_some, Option.map_none, reduceCtorEq, Option.some.injEq, Prod.mk.injEq] at hj
  · exact List.Perm.refl _
  dsimp only
  rw [framePoses_spec ht hL hs ofVec _ e1 e2 ab, framePoses_spec ht' hL' hs' ofVec _ e1' e2' ab]
  refine ((joint_same h hf hi.2.1 hj.2.1 ab).2.map _).trans (List.Perm.of_eq ?_)
  rw [List.map_map]
  apply List.map_congr_left
  intro f hfj
  unfold jointFrames at hfj
  simp only [List.mem_filter, Bool.and_eq_true, decide_eq_true_eq] at hfj
  obtain ⟨hfm, p1, p2⟩ := hfj
  have hfm' : σ f ∈ frames' := hf.mem_iff.2 (List.mem_map_of_mem hfm)
  have p1' : 0 < seenIn oo' g1' (σ f) ab.1 := by rw [seenIn_same h hi.2.1]; exact p1
  have p2' : 0 < seenIn oo' g2' (σ f) ab.2 := by rw [seenIn_same h hj.2.1]; exact p2
  obtain ⟨a1, m1, n1⟩ := (seenIn_pos ht e1 hfm).1 p1
  obtain ⟨a2, m2, n2⟩ := (seenIn_pos ht e2 hfm).1 p2
  obtain ⟨a1', m1', n1'⟩ := (seenIn_pos ht' e1' hfm').1 p1'
  obtain ⟨a2', m2', n2'⟩ := (seenIn_pos ht' e2' hfm').1 p2'
  rw [Function.comp_apply, refined_get toVec avg φ pose e1 m1 n1, refined_get toVec avg φ pose e2 m2 n2,
    refined_get toVec avg φ' pose' e1' m1' n1', refined_get toVec avg φ' pose' e2' m2' n2', hφ, hφ]

include h hf hs hs' hC hC' ht ht' hL hL' hb in
/-- The transforms between the groups. -/
theorem findPoses_same (toVec : G → V) (ofVec : V → G) (avg : List V → V) (φ φ' : Nat → Nat → Nat → V)
    (hφ : ∀ i f o, φ' i (σ f) o = φ i f o) (pose pose' : Nat → G) (objs : OMap Nat (Object G Pt)) (he : List (G × G) → Outcome G)
    (hhe : ∀ ps ps', ps.Perm ps' → he ps = he ps') (cnt0 : OMap (Nat × Nat) Nat) :
    findPoses ofVec (refinePoses φ' (objectPoses toVec avg t' oo' pose')) t' oo' (findPairs objs t' oo') he cnt0 =
      findPoses ofVec (refinePoses φ (objectPoses toVec avg t oo pose)) t oo (findPairs objs t oo) he cnt0 := by
  rw [findPoses_flat ofVec _ t hC.sorted, findPoses_flat ofVec _ t' hC'.sorted]
  have hg : groupPairs t'.groups = groupPairs t.groups := by
    have e : ∀ gs : OMap Nat (CamGroup G), groupPairs gs = (OMap.keys gs).flatMap fun a => ((OMap.keys gs).filter fun b => decide (a ≠ b)).map fun b => (a, b) := by
      intro gs
      unfold groupPairs OMap.keys
      rw [List.flatMap_map]
      apply List.flatMap_congr
      intro a _
      rw [List.filter_map, List.map_map]
      rfl
    rw [e, e, keys_of hb]
  rw [hg]
  congr 1
  funext st k
  unfold recStep
  have hp := posesFor_perm h hf hs hs' hC hC' ht ht' hL hL' hb toVec ofVec avg φ φ' hφ pose pose' objs k
  rw [hp.length_eq, hhe _ _ hp]

end

end Verif.Lemmas.ReorderPairs
