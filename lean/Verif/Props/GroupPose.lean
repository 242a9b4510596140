import Verif.Lemmas.ObjectPairs
import Verif.Props.Average

/-!
C26 (pose of an object in a group observation), C27 (exact poses stay exact in the group frame), and
the object side of C17 and C24: the table of object pairs meets the requirements of the merge.
-/
namespace Verif.Props.GroupPose
open Verif Verif.Structure Verif.Objects Verif.Groups Verif.GroupPose Verif.Average
open Verif.Spec.Groups Verif.Spec.Structure Verif.Spec.Store
open Verif.Lemmas.Structure Verif.Lemmas.GroupPose
open Verif.Props.Objects (Averages ObjectTable)
open Relation

variable {V G Pt P Path : Type}

/-- The observations of object `o` made by the reference camera. -/
def byRef (ref : Nat) (es : List (Entry V)) (o : Nat) : List (Entry V) :=
  es.filter fun e => e.obj == o && e.cam == ref

/-- The observations of object `o`. -/
def ofObject (es : List (Entry V)) (o : Nat) : List (Entry V) := es.filter fun e => e.obj == o

private theorem byRef_eq (ref : Nat) (es : List (Entry V)) (o : Nat) :
    ((es.filter fun e => e.obj == o).filter fun e => e.cam == ref) = byRef ref es o := by
  rw [List.filter_filter]
  apply List.filter_congr
  intro e _
  rw [Bool.and_comm]

/-! ### C26 -/

/-- C26: exactly the objects of the observation get a pose, the others keep the one they had, and every
observation of an object is given the object's pose; nothing else about the observations changes. -/
theorem C26_update (avg : List V → V) (ref : Nat) (m : OMap Nat V) (hm : OMap.Sorted m)
    (es : List (Entry V)) :
    (∀ o, o ∉ es.map (·.obj) → OMap.get? (computeObjectsPose avg ref m es).1 o = OMap.get? m o) ∧
    (∀ o, o ∈ es.map (·.obj) → ∃ v, OMap.get? (computeObjectsPose avg ref m es).1 o = some v) ∧
    (computeObjectsPose avg ref m es).2.length = es.length ∧
    ∀ (i : Nat) e, es[i]? = some e → ∃ v, OMap.get? (computeObjectsPose avg ref m es).1 e.obj = some v ∧
      (computeObjectsPose avg ref m es).2[i]? = some ⟨e.cam, e.obj, v⟩ := by
  obtain ⟨_, h2, h3⟩ := computeObjectsPose_spec avg ref m hm es
  refine ⟨fun o ho => by rw [h2, if_neg ho], fun o ho => ⟨_, by rw [h2, if_pos ho]⟩,
    by rw [h3, List.length_map], fun i e he => ?_⟩
  refine ⟨finalPose avg ref es e.obj, ?_, ?_⟩
  · rw [h2, if_pos (List.mem_map.2 ⟨e, List.mem_of_getElem? he, rfl⟩)]
  · rw [h3, List.getElem?_map, he]; rfl

/-- C26: if the reference camera saw the object, the object's pose is the one of the (last)
observation of the reference camera. -/
theorem C26_reference (avg : List V → V) (ref : Nat) (m : OMap Nat V) (hm : OMap.Sorted m)
    (es : List (Entry V)) (o : Nat) (e : Entry V) (he : (byRef ref es o).getLast? = some e) :
    OMap.get? (computeObjectsPose avg ref m es).1 o = some e.inGroup := by
  obtain ⟨_, h2, _⟩ := computeObjectsPose_spec avg ref m hm es
  have hmem : e ∈ es ∧ e.obj = o := by
    have := List.mem_of_getLast? he
    simp only [byRef, List.mem_filter, Bool.and_eq_true, beq_iff_eq] at this
    exact ⟨this.1, this.2.1⟩
  rw [h2, if_pos (List.mem_map.2 ⟨e, hmem.1, hmem.2⟩)]
  unfold finalPose poseOf
  rw [byRef_eq, he]

/-- C26: if the reference camera did not see the object, its pose is the median of the rotations and
the mean of the translations of all observations of the object: that the code lists the observations
several times when the object's observations are not adjacent has no effect. -/
theorem C26_average {K : Type} [Field K] [LinearOrder K] [IsStrictOrderedRing K] (ref : Nat)
    (m : OMap Nat (Vec6 K)) (hm : OMap.Sorted m)
    (es : List (Entry (Vec6 K))) (o : Nat) (ho : o ∈ es.map (·.obj)) (hr : byRef ref es o = []) :
    OMap.get? (computeObjectsPose groupAverageVec ref m es).1 o =
      some (groupAverageVec ((ofObject es o).map (·.inGroup))) := by
  obtain ⟨_, h2, _⟩ := computeObjectsPose_spec groupAverageVec ref m hm es
  rw [h2, if_pos ho]
  unfold finalPose poseOf
  rw [byRef_eq, hr, List.getLast?_nil]
  dsimp only
  rw [Props.Average.groupAverage_repeat _ _ (runs_pos ho)]
  rfl

/-! ### C27 -/

theorem get?_mapKey {κ A B : Type} [DecidableEq κ] [Key κ] (f : κ → A → B) : ∀ (m : OMap κ A) (k : κ),
    OMap.get? (m.map fun e => (e.1, f e.1 e.2)) k = (OMap.get? m k).map (f k)
  | [], _ => rfl
  | (a, x) :: m, k => by
    rw [List.map_cons]
    by_cases h : k = a
    · subst h; simp [OMap.get?]
    · simp only [OMap.get?, h, if_false]
      exact get?_mapKey f m k

/-- If all observations of an object have the same pose, so has the object. -/
theorem C26_common (avg : List V → V)
    (havg : ∀ (zs : List V) x, zs ≠ [] → (∀ z ∈ zs, z = x) → avg zs = x) (ref : Nat) (m : OMap Nat V)
    (hm : OMap.Sorted m) (es : List (Entry V)) (o : Nat) (ho : o ∈ es.map (·.obj)) (v : V)
    (hv : ∀ e ∈ es, e.obj = o → e.inGroup = v) :
    OMap.get? (computeObjectsPose avg ref m es).1 o = some v := by
  obtain ⟨_, h2, _⟩ := computeObjectsPose_spec avg ref m hm es
  rw [h2, if_pos ho]
  congr 1
  unfold finalPose poseOf
  rw [byRef_eq]
  cases h : (byRef ref es o).getLast? with
  | some e =>
    have := List.mem_of_getLast? h
    simp only [byRef, List.mem_filter, Bool.and_eq_true, beq_iff_eq] at this
    exact hv e this.1 this.2.1
  | none =>
    obtain ⟨e, he, heo⟩ := List.mem_map.1 ho
    apply havg
    · intro hnil
      rw [List.flatten_eq_nil_iff] at hnil
      have := hnil ((es.filter fun e => e.obj == o).map (·.inGroup)) (by
        rw [List.mem_replicate]
        exact ⟨Nat.pos_iff_ne_zero.1 (runs_pos ho), rfl⟩)
      rw [List.map_eq_nil_iff] at this
      have h' : e ∈ es.filter fun e => e.obj == o := List.mem_filter.2 ⟨he, by simpa using heo⟩
      rw [this] at h'
      exact absurd h' (List.not_mem_nil)
    · intro z hz
      obtain ⟨l, hl, hz⟩ := List.mem_flatten.1 hz
      obtain ⟨_, rfl⟩ := List.mem_replicate.1 hl
      obtain ⟨e', he', rfl⟩ := List.mem_map.1 hz
      rw [List.mem_filter, beq_iff_eq] at he'
      exact hv e' he'.1 he'.2

section
variable [Group G] (toVec : G → V) (ofVec : V → G) (hvec : ∀ g, ofVec (toVec g) = g)
  (avg : List V → V) (havg : ∀ (zs : List V) x, zs ≠ [] → (∀ z ∈ zs, z = x) → avg zs = x)
  (oo : List (ObjObs P)) (frames : List Nat) (t : GroupTables G) (hC : Collection t.groups)
  (ht : GroupObsOf oo frames t) (pose : Nat → G)
  (C : Nat → G) (W : Nat → Nat → G)
  (hcam : ∀ i g c, OMap.get? t.groups i = some g → c ∈ OMap.keys g.cameras →
    OMap.get? g.poses c = some (C c * (C g.refCam)⁻¹))
  (hpose : ∀ (k : Nat) o, oo[k]? = some o → pose k = C o.cam * W o.frame o.obj)

include ht havg hcam hpose in
/-- C27: with exact camera poses (camera `c` has the true extrinsic pose `C c`) and exact object poses
in the cameras (`W f o` is the true pose of object `o` at frame `f`), the pose of every object in every
group observation is the true one, seen from the reference camera. -/
theorem C27_pose (i f : Nat) (is : List Nat) (g : CamGroup G) (h : OMap.get? t.groupObs (i, f) = some is)
    (hg : OMap.get? t.groups i = some g) (k : Nat) (o : ObjObs P) (hk : k ∈ is) (ho : oo[k]? = some o) :
    ((OMap.get? (objectPoses toVec avg t oo pose) (i, f)).bind fun m => OMap.get? m o.obj) =
      some (toVec (C g.refCam * W f o.obj)) := by
  have hmap : OMap.get? (objectPoses toVec avg t oo pose) (i, f) =
      some (computeObjectsPose avg g.refCam [] (entries toVec g oo pose is)).1 := by
    unfold objectPoses
    refine (get?_mapKey (fun (q : Nat × Nat) (is : List Nat) => match OMap.get? t.groups q.1 with
      | some g => (computeObjectsPose avg g.refCam [] (entries toVec g oo pose is)).1
      | none => []) _ _).trans ?_
    rw [h]
    simp only [Option.map_some, hg]
  rw [hmap, Option.bind_some]
  obtain ⟨g', hg', hf, hne, his⟩ := (ht.obs i f is).1 h
  rw [hg] at hg'
  simp only [Option.some.injEq] at hg'
  subst hg'
  have hent : ∀ e ∈ entries toVec g oo pose is, ∃ (q : Nat) (x : ObjObs P), q ∈ is ∧ oo[q]? = some x ∧
      e = ⟨x.cam, x.obj, poseInGroup toVec g x.cam (pose q)⟩ := by
    intro e he
    unfold entries at he
    obtain ⟨q, hq, hx⟩ := List.mem_filterMap.1 he
    cases hoq : oo[q]? with
    | none => rw [hoq] at hx; simp at hx
    | some x =>
      rw [hoq] at hx
      simp only [Option.map_some, Option.some.injEq] at hx
      exact ⟨q, x, hq, hoq, hx.symm⟩
  apply C26_common avg havg g.refCam [] List.Pairwise.nil
  · rw [List.mem_map]
    refine ⟨⟨o.cam, o.obj, poseInGroup toVec g o.cam (pose k)⟩, ?_, rfl⟩
    unfold entries
    exact List.mem_filterMap.2 ⟨k, hk, by rw [ho]; rfl⟩
  · intro e he heo
    obtain ⟨q, x, hq, hx, rfl⟩ := hent e he
    dsimp only at heo ⊢
    rw [his] at hq
    obtain ⟨x', hx', hp⟩ := (Props.Store.positions_get _ _ _).1 hq
    rw [hx] at hx'
    simp only [Option.some.injEq] at hx'
    subst hx'
    simp only [Bool.and_eq_true, beq_iff_eq, decide_eq_true_eq] at hp
    unfold poseInGroup
    rw [hcam i g x.cam hg hp.2, Option.getD_some, hpose q x hx, hp.1, heo]
    congr 1
    group

include ht havg hcam hpose hvec in
/-- C27: and every measured pair of objects has its true relative pose `(W f b)⁻¹ W f a` at the frame of
the measurement; hence all measurements of a pair agree if the two objects are rigidly linked. -/
theorem C27_pairs (a b : Nat) (zs : List G)
    (h : OMap.get? (objectPairs ofVec (objectPoses toVec avg t oo pose) t oo) (a, b) = some zs) :
    zs ≠ [] ∧ ∀ z ∈ zs, ∃ f ∈ frames, z = (W f b)⁻¹ * W f a := by
  obtain ⟨hne, hz⟩ := get?_objectPairs ofVec _ t oo ht h
  refine ⟨hne, fun z hzz => ?_⟩
  obtain ⟨i, f, is, p, q, h1, h2, h3, h4, h5, rfl⟩ := hz z hzz
  obtain ⟨g, hg, hf, _, _⟩ := (ht.obs i f is).1 h1
  obtain ⟨op, hop, rfl⟩ := Option.map_eq_some_iff.1 h4
  obtain ⟨oq, hoq, rfl⟩ := Option.map_eq_some_iff.1 h5
  refine ⟨f, hf, ?_⟩
  rw [C27_pose toVec avg havg oo frames t ht pose C W hcam hpose i f is g h1 hg p op h2 hop,
    C27_pose toVec avg havg oo frames t ht pose C W hcam hpose i f is g h1 hg q oq h3 hoq]
  simp only [Option.map_some, Option.getD_some, hvec]
  group

end

/-! ### The table of object pairs -/

section
variable [Group G] [SMul G Pt] (ofVec : V → G) (op : OMap (Nat × Nat) (OMap Nat V))
  (oo : List (ObjObs P)) (frames : List Nat) (t : GroupTables G)
  (ht : GroupObsOf oo frames t) (hfr : ∀ o ∈ oo, o.frame ∈ frames)
  {bpts : List (List Pt)} {objs : OMap Nat (Object G Pt)} (hC : Spec.Objects.Collection bpts objs)
  (hobj : ∀ o ∈ oo, o.obj ∈ OMap.keys objs)

include ht hfr hobj hC in
/-- The measured pairs of objects are the pairs of distinct objects seen in one frame by one group,
and meet the requirements of the merge (C24). -/
theorem objectTable : ObjectTable (observedObjects objs oo) (objectPairs ofVec op t oo) := by
  constructor
  · exact List.Pairwise.filter _ ((OMap.keys_sorted hC.sorted).imp fun h => by simpa [Key.lt] using h)
  · intro a b h
    exact ((mem_keys_objectPairs ofVec op t oo ht hfr a b).1 h).1
  · intro a b h
    rw [mem_keys_objectPairs ofVec op t oo ht hfr] at h ⊢
    obtain ⟨hne, i, g, x, y, h1, h2, h3, h4, h5, h6, h7, h8⟩ := h
    exact ⟨hne.symm, i, g, y, x, h1, h3, h2, h4.symm, h6, h5, h8, h7⟩
  · intro a b h
    rw [mem_keys_objectPairs ofVec op t oo ht hfr] at h
    obtain ⟨_, i, g, x, y, _, h2, _, _, _, _, h7, _⟩ := h
    exact mem_observedObjects.2 ⟨h7 ▸ hobj x h2, x, h2, h7⟩

omit [Group G] [SMul G Pt] in
private theorem ok_of {vs : List Nat} {t : PairTable G} (h : ObjectTable vs t) :
    TableOk vs t := ⟨h.increasing, h.ne, h.symm, h.observed⟩

include ht hfr hobj hC in
/-- C17 for objects: along the path used to place an object in its class every pairwise transform is
in the table, in the orientation looked up. -/
theorem C17_objects (avg : List G → G) (r b : Nat) (hr : r ∈ observedObjects objs oo)
    (hrb : ReflTransGen (SeenTogether t.groups oo) r b) (ch : Graph.DState → Nat) :
    ∃ p, (objectGraph objs oo (objectPairs ofVec op t oo)).shortestPathBetween ch r b = .ok p ∧
      IsPath (SeenTogether t.groups oo) r b p ∧
      ∀ e ∈ p.zip p.tail, ∃ x, OMap.get? (interTransform avg (objectPairs ofVec op t oo)) e = some x := by
  have hT := ok_of (objectTable ofVec op oo frames t ht hfr hC hobj)
  have hm : Measured (objectPairs ofVec op t oo) = SeenTogether t.groups oo := by
    funext a b
    exact propext (mem_keys_objectPairs ofVec op t oo ht hfr a b)
  rw [← hm] at hrb
  obtain ⟨p, h1, h2, _⟩ := hT.placement (fun x => x⁻¹) avg ch hr hrb
  have hg : objectGraph objs oo (objectPairs ofVec op t oo) = Graph.run
      (graphCalls (observedObjects objs oo) (tableEdges (objectPairs ofVec op t oo))) := by
    unfold objectGraph; rw [objectVertices_eq hC]
  refine ⟨p, by rw [hg]; exact h1, by rw [← hm]; exact h2, fun e he => ?_⟩
  obtain ⟨zs, hz⟩ := OMap.mem_keys.1 (isChain_consecutive h2.chain e he)
  exact ⟨avg zs, by rw [interTransform_get?, hz]; rfl⟩

include ht hfr hobj hC in
/-- C24, the merge of objects as the workflow performs it: whatever poses have been estimated, it
succeeds, the result is again a proper collection of objects, the merged objects are the classes of
observed objects linked by frames in which one camera group saw both, and contain exactly their
boards. -/
theorem C24_workflow (toVec : G → V) (avg : List V → V) (avgG : List G → G)
    (choose : Nat → Nat → Graph.DState → Nat) (pose : Nat → G) :
    ∃ m, merge3DObjects toVec ofVec avg avgG choose bpts objs t oo pose = .ok m ∧
      Spec.Objects.Collection bpts m ∧ OMap.keys m = List.range m.length ∧
      ∃ cs, IsPartition (SeenTogether t.groups oo) (observedObjects objs oo) cs ∧
        cs.length = m.length ∧
        ∀ i c, cs[i]? = some c → ∃ o, OMap.get? m i = some o ∧
          ∀ b, b ∈ OMap.keys o.boards ↔
            ∃ j ∈ c, ∃ oj, OMap.get? objs j = some oj ∧ b ∈ OMap.keys oj.boards := by
  have hT := objectTable ofVec (objectPoses toVec avg t oo pose) oo frames t ht hfr hC hobj
  obtain ⟨m, h1, h2, h3, cs, h4, h5, h6⟩ := Props.Objects.C24_merge hC _ _ hT
    (fun j hj => (mem_observedObjects.1 hj).1) avgG choose
  refine ⟨m, ?_, h2, h3, cs, ?_, h5, h6⟩
  · unfold merge3DObjects objectGraph
    rw [objectVertices_eq hC]
    exact h1
  · have hm : (fun a b => (a, b) ∈ OMap.keys (objectPairs ofVec (objectPoses toVec avg t oo pose) t oo)) =
        SeenTogether t.groups oo := by
      funext a b
      exact propext (mem_keys_objectPairs ofVec _ t oo ht hfr a b)
    rw [← hm]
    exact h4

include ht hfr hobj hC in
/-- C24, exactness of the workflow's merge: if camera poses are exact, object poses in cameras are
exact and the objects are parts of one rigid body (`W f j = R f * Q j`), then in the merged object with
reference object `r` each board of object `j` has pose `(Q r)⁻¹ Q j` composed with its pose in `j`. -/
theorem C24_workflow_exact (toVec : G → V) (hvec : ∀ g, ofVec (toVec g) = g)
    (avg : List V → V) (havg : ∀ (zs : List V) x, zs ≠ [] → (∀ z ∈ zs, z = x) → avg zs = x)
    (avgG : List G → G) (havgG : Averages avgG)
    (choose : Nat → Nat → Graph.DState → Nat) (pose : Nat → G) (C R Q : Nat → G)
    (hcam : ∀ i g c, OMap.get? t.groups i = some g → c ∈ OMap.keys g.cameras →
      OMap.get? g.poses c = some (C c * (C g.refCam)⁻¹))
    (hpose : ∀ (k : Nat) o, oo[k]? = some o → pose k = C o.cam * (R o.frame * Q o.obj))
    (m : OMap Nat (Object G Pt))
    (hm : merge3DObjects toVec ofVec avg avgG choose bpts objs t oo pose = .ok m)
    (i : Nat) (o : Object G Pt) (hio : OMap.get? m i = some o) :
    ∃ r ∈ observedObjects objs oo, (∃ ro, OMap.get? objs r = some ro ∧ ro.refBoard = o.refBoard) ∧
      ∀ j oj b g, OMap.get? objs j = some oj → b ∈ OMap.keys o.boards →
        OMap.get? oj.poses b = some g → OMap.get? o.poses b = some ((Q r)⁻¹ * Q j * g) := by
  have hT := objectTable ofVec (objectPoses toVec avg t oo pose) oo frames t ht hfr hC hobj
  have hz : ∀ a b zs, OMap.get? (objectPairs ofVec (objectPoses toVec avg t oo pose) t oo) (a, b) =
      some zs → zs ≠ [] ∧ ∀ z ∈ zs, z = (Q b)⁻¹ * Q a := by
    intro a b zs h
    obtain ⟨h1, h2⟩ := C27_pairs toVec ofVec hvec avg havg oo frames t ht pose C
      (fun f j => R f * Q j) hcam hpose a b zs h
    refine ⟨h1, fun z hz => ?_⟩
    obtain ⟨f, _, rfl⟩ := h2 z hz
    group
  unfold merge3DObjects objectGraph at hm
  rw [objectVertices_eq hC] at hm
  exact Props.Objects.C24_exact hC _ _ hT (fun j hj => (mem_observedObjects.1 hj).1) avgG havgG choose Q
    (fun k zs h => (hz k.1 k.2 zs h).1) (fun a b zs h => (hz a b zs h).2) m hm i o hio

end

/-! ### Concrete cases -/

/-- Observations of objects 5, 6, 5, 5 by cameras 1, 1, 2, 3; not adjacent. -/
def demoEntries : List (Entry (Vec6 Rat)) :=
  [⟨1, 5, ⟨0, 0, 0, 1, 0, 0⟩⟩, ⟨1, 6, ⟨0, 1, 0, 0, 0, 9⟩⟩, ⟨2, 5, ⟨0, 2, 1, 2, 0, 0⟩⟩,
   ⟨3, 5, ⟨0, 7, 0, 6, 3, 0⟩⟩]

/-- Without the reference camera 0: medians of rotations, means of translations. -/
example : (computeObjectsPose groupAverageVec 0 [] demoEntries).1 =
    [(5, ⟨0, 2, 0, 3, 1, 0⟩), (6, ⟨0, 1, 0, 0, 0, 9⟩)] := by decide +kernel

/-- With reference camera 2 its observation is taken. -/
example : OMap.get? (computeObjectsPose groupAverageVec 2 [] demoEntries).1 5 =
    some ⟨0, 2, 1, 2, 0, 0⟩ := by decide +kernel

example : 5 ∈ demoEntries.map (·.obj) ∧ byRef 0 demoEntries 5 = [] ∧
    ((byRef 2 demoEntries 5).getLast?).isSome ∧ runs 5 (demoEntries.map (·.obj)) = 2 := by
  decide +kernel

/-- Permutations of three points as poses. -/
abbrev S3 := Equiv.Perm (Fin 3)

/-- True camera poses. -/
def demoC : Nat → S3
  | 1 => Equiv.swap 0 1
  | _ => Equiv.swap 1 2

/-- True pose of the rigid body at each frame. -/
def demoR : Nat → S3
  | 0 => Equiv.swap 0 2
  | _ => 1

/-- True poses of the objects in the body. -/
def demoQ : Nat → S3
  | 0 => 1
  | _ => Equiv.swap 0 1 * Equiv.swap 1 2

/-- Board observations: frame 0 is seen by cameras 0 (board 0) and 1 (board 1), frame 1 by both
(board 0). The boards never appear together in one image. -/
def demo : List (Insertion Nat Nat) :=
  [⟨⟨0, 0, 0, [7], [0]⟩, 0⟩, ⟨⟨1, 0, 1, [8], [0]⟩, 0⟩, ⟨⟨0, 1, 0, [9], [0]⟩, 0⟩,
   ⟨⟨1, 1, 0, [5], [0]⟩, 0⟩]

/-- The tables of the demonstration. -/
def demoStore : Store Nat Nat :=
  match Store.run 2 2 demo with
  | .ok s => s
  | _ => Store.init 2 2

/-- The objects of the demonstration, {0} and {1}. -/
def demoObjs : OMap Nat (Object S3 (Fin 3)) :=
  match buildObjects demoStore (fun _ => 1) Props.Objects.firstOr [[2], [0]] (fun _ _ _ => 0) with
  | .ok o => o
  | _ => []

/-- Their observations. -/
def demoOo : List (ObjObs Nat) :=
  match initAllObjectObs demoStore demoObjs [] with
  | .ok o => o
  | _ => []

/-- Exact poses of the objects in the cameras. -/
def demoPose (k : Nat) : S3 :=
  match demoOo[k]? with
  | some o => demoC o.cam * (demoR o.frame * demoQ o.obj)
  | none => 1

/-- The camera groups and their observations. -/
def demoGroups : GroupTables S3 :=
  match buildGroups demoStore demoOo demoPose Props.Objects.firstOr (fun _ _ _ => 0) with
  | .ok gs => match mergeAllCameraGroupObs demoOo [0, 1] { groups := gs } with
    | .ok t => t
    | _ => { groups := [] }
  | _ => { groups := [] }

/-- The expected group. -/
def demoGroup : CamGroup S3 :=
  ⟨0, 0, [(0, ()), (1, ())], [0, 1], [(0, 1), (1, demoC 1 * (demoC 0)⁻¹)], [], []⟩

/-- The hypotheses of C17, C24 and C27 are met by the demonstration. -/
theorem demo_hypotheses : Collection demoGroups.groups ∧ GroupObsOf demoOo [0, 1] demoGroups ∧
    (∀ o ∈ demoOo, o.frame ∈ [0, 1]) ∧ Spec.Objects.Collection [[2], [0]] demoObjs ∧
    (∀ o ∈ demoOo, o.obj ∈ OMap.keys demoObjs) ∧
    (∀ i g c, OMap.get? demoGroups.groups i = some g → c ∈ OMap.keys g.cameras →
      OMap.get? g.poses c = some (demoC c * (demoC g.refCam)⁻¹)) ∧
    (∀ (k : Nat) o, demoOo[k]? = some o → demoPose k = demoC o.cam * (demoR o.frame * demoQ o.obj)) ∧
    SeenTogether demoGroups.groups demoOo 0 1 := by
  have hl : ∀ a ∈ demo, a.obs.cam < 2 ∧ a.obs.board < 2 := by decide
  have hs : Store.run 2 2 demo = .ok demoStore := by decide +kernel
  have ho : buildObjects demoStore (fun _ => (1 : S3)) Props.Objects.firstOr ([[2], [0]] : List (List (Fin 3)))
      (fun _ _ _ => 0) = .ok demoObjs := by decide +kernel
  have hC := Props.Objects.C24_initial 2 2 demo hl demoStore hs (fun _ => (1 : S3))
    Props.Objects.firstOr ([[2], [0]] : List (List (Fin 3))) rfl (fun _ _ _ => 0) demoObjs ho
  have hgs : ∃ gs, buildGroups demoStore demoOo demoPose Props.Objects.firstOr (fun _ _ _ => 0) = .ok gs ∧
      gs = [(0, demoGroup)] := by
    refine ⟨_, ?_, rfl⟩
    decide +kernel
  obtain ⟨gs, h1, h2⟩ := hgs
  have hCg : Collection gs := by
    subst h2
    have hk : ∀ i g, OMap.get? ([(0, demoGroup)] : OMap Nat (CamGroup S3)) i = some g →
        i = 0 ∧ g = demoGroup := by
      intro i g h
      simp only [OMap.get?] at h
      split at h
      · rename_i h'
        simp only [Option.some.injEq] at h
        exact ⟨h', h.symm⟩
      · cases h
    refine ⟨List.pairwise_singleton _ _, ?_, ?_, ?_, ?_, ?_, ?_, ?_, ?_, ?_, ?_⟩
    · rintro i g h; obtain ⟨rfl, rfl⟩ := hk i g h; rfl
    · rintro i g h; obtain ⟨rfl, rfl⟩ := hk i g h; unfold OMap.Sorted; decide
    · rintro i g h; obtain ⟨rfl, rfl⟩ := hk i g h; simp [demoGroup, OMap.Sorted, Key.lt]
    · rintro i g h; obtain ⟨rfl, rfl⟩ := hk i g h; rfl
    · rintro i g h; obtain ⟨rfl, rfl⟩ := hk i g h; exact List.Perm.refl _
    · rintro i j g g' h h' _ _ _; rw [(hk i g h).1, (hk j g' h').1]
    · rintro i g h; obtain ⟨rfl, rfl⟩ := hk i g h; decide
    · rintro i g h; obtain ⟨rfl, rfl⟩ := hk i g h; decide
    · rintro i g h; obtain ⟨rfl, rfl⟩ := hk i g h; rfl
    · rintro i j g g' h h' hij; rw [(hk i g h).1, (hk j g' h').1] at hij; omega
  obtain ⟨t, h3, h4, h5, h6, _⟩ := merge_groupObsOf demoOo [0, 1] (by decide) { groups := gs } hCg (by
    subst h2
    intro i g h
    simp only [OMap.get?] at h
    split at h
    · simp only [Option.some.injEq] at h
      subst h
      exact List.Pairwise.nil
    · cases h)
  have ht : demoGroups = t := by
    unfold demoGroups
    rw [h1]
    dsimp only
    rw [h3]
  subst ht
  refine ⟨h4, h5, by decide +kernel, hC, by decide +kernel, ?_, ?_, ?_⟩
  · intro i g c hg hc
    have := h6 i
    rw [hg, Option.map_some] at this
    dsimp only at this
    rw [h2] at this
    simp only [OMap.get?] at this
    split at this
    · simp only [Option.map_some, Option.some.injEq, Prod.mk.injEq] at this
      obtain ⟨q1, q2, q3⟩ := this
      rw [q1, q3]
      rw [q2] at hc
      simp only [demoGroup, OMap.keys, List.map_cons, List.map_nil, List.mem_cons, List.not_mem_nil, or_false] at hc
      rcases hc with rfl | rfl
      · simp [demoGroup, OMap.get?]
      · rfl
    · cases this
  · intro k o hk
    unfold demoPose
    rw [hk]
  · refine ⟨by decide, 0, (OMap.get? demoGroups.groups 0).getD ⟨0, 0, [], [], [], [], []⟩,
      (demoOo[0]?).getD ⟨0, 0, 0, [], [], [], []⟩, (demoOo[3]?).getD ⟨0, 0, 0, [], [], [], []⟩, ?_⟩
    decide +kernel

/-- The merged object: boards 0 and 1, the second with its true pose. -/
example : (match merge3DObjects id id (fun zs => Props.Objects.firstOr zs) Props.Objects.firstOr
      (fun _ _ _ => 0) [[2], [0]] demoObjs demoGroups demoOo demoPose with
    | .ok m => m.map fun e => (e.1, e.2.poses)
    | _ => []) = [(0, [(0, 1), (1, (demoQ 0)⁻¹ * demoQ 1)])] := by decide +kernel

end Verif.Props.GroupPose
