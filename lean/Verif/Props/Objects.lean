import Verif.Lemmas.ObjectsCollection
import Verif.Lemmas.ObjectsUpdate
import Verif.Lemmas.ObjectsObs
import Mathlib.Algebra.Group.End
import Mathlib.Algebra.Group.Action.End
import Mathlib.Data.Fintype.Perm

/-!
C11-C17 (boards), C24 (objects), C25: the 3D objects.

`l` is the list of stored board observations (calls of `insertNewBoard`), `pose i` the pose of the
`i`-th of them, in an arbitrary group `G` of poses acting on the points.
-/
namespace Verif.Props.Objects
open Verif Verif.Objects Verif.Structure Verif.Spec.Objects Verif.Spec.Structure Verif.Spec.Store
open Verif.Lemmas.Objects Verif.Lemmas.Structure Relation

variable {G Pt P Path : Type}

/-- `zs ↦ avg zs` gives back the common value of equal measurements. -/
def Averages (avg : List G → G) : Prop := ∀ zs x, zs ≠ [] → (∀ z ∈ zs, z = x) → avg zs = x

section
variable [Group G] [SMul G Pt] (nCam nBoard : Nat) (l : List (Insertion P Path))
  (hl : ∀ a ∈ l, a.obs.cam < nCam ∧ a.obs.board < nBoard) (s : Store P Path)
  (hs : Store.run nCam nBoard l = .ok s) (pose : Nat → G) (avg : List G → G)
  (bpts : List (List Pt)) (hb : bpts.length = nBoard) (choose : Nat → Nat → Graph.DState → Nat)

include hl hs in
private theorem desc : Describes nCam nBoard l s := by
  obtain ⟨s', h1, h2⟩ := Props.Store.C06_indexes nCam nBoard l hl
  rw [hs] at h1
  simp only [Outcome.ok.injEq] at h1
  subst h1
  exact h2

include hl hs hb in
/-- C11: building the objects succeeds, and their sets of boards are the partition of the observed
boards into classes linked by chains of joint sightings. -/
theorem C11_partition :
    ∃ objs, buildObjects s pose avg bpts choose = .ok objs ∧
      IsPartition (CoSeen l) (observedBoards nBoard l) (objs.map fun e => OMap.keys e.2.boards) := by
  obtain ⟨objs, h1, _, _, h4, _⟩ := buildObjects_ok (G := G) hl (desc nCam nBoard l hl s hs) pose avg
    bpts hb choose
  exact ⟨objs, h1, h4⟩

include hl hs hb in
/-- C11 spelled out: an observed board is in exactly one object, an unobserved one in none, and two
boards are in the same object iff linked by joint sightings. -/
theorem C11_member (objs : OMap Nat (Object G Pt))
    (ho : buildObjects s pose avg bpts choose = .ok objs) :
    (∀ b, (∃ a ∈ l, a.obs.board = b) → ∃ i o, OMap.get? objs i = some o ∧ b ∈ OMap.keys o.boards ∧
      ∀ j o', OMap.get? objs j = some o' → b ∈ OMap.keys o'.boards → j = i) ∧
    (∀ i o, OMap.get? objs i = some o → ∀ b ∈ OMap.keys o.boards, ∃ a ∈ l, a.obs.board = b) ∧
    (∀ i o, OMap.get? objs i = some o → ∀ a ∈ OMap.keys o.boards, ∀ b,
      b ∈ OMap.keys o.boards ↔ ReflTransGen (CoSeen l) a b) := by
  have hd := desc nCam nBoard l hl s hs
  obtain ⟨objs', h1, h2, h3, h4, _⟩ := buildObjects_ok (G := G) (Pt := Pt) hl hd pose avg bpts hb choose
  rw [ho] at h1
  simp only [Outcome.ok.injEq] at h1
  subst h1
  have hC := buildObjects_collection hl hd pose avg bpts hb choose objs ho
  refine ⟨?_, ?_, ?_⟩
  · rintro b ⟨a, ha, rfl⟩
    have hmem : a.obs.board ∈ (objs.map fun e => OMap.keys e.2.boards).flatten :=
      h4.perm.symm.subset (mem_observedBoards.2 ⟨(hl a ha).2, a, ha, rfl⟩)
    obtain ⟨c, hc, hbc⟩ := List.mem_flatten.1 hmem
    obtain ⟨⟨i, o⟩, he, rfl⟩ := List.mem_map.1 hc
    have hio := (OMap.get?_eq_some h2).2 he
    exact ⟨i, o, hio, hbc, fun j o' hj hbj => hC.disjoint j i o' o hj hio _ hbj hbc⟩
  · intro i o hio b hbo
    have := h4.perm.subset (List.mem_flatten.2 ⟨_, List.mem_map.2
      ⟨(i, o), (OMap.get?_eq_some h2).1 hio, rfl⟩, hbo⟩)
    exact (mem_observedBoards.1 this).2
  · intro i o hio a ha b
    exact h4.linked _ (List.mem_map.2 ⟨(i, o), (OMap.get?_eq_some h2).1 hio, rfl⟩) a ha b

include hl hs hb in
/-- C12: objects are numbered 0, 1, …; the reference board of an object is its least board, has the
identity pose, and reference boards increase with the object number. -/
theorem C12_reference (objs : OMap Nat (Object G Pt))
    (ho : buildObjects s pose avg bpts choose = .ok objs) :
    OMap.keys objs = List.range objs.length ∧
    (∀ i o, OMap.get? objs i = some o → o.id = i ∧ o.refBoard ∈ OMap.keys o.boards ∧
      (∀ b ∈ OMap.keys o.boards, o.refBoard ≤ b) ∧ OMap.get? o.poses o.refBoard = some 1) ∧
    ∀ i j o o', OMap.get? objs i = some o → OMap.get? objs j = some o' → i < j →
      o.refBoard < o'.refBoard := by
  have hd := desc nCam nBoard l hl s hs
  obtain ⟨objs', h1, h2, h3, h4, _⟩ := buildObjects_ok (G := G) (Pt := Pt) hl hd pose avg bpts hb choose
  rw [ho] at h1
  simp only [Outcome.ok.injEq] at h1
  subst h1
  have hC := buildObjects_collection hl hd pose avg bpts hb choose objs ho
  exact ⟨h3, fun i o hio => ⟨hC.id i o hio, hC.ref_mem i o hio, hC.ref_least i o hio,
    hC.ref_pose i o hio⟩, hC.ref_incr⟩

include hl hs hb in
/-- C13: if each joint sighting measures the true relative pose of its two boards (`Q b` being the true
pose of board `b`), then each board's pose in its object is its true pose relative to the reference
board, whatever shortest path is taken. -/
theorem C13_exact (havg : Averages avg) (Q : Nat → G)
    (hQ : ∀ (i j : Nat) a b, l[i]? = some a → l[j]? = some b → a.obs.cam = b.obs.cam →
      a.obs.frame = b.obs.frame → (pose j)⁻¹ * pose i = (Q b.obs.board)⁻¹ * Q a.obs.board)
    (objs : OMap Nat (Object G Pt)) (ho : buildObjects s pose avg bpts choose = .ok objs)
    (i : Nat) (o : Object G Pt) (hio : OMap.get? objs i = some o) (b : Nat)
    (hbo : b ∈ OMap.keys o.boards) :
    OMap.get? o.poses b = some ((Q o.refBoard)⁻¹ * Q b) := by
  have hd := desc nCam nBoard l hl s hs
  obtain ⟨objs', h1, h2, h3, h4, h5⟩ := buildObjects_ok (G := G) (Pt := Pt) hl hd pose avg bpts hb choose
  rw [ho] at h1
  simp only [Outcome.ok.injEq] at h1
  subst h1
  have hm := h5 i o hio
  obtain ⟨x, hx, hp⟩ := hm.pose b hbo
  have hT := boards_tableOk hl hd pose
  have hin : OMap.keys o.boards ∈ objs.map fun e => OMap.keys e.2.boards :=
    List.mem_map.2 ⟨(i, o), (OMap.get?_eq_some h2).1 hio, rfl⟩
  have hmem : o.refBoard ∈ observedBoards nBoard l := h4.perm.subset (List.mem_flatten.2
    ⟨_, hin, mem_of_head? hm.ref⟩)
  have hlink := (h4.linked _ hin o.refBoard (mem_of_head? hm.ref) b).1 hbo
  rw [← measured_boards hd pose] at hlink
  have := hT.placement_exact (fun x => x⁻¹) avg (choose o.refBoard b) hmem hlink Q (by
    intro x y zs _ hz
    obtain ⟨hne, hzs⟩ := get?_boardPairs hd pose hz
    rw [havg zs ((Q y)⁻¹ * Q x) hne, mul_inv_rev, inv_inv]
    intro z hzz
    obtain ⟨i, j, p, q, q1, q2, q3, q4, rfl, rfl, rfl⟩ := hzs z hzz
    exact hQ i j p q q1 q2 q3 q4)
  have hg : boardGraph s (boardPairs s pose) = Graph.run (graphCalls (observedBoards nBoard l)
      (tableEdges (boardPairs s pose))) := by
    unfold boardGraph; rw [boardVertices_eq hd]
  rw [hg, this] at hx
  simp only [Outcome.ok.injEq] at hx
  rw [hp, hx]

include hl hs hb in
/-- C14: the point numbering of every object is a bijection. -/
theorem C14_numbering (objs : OMap Nat (Object G Pt))
    (ho : buildObjects s pose avg bpts choose = .ok objs) (i : Nat) (o : Object G Pt)
    (hio : OMap.get? objs i = some o) :
    Numbering (fun b => ((bpts[b]?).map List.length).getD 0) o :=
  ((buildObjects_collection hl (desc nCam nBoard l hl s hs) pose avg bpts hb choose objs ho).good i o
    hio).numbering

include hl hs hb in
/-- C15, after initialisation: every object point is the board's pose applied to its corner. -/
theorem C15_initial (objs : OMap Nat (Object G Pt))
    (ho : buildObjects s pose avg bpts choose = .ok objs) (i : Nat) (o : Object G Pt)
    (hio : OMap.get? objs i = some o) : Posed bpts o :=
  ((buildObjects_collection hl (desc nCam nBoard l hl s hs) pose avg bpts hb choose objs ho).good i o
    hio).posed

include hl hs in
/-- C17 for boards: along the path to each member of a component all pairwise transforms are in the
table, in the orientation looked up. -/
theorem C17_boards (r b : Nat) (hr : r ∈ observedBoards nBoard l)
    (hrb : ReflTransGen (CoSeen l) r b) (ch : Graph.DState → Nat) :
    ∃ p, (boardGraph s (boardPairs s pose)).shortestPathBetween ch r b = .ok p ∧
      IsPath (CoSeen l) r b p ∧
      ∀ e ∈ p.zip p.tail, ∃ x, OMap.get? (interTransform avg (boardPairs s pose)) e = some x := by
  have hd := desc nCam nBoard l hl s hs
  have hT := boards_tableOk hl hd pose
  rw [← measured_boards hd pose] at hrb
  obtain ⟨p, h1, h2, _⟩ := hT.placement (fun x => x⁻¹) avg ch hr hrb
  have hg : boardGraph s (boardPairs s pose) = Graph.run (graphCalls (observedBoards nBoard l)
      (tableEdges (boardPairs s pose))) := by
    unfold boardGraph; rw [boardVertices_eq hd]
  refine ⟨p, by rw [hg]; exact h1, by rw [← measured_boards hd pose]; exact h2, fun e he => ?_⟩
  obtain ⟨zs, hz⟩ := OMap.mem_keys.1 (isChain_consecutive h2.chain e he)
  exact ⟨avg zs, by rw [interTransform_get?, hz]; rfl⟩

end

/-! ### After refinement -/

/-- C15, after refinement: whatever poses a refinement has put into an object, recomputing the points
terminates, changes nothing but the points and makes every point the new pose of its board applied to
the corner; the numbering is as before. -/
theorem C15_update [Group G] [SMul G Pt] (bpts : List (List Pt)) (o : Object G Pt) (h : Good bpts o)
    (poses' : OMap Nat G) (hs' : OMap.Sorted poses')
    (hk' : OMap.keys poses' = OMap.keys o.poses) :
    ∃ o', updateObjectPts bpts { o with poses := poses' } = .ok o' ∧
      o' = { o with poses := poses', pts := o'.pts } ∧ Good bpts o' := by
  obtain ⟨pts', h1, h2⟩ := updateObjectPts_good o h poses' hs' hk'
  exact ⟨_, h1, rfl, h2⟩

/-! ### Merging -/

section
variable [Group G] [SMul G Pt] {bpts : List (List Pt)} {objs : OMap Nat (Object G Pt)}

/-- The collection made by `buildObjects` satisfies the invariant kept by merging. -/
theorem C24_initial (nCam nBoard : Nat) (l : List (Insertion P Path))
    (hl : ∀ a ∈ l, a.obs.cam < nCam ∧ a.obs.board < nBoard) (s : Store P Path)
    (hs : Store.run nCam nBoard l = .ok s) (pose : Nat → G) (avg : List G → G)
    (bpts : List (List Pt)) (hb : bpts.length = nBoard) (choose : Nat → Nat → Graph.DState → Nat)
    (objs : OMap Nat (Object G Pt)) (ho : buildObjects s pose avg bpts choose = .ok objs) :
    Collection bpts objs :=
  buildObjects_collection hl (desc nCam nBoard l hl s hs) pose avg bpts hb choose objs ho

/-- Measured pairs of objects: distinct observed objects, and a pair is measured in both
orientations (each view compares all ordered pairs of its objects). -/
structure ObjectTable (vs : List Nat) (t : PairTable G) : Prop where
  increasing : vs.Pairwise (· < ·)
  ne : ∀ a b, (a, b) ∈ OMap.keys t → a ≠ b
  symm : ∀ a b, (a, b) ∈ OMap.keys t → (b, a) ∈ OMap.keys t
  observed : ∀ a b, (a, b) ∈ OMap.keys t → a ∈ vs

private theorem ObjectTable.ok {vs : List Nat} {t : PairTable G} (h : ObjectTable vs t) :
    TableOk vs t := ⟨h.increasing, h.ne, h.symm, h.observed⟩

/-- C24: merging the observed objects `vs` along the measured pairs `t` succeeds; the result again
satisfies the collection invariant (disjoint objects, least reference board with identity pose,
bijective numbering, posed points); its objects correspond to the classes of linked observed objects
and contain exactly the boards of the objects of their class. -/
theorem C24_merge (hC : Collection bpts objs) (vs : List Nat) (t : PairTable G)
    (hT : ObjectTable vs t) (hvs : ∀ j ∈ vs, j ∈ OMap.keys objs) (avg : List G → G)
    (choose : Nat → Nat → Graph.DState → Nat) :
    ∃ m, mergeObjects bpts objs (interTransform avg t) (Graph.run (graphCalls vs (tableEdges t)))
        choose = .ok m ∧ Collection bpts m ∧ OMap.keys m = List.range m.length ∧
      ∃ cs, IsPartition (fun a b => (a, b) ∈ OMap.keys t) vs cs ∧ cs.length = m.length ∧
        ∀ i c, cs[i]? = some c → ∃ o, OMap.get? m i = some o ∧
          ∀ b, b ∈ OMap.keys o.boards ↔
            ∃ j ∈ c, ∃ oj, OMap.get? objs j = some oj ∧ b ∈ OMap.keys oj.boards := by
  obtain ⟨m, pl, h1, h2, h3, _, cs, h5, h6, h7⟩ := mergeObjects_ok hC hT.ok hvs avg choose
  refine ⟨m, h1, h2, h3, cs, h5, h6, fun i c hc => ?_⟩
  obtain ⟨o, h8, h9⟩ := h7 i c hc
  exact ⟨o, h8, h9.keys⟩

/-- C24, exact poses: if every measured pair has the true relative pose of the two objects (`Q j` the
true pose of object `j`), then in the merged object with reference object `r` each board of object `j`
has the pose `(Q r)⁻¹ Q j` composed with its pose in `j`. -/
theorem C24_exact (hC : Collection bpts objs) (vs : List Nat) (t : PairTable G)
    (hT : ObjectTable vs t) (hvs : ∀ j ∈ vs, j ∈ OMap.keys objs) (avg : List G → G)
    (havg : Averages avg) (choose : Nat → Nat → Graph.DState → Nat) (Q : Nat → G)
    (hne : ∀ k zs, OMap.get? t k = some zs → zs ≠ [])
    (hQ : ∀ a b zs, OMap.get? t (a, b) = some zs → ∀ z ∈ zs, z = (Q b)⁻¹ * Q a)
    (m : OMap Nat (Object G Pt))
    (hm : mergeObjects bpts objs (interTransform avg t) (Graph.run (graphCalls vs (tableEdges t)))
        choose = .ok m) (i : Nat) (o : Object G Pt) (hio : OMap.get? m i = some o) :
    ∃ r ∈ vs, (∃ ro, OMap.get? objs r = some ro ∧ ro.refBoard = o.refBoard) ∧
      ∀ j oj b g, OMap.get? objs j = some oj → b ∈ OMap.keys o.boards →
        OMap.get? oj.poses b = some g → OMap.get? o.poses b = some ((Q r)⁻¹ * Q j * g) := by
  obtain ⟨m', pl, h1, h2, h3, h4, cs, h5, h6, h7⟩ := mergeObjects_ok hC hT.ok hvs avg choose
  rw [hm] at h1
  simp only [Outcome.ok.injEq] at h1
  subst h1
  have hi : i < cs.length := by
    have : i ∈ OMap.keys m := OMap.mem_keys.2 ⟨o, hio⟩
    rw [h3, List.mem_range] at this; omega
  obtain ⟨o', h8, h9⟩ := h7 i cs[i] (List.getElem?_eq_getElem hi)
  rw [hio] at h8
  simp only [Option.some.injEq] at h8
  subst h8
  obtain ⟨r, ro, hr, hro, hre⟩ := h9.ref
  have hci : cs[i] ∈ cs := List.getElem_mem hi
  have hrv : r ∈ vs := h5.perm.subset (List.mem_flatten.2 ⟨_, hci, mem_of_head? hr⟩)
  refine ⟨r, hrv, ⟨ro, hro, hre.symm⟩, ?_⟩
  intro j oj b g hoj hbo hg
  have hbj : b ∈ OMap.keys oj.boards := by
    rw [← (hC.good j oj hoj).posed.keys]; exact OMap.mem_keys.2 ⟨g, hg⟩
  obtain ⟨j', hj', oj', q1, q2⟩ := (h9.keys b).1 hbo
  have := hC.disjoint j j' oj oj' hoj q1 b hbj q2
  subst this
  obtain ⟨r', hr', hp⟩ := h9.pose j hj' oj hoj b g hg
  rw [hr] at hr'
  simp only [Option.some.injEq] at hr'
  subst hr'
  have hlink := (h5.linked _ hci r (mem_of_head? hr) j).1 hj'
  have e1 := h4 r hrv j hlink
  rw [hT.ok.placement_exact (fun x => x⁻¹) avg (choose r j) hrv hlink Q (by
    intro x y zs _ hz
    show (avg zs)⁻¹ = _
    rw [havg zs ((Q y)⁻¹ * Q x) (hne _ _ hz) (hQ x y zs hz), mul_inv_rev, inv_inv])] at e1
  simp only [Outcome.ok.injEq] at e1
  rw [hp, ← e1]

end

/-! ### Object observations -/

/-- C16: the object observations are, object by object and in order of (camera, frame), exactly those
with a seen corner, each listing the pixels and the object numbers of all corners of the object's
boards seen by that camera in that frame (`s'` is `s` with possibly fewer points kept in the
observations). -/
theorem C16_observations [Group G] [SMul G Pt] (nCam nBoard : Nat) (l : List (Insertion P Path))
    (hl : ∀ a ∈ l, a.obs.cam < nCam ∧ a.obs.board < nBoard) (s : Store P Path)
    (hs : Store.run nCam nBoard l = .ok s) (obs' : List (BoardObs P)) (hobs : SameViews s.obs obs')
    (bpts : List (List Pt)) (objs : OMap Nat (Object G Pt)) (hC : Collection bpts objs) :
    initAllObjectObs { s with obs := obs' } objs [] =
      .ok (objs.flatMap fun e => allObjObs e.2 obs' (OMap.keys s.camObs)) := by
  have := initAllObjectObs_ok (s := s) (s' := { s with obs := obs' })
    ⟨desc nCam nBoard l hl s hs, rfl, hobs⟩ (size := cornerCount bpts) objs (fun e he =>
      (hC.good e.1 e.2 ((OMap.get?_eq_some hC.sorted).2 he)).numbering) []
  simpa using this

/-- C16: an object observation of object `o` by camera `c` in frame `f` exists iff that camera saw a
point of a board of the object in that frame, and there is only one. -/
theorem C16_iff [Group G] [SMul G Pt] (nCam nBoard : Nat) (l : List (Insertion P Path))
    (hl : ∀ a ∈ l, a.obs.cam < nCam ∧ a.obs.board < nBoard) (s : Store P Path)
    (hs : Store.run nCam nBoard l = .ok s) (obs' : List (BoardObs P)) (hobs : SameViews s.obs obs')
    (bpts : List (List Pt)) (objs : OMap Nat (Object G Pt)) (hC : Collection bpts objs)
    (all : List (ObjObs P)) (hall : initAllObjectObs { s with obs := obs' } objs [] = .ok all) :
    (all.map fun oo => (oo.obj, oo.cam, oo.frame)).Nodup ∧
    ∀ i c f, (∃ oo ∈ all, oo.obj = i ∧ oo.cam = c ∧ oo.frame = f) ↔
      ∃ o, OMap.get? objs i = some o ∧ ∃ bo ∈ obs', bo.cam = c ∧ bo.frame = f ∧
        bo.board ∈ OMap.keys o.boards ∧ bo.pts ≠ [] := by
  rw [C16_observations nCam nBoard l hl s hs obs' hobs bpts objs hC] at hall
  simp only [Outcome.ok.injEq] at hall
  have hd := desc nCam nBoard l hl s hs
  have hmem : ∀ oo, oo ∈ all ↔ ∃ i o, OMap.get? objs i = some o ∧ ∃ v ∈ OMap.keys s.camObs,
      oo = objObs o obs' v.1 v.2 ∧ oo.pts ≠ [] := by
    intro oo
    rw [← hall, List.mem_flatMap]
    simp only [allObjObs, List.mem_filter, List.mem_map, decide_eq_true_eq]
    constructor
    · rintro ⟨⟨i, o⟩, he, ⟨v, hv, rfl⟩, hp⟩
      exact ⟨i, o, (OMap.get?_eq_some hC.sorted).2 he, v, hv, rfl, hp⟩
    · rintro ⟨i, o, he, v, hv, rfl, hp⟩
      exact ⟨(i, o), (OMap.get?_eq_some hC.sorted).1 he, ⟨v, hv, rfl⟩, hp⟩
  refine ⟨?_, ?_⟩
  · rw [← hall, List.map_flatMap, List.nodup_flatMap]
    constructor
    · rintro ⟨i, o⟩ _
      unfold allObjObs
      have hsub : ((((OMap.keys s.camObs).map fun v => objObs o obs' v.1 v.2).filter fun oo =>
          decide (oo.pts ≠ [])).map fun oo => (oo.obj, oo.cam, oo.frame)).Sublist
          ((OMap.keys s.camObs).map fun v => (o.id, v.1, v.2)) := by
        have := (List.filter_sublist (p := fun oo : ObjObs P => decide (oo.pts ≠ []))
          (l := (OMap.keys s.camObs).map fun v => objObs o obs' v.1 v.2)).map
          (fun oo => (oo.obj, oo.cam, oo.frame))
        rw [List.map_map] at this
        exact this
      apply List.Nodup.sublist hsub
      apply List.Nodup.map _ (OMap.keys_nodup hd.camObs_sorted)
      intro v w h
      simp only [Prod.mk.injEq, true_and] at h
      exact Prod.ext h.1 h.2
    · have hpw : objs.Pairwise fun a b => Key.lt a.1 b.1 = true := hC.sorted
      refine List.Pairwise.imp_of_mem ?_ hpw
      rintro ⟨i, o⟩ ⟨j, o'⟩ hi hj hlt x hx hx'
      simp only [allObjObs, List.mem_map, List.mem_filter] at hx hx'
      obtain ⟨_, ⟨⟨v, _, rfl⟩, _⟩, rfl⟩ := hx
      obtain ⟨_, ⟨⟨w, _, rfl⟩, _⟩, h⟩ := hx'
      have h1 := hC.id i o ((OMap.get?_eq_some hC.sorted).2 hi)
      have h2 := hC.id j o' ((OMap.get?_eq_some hC.sorted).2 hj)
      simp only [objObs, Prod.mk.injEq] at h
      rw [h1, h2] at h
      exact OMap.lt_ne hlt h.1.symm
  · intro i c f
    constructor
    · rintro ⟨oo, hoo, h1, h2, h3⟩
      obtain ⟨j, o, hj, v, hv, rfl, hp⟩ := (hmem oo).1 hoo
      have hid := hC.id j o hj
      change o.id = i at h1
      change v.1 = c at h2
      change v.2 = f at h3
      have hji : j = i := hid.symm.trans h1
      refine ⟨o, by rw [← hji]; exact hj, ?_⟩
      rw [List.ne_nil_iff_exists_cons] at hp
      obtain ⟨p, ps, hp⟩ := hp
      have hpm : p ∈ (objObs o obs' v.1 v.2).pts := by rw [hp]; simp
      unfold objObs at hpm
      obtain ⟨bo, hbo, hpb⟩ := List.mem_flatMap.1 hpm
      obtain ⟨k, hk, hk'⟩ := List.mem_filterMap.1 hbo
      unfold seenOf at hk
      obtain ⟨bo', e1, e2⟩ := (Store.positions_get _ _ _).1 hk
      rw [hk'] at e1
      simp only [Option.some.injEq] at e1
      subst e1
      simp only [Bool.and_eq_true, beq_iff_eq, decide_eq_true_eq] at e2
      exact ⟨bo, List.mem_of_getElem? hk', e2.1.1.trans h2, e2.1.2.trans h3, e2.2,
        List.ne_nil_of_mem hpb⟩
    · rintro ⟨o, ho, bo, hbo, rfl, rfl, hb, hp⟩
      refine ⟨objObs o obs' bo.cam bo.frame, (hmem _).2 ⟨i, o, ho, (bo.cam, bo.frame), ?_, rfl, ?_⟩,
        hC.id i o ho, rfl, rfl⟩
      · have hk : (bo.cam, bo.frame, bo.board) ∈ s.obs.map fun o => (o.cam, o.frame, o.board) := by
          rw [← hobs.keys]; exact List.mem_map.2 ⟨bo, hbo, rfl⟩
        obtain ⟨o1, ho1, he⟩ := List.mem_map.1 hk
        rw [hd.obs] at ho1
        obtain ⟨a, ha, rfl⟩ := List.mem_map.1 ho1
        simp only [Prod.mk.injEq] at he
        exact (hd.camObs_key _ _).2 ⟨a, ha, he.1, he.2.1⟩
      · obtain ⟨k, hk⟩ := List.mem_iff_getElem?.1 hbo
        obtain ⟨p, ps, hp'⟩ := List.ne_nil_iff_exists_cons.1 hp
        apply List.ne_nil_of_mem (a := p)
        unfold objObs
        refine List.mem_flatMap.2 ⟨bo, List.mem_filterMap.2 ⟨k, ?_, hk⟩, by rw [hp']; simp⟩
        unfold seenOf
        exact (Store.positions_get _ _ _).2 ⟨bo, hk, by simp [hb]⟩

/-- C16: a corner id outside the board is taken to be object point 0. -/
theorem C16_bad_corner [Group G] [SMul G Pt] (bpts : List (List Pt)) (o : Object G Pt)
    (h : Good bpts o) (oo : ObjObs P) (i : Nat) (bo : BoardObs P)
    (hal : bo.pts.length = bo.ids.length) :
    ∃ oo', insertBoardObs o oo i bo = .ok oo' ∧ oo'.ids = oo.ids ++ bo.ids.map fun k =>
      if k < ((bpts[bo.board]?).map List.length).getD 0 ∧ bo.board ∈ OMap.keys o.boards then
        o.o2b.idxOf (bo.board, k) else 0 := by
  unfold insertBoardObs
  rw [if_neg (by omega)]
  refine ⟨_, rfl, ?_⟩
  show oo.ids ++ _ = _
  rw [hal, List.take_length]
  congr 1
  apply List.map_congr_left
  intro k _
  rw [b2o_objNumber h.numbering]
  unfold objNumber
  have := h.numbering.mem bo.board k
  unfold cornerCount at this
  by_cases hk : (bo.board, k) ∈ o.o2b
  · rw [if_pos hk, if_pos ⟨(this.1 hk).2, (this.1 hk).1⟩]
  · rw [if_neg hk, if_neg]
    exact fun h' => hk (this.2 ⟨h'.2, h'.1⟩)

/-- C25: after merging, the list of object observations is the list of `C16_observations` repeated once
per object; so each observation occurs exactly as many times as there are merged objects. -/
theorem C25_duplicates [Group G] [SMul G Pt] (nCam nBoard : Nat) (l : List (Insertion P Path))
    (hl : ∀ a ∈ l, a.obs.cam < nCam ∧ a.obs.board < nBoard) (s : Store P Path)
    (hs : Store.run nCam nBoard l = .ok s) (obs' : List (BoardObs P)) (hobs : SameViews s.obs obs')
    (bpts : List (List Pt)) (objs : OMap Nat (Object G Pt)) (hC : Collection bpts objs)
    [DecidableEq P] :
    ∃ all once, mergeAllObjectObs { s with obs := obs' } objs = .ok all ∧
      initAllObjectObs { s with obs := obs' } objs [] = .ok once ∧
      all = (List.replicate objs.length once).flatten ∧
      ∀ oo ∈ once, all.count oo = objs.length := by
  have h1 := C16_observations nCam nBoard l hl s hs obs' hobs bpts objs hC
  have h2 := mergeAllObjectObs_ok (s := s) (s' := { s with obs := obs' })
    ⟨desc nCam nBoard l hl s hs, rfl, hobs⟩ (size := cornerCount bpts) objs (fun e he =>
      (hC.good e.1 e.2 ((OMap.get?_eq_some hC.sorted).2 he)).numbering)
  refine ⟨_, _, h2, h1, rfl, fun oo hoo => ?_⟩
  have hnd := (C16_iff nCam nBoard l hl s hs obs' hobs bpts objs hC _ h1).1
  rw [List.count_flatten, List.map_replicate, List.sum_replicate,
    List.count_eq_one_of_mem (List.Nodup.of_map _ hnd) hoo]
  simp

/-! ### A concrete case

Poses are permutations of three points (a non-commutative group).  Boards 1-3 and 3-4 are seen
together, board 0 alone, board 2 never. -/

/-- A list of calls of `insertNewBoard`. -/
def demo : List (Insertion Nat Nat) :=
  [⟨⟨0, 0, 1, [7], [0]⟩, 0⟩, ⟨⟨0, 0, 3, [8], [0]⟩, 0⟩, ⟨⟨1, 0, 3, [9], [0]⟩, 0⟩,
   ⟨⟨1, 0, 4, [5, 6], [1, 0]⟩, 0⟩, ⟨⟨0, 1, 0, [4], [1]⟩, 0⟩]

/-- True board poses. -/
def demoQ : Nat → Equiv.Perm (Fin 3)
  | 1 => Equiv.swap 0 1
  | 3 => Equiv.swap 1 2
  | 4 => Equiv.swap 0 1 * Equiv.swap 1 2
  | _ => 1

/-- Exact poses of the five observations (camera 0 is at the origin, camera 1 is rotated). -/
def demoPose (i : Nat) : Equiv.Perm (Fin 3) :=
  match i with
  | 0 => demoQ 1
  | 1 => demoQ 3
  | 2 => Equiv.swap 0 2 * demoQ 3
  | 3 => Equiv.swap 0 2 * demoQ 4
  | _ => 1

/-- Board models. -/
def demoPts : List (List (Fin 3)) := [[0, 1], [1], [2], [0], [1, 2]]

/-- An average which is right for equal measurements. -/
def firstOr (zs : List (Equiv.Perm (Fin 3))) : Equiv.Perm (Fin 3) := zs.headD 1

theorem firstOr_averages : Averages firstOr := by
  intro zs x hne h
  cases zs with
  | nil => exact absurd rfl hne
  | cons z zs => exact h z (by simp)

/-- The tables of the demonstration. -/
def demoStore : Store Nat Nat :=
  match Store.run 2 5 demo with
  | .ok s => s
  | _ => Store.init 2 5

theorem demo_run : Store.run 2 5 demo = .ok demoStore := by decide

example : (∀ a ∈ demo, a.obs.cam < 2 ∧ a.obs.board < 5) ∧ demoPts.length = 5 ∧
    ∀ (i j : Nat) a b, demo[i]? = some a → demo[j]? = some b → a.obs.cam = b.obs.cam →
      a.obs.frame = b.obs.frame →
      (demoPose j)⁻¹ * demoPose i = (demoQ b.obs.board)⁻¹ * demoQ a.obs.board := by
  refine ⟨by decide, rfl, ?_⟩
  intro i j a b hi hj
  have hi' : i < 5 := (List.getElem?_eq_some_iff.1 hi).1
  have hj' : j < 5 := (List.getElem?_eq_some_iff.1 hj).1
  have ea := (List.getElem?_eq_some_iff.1 hi).2
  have eb := (List.getElem?_eq_some_iff.1 hj).2
  rw [← ea, ← eb]
  have : ∀ i j : Fin 5, demo[i].obs.cam = demo[j].obs.cam → demo[i].obs.frame = demo[j].obs.frame →
      (demoPose j)⁻¹ * demoPose i = (demoQ demo[j].obs.board)⁻¹ * demoQ demo[i].obs.board := by
    decide +kernel
  exact this ⟨i, hi'⟩ ⟨j, hj'⟩

/-- The objects of the demonstration: boards {0} and {1, 3, 4}, points numbered board by board. -/
example : (match buildObjects demoStore demoPose firstOr demoPts (fun _ _ _ => 0) with
    | .ok objs => objs.map fun e => (OMap.keys e.2.boards, e.2.o2b, e.2.pts)
    | _ => ([] : List (List Nat × List (Nat × Nat) × List (Fin 3)))) =
    [([0], [(0, 0), (0, 1)], [0, 1]),
     ([1, 3, 4], [(1, 0), (3, 0), (4, 0), (4, 1)],
       [(1 : Fin 3), (demoQ 1)⁻¹ (demoQ 3 0), (demoQ 1)⁻¹ (demoQ 4 1), (demoQ 1)⁻¹ (demoQ 4 2)])] := by
  decide +kernel

/-- Object observations of the demonstration. -/
example : (match buildObjects demoStore demoPose firstOr demoPts (fun _ _ _ => 0) with
    | .ok objs => match initAllObjectObs demoStore objs [] with
      | .ok all => all.map fun oo => (oo.obj, oo.cam, oo.frame, oo.pts, oo.ids)
      | _ => []
    | _ => []) =
    [(0, 0, 1, [4], [1]), (1, 0, 0, [7, 8], [0, 1]), (1, 1, 0, [9, 5, 6], [1, 3, 2])] := by
  decide +kernel

/-- A table that merges objects 0 and 1 satisfies the hypotheses of C24, and gives one object with
four boards whose reference board is 0. -/
example : ObjectTable [0, 1] ([((0, 1), [demoQ 3]), ((1, 0), [(demoQ 3)⁻¹])] : PairTable _) ∧
    (match buildObjects demoStore demoPose firstOr demoPts (fun _ _ _ => 0) with
    | .ok objs => match mergeObjects demoPts objs (interTransform firstOr
          [((0, 1), [demoQ 3]), ((1, 0), [(demoQ 3)⁻¹])]) (Graph.run (graphCalls [0, 1] (tableEdges
          ([((0, 1), [demoQ 3]), ((1, 0), [(demoQ 3)⁻¹])] : PairTable _)))) (fun _ _ _ => 0) with
      | .ok m => m.map fun e => (e.1, OMap.keys e.2.boards, e.2.refBoard, e.2.nbBoards, e.2.nbPts)
      | _ => []
    | _ => []) = [(0, [0, 1, 3, 4], 0, 4, 6)] := by
  constructor
  · refine ⟨by decide, ?_, ?_, ?_⟩ <;> intro a b h <;> simp [OMap.keys] at h ⊢ <;> omega
  · decide +kernel

end Verif.Props.Objects
