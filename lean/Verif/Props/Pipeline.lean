import Verif.Lemmas.Pipeline
import Verif.Props.NonOverlap
import Verif.Lemmas.StaleMerge
import Verif.Spec.Pipeline

/-!
C52-C54: the stages of calibrate.cpp one after the other.
-/
namespace Verif.Props.Pipeline
open Verif Verif.Structure Verif.Objects Verif.Groups Verif.GroupPose Verif.NonOverlap Verif.Pipeline
open Verif.Spec.Groups Verif.Spec.Structure Verif.Spec.NonOverlap Verif.Spec.Pipeline Verif.Lemmas.Pipeline
open Verif.Props.NonOverlap
open Relation

variable {V G Pt P Path : Type}

section
variable [Group G] [SMul G Pt] [DecidableEq P] (nCam nBoard : Nat) (l : List (Insertion P Path))
  (hl : ∀ a ∈ l, a.obs.cam < nCam ∧ a.obs.board < nBoard) (s : Store P Path)
  (hs : Store.run nCam nBoard l = .ok s) (obs : List (BoardObs P))
  (hobs : Spec.Objects.SameViews s.obs obs) (bpts : List (List Pt)) (hb : bpts.length = nBoard)
  (n : Numerics V G)

omit [DecidableEq P] in
include hl hs hobs in
theorem bothSee_eq (r objs : OMap Nat (Object G Pt)) (hr : OMap.Sorted r)
    (hp : IsPartition (Spec.Objects.CoSeen l) (Spec.Objects.observedBoards nBoard l)
      (r.map fun e => OMap.keys e.2.boards))
    (hk : OMap.keys r = OMap.keys objs)
    (hso : ∀ i o', OMap.get? r i = some o' → ∃ o, OMap.get? objs i = some o ∧ SameObject o o') :
    Props.Groups.BothSee obs objs = CamsLinked l obs := by
  have hd := store_desc nCam nBoard l hl s hs
  have hboards : ∀ i o, OMap.get? objs i = some o → OMap.keys o.boards ∈ r.map fun e => OMap.keys e.2.boards := by
    intro i o ho
    have : i ∈ OMap.keys r := by rw [hk]; exact OMap.mem_keys.2 ⟨o, ho⟩
    obtain ⟨o', ho'⟩ := OMap.mem_keys.1 this
    obtain ⟨o2, h2, hs2⟩ := hso i o' ho'
    rw [ho] at h2
    simp only [Option.some.injEq] at h2
    subst h2
    exact List.mem_map.2 ⟨(i, o'), (OMap.get?_eq_some hr).1 ho', by rw [hs2.boards]⟩
  funext a b
  apply propext
  constructor
  · rintro ⟨hne, f, i, o, ho, ⟨x, hx, x1, x2, x3, x4⟩, ⟨y, hy, y1, y2, y3, y4⟩⟩
    exact ⟨hne, x, hx, y, hy, x1, y1, x2.trans y2.symm, x4, y4,
      (hp.linked _ (hboards i o ho) _ x3 _).1 y3⟩
  · rintro ⟨hne, x, hx, y, hy, x1, y1, hf, x4, y4, hlink⟩
    have hkx : (x.cam, x.frame, x.board) ∈ s.obs.map fun o => (o.cam, o.frame, o.board) := by
      rw [← hobs.keys]; exact List.mem_map.2 ⟨x, hx, rfl⟩
    obtain ⟨o1, ho1, he⟩ := List.mem_map.1 hkx
    rw [hd.obs] at ho1
    obtain ⟨ins, hins, rfl⟩ := List.mem_map.1 ho1
    simp only [Prod.mk.injEq] at he
    have hmem : x.board ∈ Spec.Objects.observedBoards nBoard l := by
      unfold Spec.Objects.observedBoards
      rw [List.mem_filter, List.mem_range, List.any_eq_true]
      exact ⟨by rw [← he.2.2]; exact (hl ins hins).2, ins, hins, by simpa using he.2.2⟩
    obtain ⟨c, hc, hxc⟩ := List.mem_flatten.1 (hp.perm.symm.subset hmem)
    have hyc := (hp.linked c hc _ hxc _).2 hlink
    obtain ⟨⟨i, o'⟩, he', rfl⟩ := List.mem_map.1 hc
    obtain ⟨o, ho, hs2⟩ := hso i o' ((OMap.get?_eq_some hr).2 he')
    dsimp only at hxc hyc
    rw [hs2.boards] at hxc hyc
    exact ⟨hne, x.frame, i, o, ho, ⟨x, hx, x1, rfl, hxc, x4⟩, ⟨y, hy, y1, hf.symm, hyc, y4⟩⟩

include hl hs hobs hb in
/-- C52: whatever the detections (of existing cameras and boards), the outlier removal and all numerical
results, the stages up to the merge of objects succeed, with tables that agree; the camera groups are
the classes of cameras that saw linked boards in common frames. -/
theorem C52_overlapping :
    ∃ st, overlapping n bpts s obs = .ok st ∧ Consistent bpts (OMap.keys s.frames) obs st ∧
      IsPartition (CamsLinked l obs) (observingCams nCam l) ((groupCams st.t.groups).map (·.2)) := by
  obtain ⟨r, h1, h2, _, h4, objs, h5, h6, h7, h8⟩ :=
    calibrateObjects_ok nCam nBoard l hl s hs obs hobs bpts hb n
  obtain ⟨st1, g1, g2, g3, _⟩ := calibrateGroups_ok nCam nBoard l hl s hs obs hobs bpts n objs r.1 r.2
    h5 h6 h2 h7 h8
  obtain ⟨st2, m1, m2, m3, _⟩ := mergeStage_ok nCam nBoard l hl s hs obs hobs bpts n 2 st1 g2
  refine ⟨st2, ?_, m2, ?_⟩
  · unfold overlapping
    rw [h1, Outcome.bind_ok, g1, Outcome.bind_ok, m1]
  · rw [m3, ← bothSee_eq nCam nBoard l hl s hs obs hobs r.1 objs h2.sorted h4 h7 h8]
    exact g3

include hl hs in
/-- C52: if the hand-eye calibration succeeds on every list of more than three pairs of poses, the
search for transforms between groups succeeds on consistent tables. -/
theorem C52_nonOverlapping (st : State G Pt P) (h : Consistent bpts (OMap.keys s.frames) obs st)
    (hhe : ∀ ps, 3 < ps.length → ∃ x, n.he ps = .ok x) : ∃ pp, nonOverlapping n st = .ok pp :=
  C22_total st.oo st.t h.groups st.objs n.ofVec _ n.he [] hhe

include hl hs in
/-- C52: it is enough that the hand-eye calibration succeeds on six or more pairs of poses, if no two groups have four or
five joint frames. -/
theorem C52_enough (st : State G Pt P) (h : Consistent bpts (OMap.keys s.frames) obs st)
    (hhe : ∀ ps, 6 ≤ ps.length → ∃ x, n.he ps = .ok x)
    (hlen : ∀ i j g1 g2, OMap.get? st.t.groups i = some g1 → OMap.get? st.t.groups j = some g2 → i ≠ j →
      3 < (Spec.NonOverlap.jointFrames st.oo (OMap.keys s.frames) g1 g2 (chosen st.objs st.t st.oo i j)).length →
      6 ≤ (Spec.NonOverlap.jointFrames st.oo (OMap.keys s.frames) g1 g2 (chosen st.objs st.t st.oo i j)).length) :
    ∃ pp, nonOverlapping n st = .ok pp :=
  C22_enough st.oo (OMap.keys s.frames) (frames_sorted nCam nBoard l hl s hs) st.t h.groups h.groupObs h.lists st.objs n.ofVec _
    n.he [] hhe hlen

include hl hs hobs in
/-- C52: the first merge of groups and the merge of objects after it succeed and leave consistent
tables, with one group per class of joined groups that have an observation; or they throw, and only
when a transform was recorded in one direction but not in the other. -/
theorem C52_merge (st : State G Pt P) (h : Consistent bpts (OMap.keys s.frames) obs st)
    (pp : PairPoses G) (hpp : nonOverlapping n st = .ok pp) :
    (∃ st' cs, afterMerge n bpts s obs pp st = .ok st' ∧
      Consistent bpts (OMap.keys s.frames) obs st' ∧
      IsPartition (Joined pp.pose) (observingGroups st.t.groups) cs ∧
      OMap.keys st'.t.groups = List.range cs.length ∧
      ∀ i c, cs[i]? = some c → ∃ g, OMap.get? st'.t.groups i = some g ∧
        ∀ q, q ∈ OMap.keys g.cameras ↔
          ∃ j ∈ c, ∃ gj, OMap.get? st.t.groups j = some gj ∧ q ∈ OMap.keys gj.cameras) ∨
    (afterMerge n bpts s obs pp st = .throw ∧
      ∃ a b, (a, b) ∈ OMap.keys pp.pose ∧ (b, a) ∉ OMap.keys pp.pose) := by
  have hfr := frames_sorted nCam nBoard l hl s hs
  rcases C23_merge st.oo (OMap.keys s.frames) hfr st.t h.groups h.groupObs h.lists st.objs n.ofVec _ n.he []
    List.Pairwise.nil pp hpp (n.choose 3) with ⟨m, hm, hM⟩ | ⟨hthrow, hasym⟩
  · left
    obtain ⟨t, k1, k2, k3, k4, k5, k6⟩ := regroup_ok (Pt := Pt) st.oo (OMap.keys s.frames)
      (hfr.imp Nat.ne_of_lt) { st.t with groups := m } hM.collection (by
        intro i g hg
        rw [(hM.bare i g hg).2]
        exact List.Pairwise.nil)
    obtain ⟨st', r1, r2, r3, _⟩ := mergeStage_ok nCam nBoard l hl s hs obs hobs bpts n 4
      { st with t := t } ⟨h.objs, h.sees, k2, k3, k4⟩
    obtain ⟨cs, c1, c2, c3⟩ := hM.classes
    have hgc : groupCams st'.t.groups = groupCams m := r3.trans k5
    have hkeys : ∀ gs : OMap Nat (CamGroup G), OMap.keys gs = (groupCams gs).map (·.1) := by
      intro gs; unfold OMap.keys groupCams; rw [List.map_map]; rfl
    refine ⟨st', cs, ?_, r2, c1, ?_, ?_⟩
    · unfold afterMerge mergeGroups1
      rw [hm, Outcome.bind_ok, k1, Outcome.bind_ok]
      exact r1
    · rw [hkeys, hgc, ← hkeys, hM.numbered, c2]
    · intro i c hc
      obtain ⟨g, hg, hcam, _⟩ := c3 i c hc
      have hin : (i, OMap.keys g.cameras) ∈ groupCams st'.t.groups := by
        rw [hgc]
        exact List.mem_map.2 ⟨(i, g), (OMap.get?_eq_some hM.collection.sorted).1 hg, rfl⟩
      obtain ⟨⟨i', g'⟩, he, heq⟩ := List.mem_map.1 hin
      simp only [Prod.mk.injEq] at heq
      obtain ⟨rfl, heq⟩ := heq
      refine ⟨g', (OMap.get?_eq_some r2.groups.sorted).2 he, fun q => ?_⟩
      rw [heq]
      exact hcam q
  · right
    refine ⟨?_, hasym⟩
    unfold afterMerge mergeGroups1
    rw [hthrow]
    rfl

end

/-! ### The second merge -/

section
variable [Group G] (gs : OMap Nat (CamGroup G)) (hC : Collection gs) (pp : PairPoses G)
  (hne : ∀ a b, (a, b) ∈ OMap.keys pp.pose → a ≠ b)
  (hsym : ∀ a b, (a, b) ∈ OMap.keys pp.pose → (b, a) ∈ OMap.keys pp.pose)
  (choose : Nat → Nat → Graph.DState → Nat)

/-- The numbers linked to `a` by recorded pairs are all numbers of no group. -/
def Orphan (gs : OMap Nat (CamGroup G)) (T : OMap (Nat × Nat) G) (a : Nat) : Prop :=
  ∀ c, ReflTransGen (Joined T) a c → c ∉ OMap.keys gs

include hC hne hsym in
/-- C53: merging groups numbered `0 .. k-1` with a symmetric table of transforms recorded under other
numbers dereferences a null pointer iff some recorded pair is linked to no number below `k`; otherwise
it succeeds. -/
theorem C53_stale_outcome (k : Nat) (hk : OMap.keys gs = List.range k) :
    (mergeWith gs pp choose = .ub ↔ ∃ a b, (a, b) ∈ OMap.keys pp.pose ∧ Orphan gs pp.pose a) ∧
    ((¬ ∃ a b, (a, b) ∈ OMap.keys pp.pose ∧ Orphan gs pp.pose a) → ∃ m, mergeWith gs pp choose = .ok m) := by
  unfold mergeWith
  generalize (fun k => (OMap.get? pp.cnt k).getD 0) = cnt
  obtain ⟨hp, hc⟩ := Lemmas.StaleMerge.comps hne cnt (gs := gs)
  have hok : (¬ ∃ a b, (a, b) ∈ OMap.keys pp.pose ∧ Orphan gs pp.pose a) →
      ∃ m, mergeCameraGroup gs pp.pose (groupGraph gs pp.pose cnt) choose = .ok m := by
    intro hno
    obtain ⟨m, _, h, _⟩ := Lemmas.StaleMerge.stale_ok hC hne hsym cnt choose (by
      intro c hcm r hr
      obtain ⟨r', h1, h2, h3⟩ := Lemmas.StaleMerge.minElement_ok (hc c hcm).1
      rw [hr] at h1
      simp only [Outcome.ok.injEq] at h1
      subst h1
      rcases (Lemmas.StaleMerge.mem_vertices cnt r).1 (hp.subset (List.mem_flatten.2 ⟨c, hcm, h2⟩)) with hv | ⟨y, hy⟩
      · obtain ⟨g, hg, _⟩ := (Lemmas.GroupMerge.mem_groupVertices hC).1 hv
        exact OMap.mem_keys.2 ⟨g, hg⟩
      · have hk2 : ∃ b, (r, b) ∈ OMap.keys pp.pose := by
          rcases hy with h | h
          · exact ⟨y, h⟩
          · exact ⟨y, hsym _ _ h⟩
        obtain ⟨b, hb⟩ := hk2
        have hno' : ¬ Orphan gs pp.pose r := fun ho => hno ⟨r, b, hb, ho⟩
        unfold Orphan at hno'
        simp only [not_forall, not_not] at hno'
        obtain ⟨x, hx, hxg⟩ := hno'
        have hxc := ((hc c hcm).2 r h2 x).2 hx
        have hle := h3 x hxc
        rw [hk, List.mem_range] at hxg ⊢
        exact Nat.lt_of_le_of_lt hle hxg)
    exact ⟨m, h⟩
  refine ⟨⟨fun hub => ?_, ?_⟩, hok⟩
  · by_contra hno
    obtain ⟨m, hm⟩ := hok hno
    rw [hm] at hub
    cases hub
  · rintro ⟨a, b, hab, ho⟩
    have hv : a ∈ (groupGraph gs pp.pose cnt).connectedComponents.flatten :=
      hp.symm.subset ((Lemmas.StaleMerge.mem_vertices cnt a).2 (Or.inr ⟨b, Or.inl hab⟩))
    obtain ⟨c, hcm, hac⟩ := List.mem_flatten.1 hv
    obtain ⟨r, h1, h2, _⟩ := Lemmas.StaleMerge.minElement_ok (hc c hcm).1
    exact Lemmas.StaleMerge.stale_ub hC hne hsym cnt choose c hcm r h1
      (ho r (((hc c hcm).2 a hac r).1 h2))

include hC hne hsym in
/-- C53: when it succeeds, cameras of observing groups `j`, `j'` end up in one group iff the numbers
`j`, `j'` are linked by recorded pairs (whatever groups these pairs were recorded for), and the cameras
of a group whose number is the least linked to it keep their poses. -/
theorem C53_stale_groups (m : OMap Nat (CamGroup G)) (hm : mergeWith gs pp choose = .ok m) :
    (∀ j gj q, OMap.get? gs j = some gj → gj.objObs ≠ [] → q ∈ OMap.keys gj.cameras →
      ∃ i g, OMap.get? m i = some g ∧ q ∈ OMap.keys g.cameras) ∧
    (∀ i g j gj q j' gj' q', OMap.get? m i = some g → OMap.get? gs j = some gj →
      OMap.get? gs j' = some gj' → q ∈ OMap.keys gj.cameras → q' ∈ OMap.keys gj'.cameras →
      q ∈ OMap.keys g.cameras → (q' ∈ OMap.keys g.cameras ↔ ReflTransGen (Joined pp.pose) j j')) ∧
    (∀ i g j gj q x, OMap.get? m i = some g → OMap.get? gs j = some gj → OMap.get? gj.poses q = some x →
      q ∈ OMap.keys g.cameras → (∀ c, ReflTransGen (Joined pp.pose) j c → j ≤ c) →
      OMap.get? g.poses q = some x) := by
  unfold mergeWith at hm
  generalize (fun k => (OMap.get? pp.cnt k).getD 0) = cnt at hm
  obtain ⟨hp, hc⟩ := Lemmas.StaleMerge.comps hne cnt (gs := gs)
  obtain ⟨m', pl, h1, hs, hpl, hk, h2⟩ := Lemmas.StaleMerge.stale_ok hC hne hsym cnt choose (by
    intro c hcm r hr
    by_contra hno
    rw [Lemmas.StaleMerge.stale_ub hC hne hsym cnt choose c hcm r hr hno] at hm
    cases hm)
  rw [hm] at h1
  simp only [Outcome.ok.injEq] at h1
  subst h1
  have hget : ∀ i g, OMap.get? m i = some g → ∃ c r, c ∈ (groupGraph gs pp.pose cnt).connectedComponents ∧
      minElement c = .ok r ∧ Lemmas.GroupMerge.MergedBy gs pl i r c g := by
    intro i g hg
    have hi : i ∈ OMap.keys m := OMap.mem_keys.2 ⟨g, hg⟩
    rw [hk, List.mem_range] at hi
    obtain ⟨g', r, e1, e2, e3⟩ := h2 i _ (List.getElem?_eq_getElem hi)
    rw [hg] at e2
    simp only [Option.some.injEq] at e2
    subst e2
    exact ⟨_, r, List.getElem_mem hi, e1, e3⟩
  have huniq : ∀ c i g r j gj q, Lemmas.GroupMerge.MergedBy gs pl i r c g → OMap.get? gs j = some gj →
      q ∈ OMap.keys gj.cameras → (q ∈ OMap.keys g.cameras ↔ j ∈ c) := by
    intro c i g r j gj q hM hj hq
    rw [hM.keys]
    constructor
    · rintro ⟨j2, hj2, gj2, hg2, hq2⟩
      rw [hC.disjoint j j2 gj gj2 hj hg2 q hq hq2]
      exact hj2
    · intro h
      exact ⟨j, h, gj, hj, hq⟩
  refine ⟨?_, ?_, ?_⟩
  · intro j gj q hj hob hq
    have hv : j ∈ (groupGraph gs pp.pose cnt).connectedComponents.flatten :=
      hp.symm.subset ((Lemmas.StaleMerge.mem_vertices cnt j).2
        (Or.inl ((Lemmas.GroupMerge.mem_groupVertices hC).2 ⟨gj, hj, hob⟩)))
    obtain ⟨c, hcm, hjc⟩ := List.mem_flatten.1 hv
    obtain ⟨i, hi⟩ := List.mem_iff_getElem?.1 hcm
    obtain ⟨g, r, _, e2, e3⟩ := h2 i c hi
    exact ⟨i, g, e2, (huniq c i g r j gj q e3 hj hq).2 hjc⟩
  · intro i g j gj q j' gj' q' hi hj hj' hq hq' hqg
    obtain ⟨c, r, hcm, _, hM⟩ := hget i g hi
    have hjc := (huniq c i g r j gj q hM hj hq).1 hqg
    rw [huniq c i g r j' gj' q' hM hj' hq']
    exact (hc c hcm).2 j hjc j'
  · intro i g j gj q x hi hj hx hqg hleast
    obtain ⟨c, r, hcm, hr, hM⟩ := hget i g hi
    have hq : q ∈ OMap.keys gj.cameras := by
      rw [← hC.poses j gj hj]; exact OMap.mem_keys.2 ⟨x, hx⟩
    have hjc := (huniq c i g r j gj q hM hj hq).1 hqg
    obtain ⟨r', e1, e2, e3⟩ := Lemmas.StaleMerge.minElement_ok (hc c hcm).1
    rw [hr] at e1
    simp only [Outcome.ok.injEq] at e1
    subst e1
    have hrj : r = j := Nat.le_antisymm (e3 j hjc) (hleast r (((hc c hcm).2 j hjc r).1 e2))
    have := hM.pose j hjc gj hj q x hx
    rw [hrj, hpl, mul_one] at this
    exact this

include hC hne hsym in
private theorem stale_listed (m : OMap Nat (CamGroup G)) (hm : mergeWith gs pp choose = .ok m) :
    OMap.Sorted m ∧ ∀ i g, OMap.get? m i = some g → g.id = i := by
  unfold mergeWith at hm
  generalize (fun k => (OMap.get? pp.cnt k).getD 0) = cnt at hm
  obtain ⟨m', pl, h1, hs, _, hk, h2⟩ := Lemmas.StaleMerge.stale_ok hC hne hsym cnt choose (by
    intro c hcm r hr
    by_contra hno
    rw [Lemmas.StaleMerge.stale_ub hC hne hsym cnt choose c hcm r hr hno] at hm
    cases hm)
  rw [hm] at h1
  simp only [Outcome.ok.injEq] at h1
  subst h1
  refine ⟨hs, fun i g hg => ?_⟩
  have hi : i ∈ OMap.keys m := OMap.mem_keys.2 ⟨g, hg⟩
  rw [hk, List.mem_range] at hi
  obtain ⟨g', r, _, e2, e3⟩ := h2 i _ (List.getElem?_eq_getElem hi)
  rw [hg] at e2
  simp only [Option.some.injEq] at e2
  subst e2
  exact e3.id

end

section
variable [Group G] [SMul G Pt] [DecidableEq P] (nCam nBoard : Nat) (l : List (Insertion P Path))
  (hl : ∀ a ∈ l, a.obs.cam < nCam ∧ a.obs.board < nBoard) (s : Store P Path)
  (hs : Store.run nCam nBoard l = .ok s) (obs : List (BoardObs P))
  (hobs : Spec.Objects.SameViews s.obs obs) (bpts : List (List Pt)) (hb : bpts.length = nBoard)
  (n : Numerics V G) (hhe : ∀ ps, 3 < ps.length → ∃ x, n.he ps = .ok x)

include hl hs hobs hb in
/-- C53, when the search for transforms between groups succeeds. -/
theorem C53_searched (hno : ∀ st, overlapping n bpts s obs = .ok st → ∃ pp, nonOverlapping n st = .ok pp) :
    ∃ st pp, overlapping n bpts s obs = .ok st ∧ nonOverlapping n st = .ok pp ∧
      ((∀ a b, (a, b) ∈ OMap.keys pp.pose → (b, a) ∈ OMap.keys pp.pose) →
        ∃ st', afterMerge n bpts s obs pp st = .ok st' ∧
          (workflow n bpts s obs = .ub ↔
            ∃ a b, (a, b) ∈ OMap.keys pp.pose ∧ Orphan st'.t.groups pp.pose a) ∧
          ((¬ ∃ a b, (a, b) ∈ OMap.keys pp.pose ∧ Orphan st'.t.groups pp.pose a) →
            ∃ st'', workflow n bpts s obs = .ok st'')) := by
  obtain ⟨st, h1, h2, _⟩ := C52_overlapping nCam nBoard l hl s hs obs hobs bpts hb n
  obtain ⟨pp, h3⟩ := hno st h1
  refine ⟨st, pp, h1, h3, fun hsym => ?_⟩
  have hfr := frames_sorted nCam nBoard l hl s hs
  have hne : ∀ a b, (a, b) ∈ OMap.keys pp.pose → a ≠ b := fun a b hab =>
    (((C22_recorded st.oo (OMap.keys s.frames) hfr st.t h2.groups h2.groupObs h2.lists st.objs n.ofVec _ n.he []
      pp List.Pairwise.nil h3 a b).1).1 hab).1
  rcases C52_merge nCam nBoard l hl s hs obs hobs bpts n st h2 pp h3 with
    ⟨st', cs, k1, k2, k3, k4, k5⟩ | ⟨_, a, b, h4, h5⟩
  swap
  · exact absurd (hsym a b h4) h5
  refine ⟨st', k1, ?_⟩
  have hwf : workflow n bpts s obs = (mergeGroups2 n s pp st').bind (refineAll n 5 bpts) := by
    unfold workflow
    rw [h1, Outcome.bind_ok, h3, Outcome.bind_ok, k1, Outcome.bind_ok]
    rfl
  obtain ⟨o1, o2⟩ := C53_stale_outcome st'.t.groups k2.groups pp hne hsym (n.choose 5) cs.length k4
  have hok : (¬ ∃ a b, (a, b) ∈ OMap.keys pp.pose ∧ Orphan st'.t.groups pp.pose a) →
      ∃ st'', workflow n bpts s obs = .ok st'' := by
    intro hno
    obtain ⟨m, hm⟩ := o2 hno
    obtain ⟨hm1, hm2⟩ := stale_listed st'.t.groups k2.groups pp hne hsym (n.choose 5) m hm
    obtain ⟨t, ht⟩ := Lemmas.StaleMerge.regroup_total st'.oo (OMap.keys s.frames) { st'.t with groups := m } hm1 hm2
    obtain ⟨objs', hr, _⟩ := refineObjects_ok (n.board 5) st'.objs k2.objs
    rw [hwf]
    unfold mergeGroups2
    rw [hm, Outcome.bind_ok, ht, Outcome.bind_ok]
    show ∃ st'', refineAll n 5 bpts { st' with t := t } = .ok st''
    unfold refineAll
    dsimp only
    rw [hr]
    exact ⟨_, rfl⟩
  refine ⟨⟨fun hub => ?_, fun horph => ?_⟩, hok⟩
  · by_contra hno
    obtain ⟨st'', h⟩ := hok hno
    rw [h] at hub
    cases hub
  · rw [hwf]
    unfold mergeGroups2
    rw [o1.2 horph]
    rfl

include hl hs hobs hb hhe in
/-- C53: the whole sequence of calibrate.cpp. If the transforms found between groups are symmetric, it
ends without error or with a null pointer dereference in the second merge of groups, and the latter
happens iff some recorded pair of old group numbers is linked only to numbers of no merged group. -/
theorem C53_workflow :
    ∃ st pp, overlapping n bpts s obs = .ok st ∧ nonOverlapping n st = .ok pp ∧
      ((∀ a b, (a, b) ∈ OMap.keys pp.pose → (b, a) ∈ OMap.keys pp.pose) →
        ∃ st', afterMerge n bpts s obs pp st = .ok st' ∧
          (workflow n bpts s obs = .ub ↔
            ∃ a b, (a, b) ∈ OMap.keys pp.pose ∧ Orphan st'.t.groups pp.pose a) ∧
          ((¬ ∃ a b, (a, b) ∈ OMap.keys pp.pose ∧ Orphan st'.t.groups pp.pose a) →
            ∃ st'', workflow n bpts s obs = .ok st'')) := by
  refine C53_searched nCam nBoard l hl s hs obs hobs bpts hb n fun st h1 => ?_
  obtain ⟨st', h1', h2, _⟩ := C52_overlapping nCam nBoard l hl s hs obs hobs bpts hb n
  rw [h1] at h1'
  cases h1'
  exact C52_nonOverlapping nCam nBoard l hl s hs obs bpts n st h2 hhe

end

/-! ### Concrete cases -/

/-- Permutations of three points as poses. -/
abbrev S3 := Equiv.Perm (Fin 3)

/-- Some numerical results: the hand-eye calibration and the refinements are constant. -/
def num : Numerics S3 S3 where
  boardPose _ := 1
  objPose _ _ := Equiv.swap 0 1
  inGroup _ _ _ _ := Equiv.swap 1 2
  board _ _ _ := Equiv.swap 1 2
  cam _ _ _ := Equiv.swap 0 2
  avg := Props.Objects.firstOr
  avgV := Props.Objects.firstOr
  toVec g := g
  ofVec g := g
  he _ := .ok (Equiv.swap 0 1)
  choose _ _ _ _ := 0

/-- One detection: camera, frame, board. -/
def det (c f b : Nat) : Insertion Nat Nat := ⟨⟨c, f, b, [7], [0]⟩, 0⟩

/-- The tables of a list of detections. -/
def storeOf (nCam nBoard : Nat) (l : List (Insertion Nat Nat)) : Store Nat Nat :=
  match Store.run nCam nBoard l with
  | .ok s => s
  | _ => Store.init nCam nBoard

/-- The whole workflow on a list of detections, without outliers; every board has one corner. -/
def runAll (nCam nBoard : Nat) (l : List (Insertion Nat Nat)) : Outcome (State S3 (Fin 3) Nat) :=
  workflow num (List.replicate nBoard [2]) (storeOf nCam nBoard l) (storeOf nCam nBoard l).obs

/-- Two cameras that never see the same board: camera 0 sees board 0 and camera 1 board 1, four times. -/
def twoCams : List (Insertion Nat Nat) :=
  (List.range 4).flatMap fun f => [det 0 f 0, det 1 f 1]

/-- They end up in one group, and the boards in one object. -/
theorem C52_two_cameras : (match runAll 2 2 twoCams with
    | .ok st => (groupCams st.t.groups, st.objs.map fun e => OMap.keys e.2.boards)
    | _ => ([], [])) = ([(0, [0, 1])], [[0, 1]]) := by decide +kernel

/-- The tables of the two cameras before the search for transforms between groups. -/
def twoState : State S3 (Fin 3) Nat :=
  match overlapping num [[2], [2]] (storeOf 2 2 twoCams) (storeOf 2 2 twoCams).obs with
  | .ok st => st
  | _ => ⟨[], [], { groups := [] }⟩

/-- The hypotheses of C21-C23, C52 and C53 are met by the two cameras: the tables are consistent, there
are two groups, both directions are recorded, from the four joint frames. -/
theorem two_hypotheses :
    (∀ a ∈ twoCams, a.obs.cam < 2 ∧ a.obs.board < 2) ∧
    Store.run 2 2 twoCams = .ok (storeOf 2 2 twoCams) ∧
    Spec.Objects.SameViews (storeOf 2 2 twoCams).obs (storeOf 2 2 twoCams).obs ∧
    Consistent [[2], [2]] (OMap.keys (storeOf 2 2 twoCams).frames) (storeOf 2 2 twoCams).obs twoState ∧
    OMap.keys twoState.t.groups = [0, 1] ∧
    (match nonOverlapping num twoState with
      | .ok pp => pp.pose
      | _ => []) = [((0, 1), Equiv.swap 0 1), ((1, 0), Equiv.swap 0 1)] ∧
    chosen twoState.objs twoState.t twoState.oo 0 1 = (0, 1) := by
  have h1 : ∀ a ∈ twoCams, a.obs.cam < 2 ∧ a.obs.board < 2 := by decide +kernel
  have h2 : Store.run 2 2 twoCams = .ok (storeOf 2 2 twoCams) := by decide +kernel
  have h3 : Spec.Objects.SameViews (storeOf 2 2 twoCams).obs (storeOf 2 2 twoCams).obs := ⟨rfl, by
    decide +kernel⟩
  obtain ⟨st, h4, h5, _⟩ := C52_overlapping 2 2 twoCams h1 _ h2 _ h3 ([[2], [2]] : List (List (Fin 3))) rfl num
  have h6 : twoState = st := by unfold twoState; rw [h4]
  refine ⟨h1, h2, h3, by rw [h6]; exact h5, by decide +kernel, by decide +kernel, by decide +kernel⟩

/-- Two such pairs of cameras, in different frames. -/
def twoPairs : List (Insertion Nat Nat) :=
  (List.range 4).flatMap fun f => [det 0 f 0, det 1 f 1, det 2 (f + 4) 2, det 3 (f + 4) 3]

/-- C53, failure: the two pairs are merged into groups 0 and 1, and the second merge, which still has the
transform between the old groups 2 and 3, dereferences the missing group 2. -/
theorem C53_two_pairs_ub : runAll 4 4 twoPairs = .ub := by decide +kernel

/-- A pair of cameras, and a third camera that sees its own board in a frame of its own. -/
def pairAndOne : List (Insertion Nat Nat) :=
  (List.range 4).flatMap (fun f => [det 0 f 0, det 1 f 1]) ++ [det 2 9 2]

/-- C53, wrong result: after the first merge there are groups 0 (cameras 0, 1) and 1 (camera 2), and the
second merge joins them with the transform that belongs to the old groups 0 and 1, although no frame
relates camera 2 to the others. -/
theorem C53_unrelated_camera_merged : (match runAll 3 3 pairAndOne with
    | .ok st => groupCams st.t.groups
    | _ => []) = [(0, [0, 1, 2])] := by decide +kernel

/-- Groups 0 (cameras 0, 1) and 1 (cameras 2, 3): once both cameras of a group see board 0 (group 0) and
board 1 (group 1), and four times one camera of group 0 sees board 1 and one of group 1 board 0. -/
def tie : List (Insertion Nat Nat) :=
  [det 0 0 0, det 1 0 0, det 2 0 1, det 3 0 1] ++
    (List.range 4).flatMap fun f => [det 0 (f + 1) 1, det 2 (f + 1) 0]

/-- C54, failure: the tie is broken differently in the two directions, the transform is
recorded from group 1 to group 0 only, and the merge looks up the other one. -/
theorem C54_tie_throws : runAll 4 2 tie = .throw := by decide +kernel

example : (∀ a ∈ tie, a.obs.cam < 4 ∧ a.obs.board < 2) ∧ Store.run 4 2 tie = .ok (storeOf 4 2 tie) := by
  decide +kernel

end Verif.Props.Pipeline
