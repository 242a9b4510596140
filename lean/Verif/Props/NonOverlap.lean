import Verif.Lemmas.GroupDirect
import Verif.Lemmas.StaleMerge
import Verif.Props.GroupPose
import Mathlib.Algebra.Order.BigOperators.Group.List

/-!
C21-C23, C54: camera groups that never see the same object.
-/
namespace Verif.Props.NonOverlap
open Verif Verif.Structure Verif.Objects Verif.Groups Verif.GroupPose Verif.NonOverlap
open Verif.Spec.Groups Verif.Spec.Structure Verif.Spec.NonOverlap
open Verif.Lemmas.NonOverlap Verif.Lemmas.GroupMerge
open Relation

variable {V G Pt P Path : Type}

section
variable [Group G] (oo : List (ObjObs P)) (frames : List Nat) (hfr : frames.Pairwise (· < ·))
  (t : GroupTables G) (hC : Collection t.groups) (ht : GroupObsOf oo frames t) (hL : ListsCover t)
  (objs : OMap Nat (Object G Pt))

/-! ### C21 -/

include hC ht hL hfr in
/-- C21: for two different groups the pair of objects used has the largest number of joint sightings,
and is the lexicographically first of those; `(0, 0)` if there is no joint sighting at all. -/
theorem C21_choice (i j : Nat) (hij : i ≠ j) (g1 g2 : CamGroup G) (h1 : OMap.get? t.groups i = some g1)
    (h2 : OMap.get? t.groups j = some g2) :
    ∃ p, OMap.get? (findPairs objs t oo) (i, j) = some p ∧
      ((∀ q, jointSightings oo frames g1 g2 q = 0) → p = (0, 0)) ∧
      ((∃ q, 0 < jointSightings oo frames g1 g2 q) → 0 < jointSightings oo frames g1 g2 p ∧
        ∀ q, jointSightings oo frames g1 g2 q ≤ jointSightings oo frames g1 g2 p ∧
          (jointSightings oo frames g1 g2 q = jointSightings oo frames g1 g2 p → lexLe p q)) := by
  obtain ⟨k1, k2⟩ := counts_spec ht hL hfr objs h1 h2
  have hm := argMax_spec _ k1
  simp only [k2] at hm
  refine ⟨objectPairFor objs t oo i j g1 g2, ?_, hm.1, hm.2⟩
  rw [findPairs_get? objs t hC.sorted oo, if_pos hij, h1, h2]
  rfl

include hC in
/-- C21: only pairs of different existing groups get a pair of objects. -/
theorem C21_domain (i j : Nat) : (i, j) ∈ OMap.keys (findPairs objs t oo) ↔
    i ≠ j ∧ i ∈ OMap.keys t.groups ∧ j ∈ OMap.keys t.groups := by
  simp only [OMap.mem_keys, findPairs_get? objs t hC.sorted oo]
  by_cases hij : i = j
  · simp [hij]
  · rw [if_pos hij]
    cases h1 : OMap.get? t.groups i with
    | none => simp
    | some g1 =>
      cases h2 : OMap.get? t.groups j with
      | none => simp
      | some g2 => simp [hij]

/-! ### C22 -/

/-- The chosen pair of objects of two groups. -/
def chosen (objs : OMap Nat (Object G Pt)) (t : GroupTables G) (oo : List (ObjObs P)) (i j : Nat) :
    Nat × Nat := (OMap.get? (findPairs objs t oo) (i, j)).getD (0, 0)

variable (ofVec : V → G) (op : OMap (Nat × Nat) (OMap Nat V)) (he : List (G × G) → Outcome G)
  (cnt0 : OMap (Nat × Nat) Nat)

/-- The poses of the objects `ab` in the two groups, at frame `f`; an unknown pose is the identity. -/
def posesAt (ofVec : V → G) (op : OMap (Nat × Nat) (OMap Nat V)) (i j : Nat) (ab : Nat × Nat) (f : Nat) :
    G × G :=
  ((((OMap.get? op (i, f)).bind fun m => OMap.get? m ab.1).map ofVec).getD 1,
    (((OMap.get? op (j, f)).bind fun m => OMap.get? m ab.2).map ofVec).getD 1)

include ht hL hfr in
private theorem posesFor_eq (i j : Nat) (g1 g2 : CamGroup G) (h1 : OMap.get? t.groups i = some g1)
    (h2 : OMap.get? t.groups j = some g2) :
    posesFor ofVec op t oo (findPairs objs t oo) (i, j) =
      (jointFrames oo frames g1 g2 (chosen objs t oo i j)).map
        (posesAt ofVec op i j (chosen objs t oo i j)) := by
  unfold posesFor
  rw [h1, h2]
  exact framePoses_spec ht hL hfr ofVec op h1 h2 _

include hC ht hL hfr in
/-- C22: a transform between groups `i` and `j` is recorded iff they are different and more than three
frames contain the chosen objects, one in each group; it is then the inverse of the hand-eye transform
of the poses in exactly these frames, and its weight is their number. -/
theorem C22_recorded (pp : PairPoses G) (hcnt : OMap.Sorted cnt0)
    (h : findPoses ofVec op t oo (findPairs objs t oo) he cnt0 = .ok pp)
    (i j : Nat) :
    ((i, j) ∈ OMap.keys pp.pose ↔ i ≠ j ∧ ∃ g1 g2, OMap.get? t.groups i = some g1 ∧
      OMap.get? t.groups j = some g2 ∧ 3 < (jointFrames oo frames g1 g2 (chosen objs t oo i j)).length) ∧
    (∀ x, OMap.get? pp.pose (i, j) = some x → ∀ g1 g2, OMap.get? t.groups i = some g1 →
      OMap.get? t.groups j = some g2 →
      ∃ y, he ((jointFrames oo frames g1 g2 (chosen objs t oo i j)).map
          (posesAt ofVec op i j (chosen objs t oo i j))) = .ok y ∧ x = y⁻¹ ∧
        OMap.get? pp.cnt (i, j) = some (jointFrames oo frames g1 g2 (chosen objs t oo i j)).length) ∧
    ((i, j) ∉ OMap.keys pp.pose → OMap.get? pp.cnt (i, j) = OMap.get? cnt0 (i, j)) := by
  rw [findPoses_flat ofVec op t hC.sorted oo _ he cnt0] at h
  obtain ⟨_, _, k3, k4⟩ := recFold_ok _ he _ { pose := [], cnt := cnt0 } _ List.Pairwise.nil hcnt h
  by_cases hin : (i, j) ∈ groupPairs t.groups
  · obtain ⟨m1, m2, m3⟩ := mem_groupPairs.1 hin
    obtain ⟨g1, h1⟩ := OMap.mem_keys.1 m1
    obtain ⟨g2, h2⟩ := OMap.mem_keys.1 m2
    dsimp only at h1 h2 m3
    have hps := posesFor_eq oo frames hfr t ht hL objs ofVec op i j g1 g2 h1 h2
    have huniq : ∀ g1' g2', OMap.get? t.groups i = some g1' → OMap.get? t.groups j = some g2' →
        g1' = g1 ∧ g2' = g2 := by
      intro g1' g2' e1 e2
      rw [h1] at e1; rw [h2] at e2
      simp only [Option.some.injEq] at e1 e2
      exact ⟨e1.symm, e2.symm⟩
    by_cases hlen : 3 < (jointFrames oo frames g1 g2 (chosen objs t oo i j)).length
    · obtain ⟨x, hx, hp, hc⟩ := k3 (i, j) hin (by rw [hps, List.length_map]; exact hlen)
      rw [hps] at hx hc
      rw [List.length_map] at hc
      have hmem : (i, j) ∈ OMap.keys pp.pose := OMap.mem_keys.2 ⟨_, hp⟩
      refine ⟨⟨fun _ => ⟨m3, g1, g2, h1, h2, hlen⟩, fun _ => hmem⟩, ?_, fun hn => absurd hmem hn⟩
      intro x' hx' g1' g2' e1 e2
      obtain ⟨rfl, rfl⟩ := huniq g1' g2' e1 e2
      rw [hp] at hx'
      simp only [Option.some.injEq] at hx'
      exact ⟨x, hx, hx'.symm, hc⟩
    · obtain ⟨hp, hc⟩ := k4 (i, j) fun _ => by rw [hps, List.length_map]; omega
      have hp' : OMap.get? pp.pose (i, j) = none := by rw [hp]; rfl
      refine ⟨⟨fun hm => ?_, ?_⟩, fun x hx => ?_, fun _ => hc⟩
      · exact absurd hm (OMap.get?_eq_none.1 hp')
      · rintro ⟨_, g1', g2', e1, e2, hl⟩
        obtain ⟨rfl, rfl⟩ := huniq g1' g2' e1 e2
        exact absurd hl hlen
      · rw [hp'] at hx; cases hx
  · obtain ⟨hp, hc⟩ := k4 (i, j) fun h => absurd h hin
    have hp' : OMap.get? pp.pose (i, j) = none := by rw [hp]; rfl
    refine ⟨⟨fun hm => absurd hm (OMap.get?_eq_none.1 hp'), ?_⟩, fun x hx => ?_, fun _ => hc⟩
    · rintro ⟨hne, g1, g2, e1, e2, _⟩
      exact absurd (mem_groupPairs.2 ⟨OMap.mem_keys.2 ⟨g1, e1⟩, OMap.mem_keys.2 ⟨g2, e2⟩, hne⟩) hin
    · rw [hp'] at hx; cases hx

include hC in
/-- C22: if the hand-eye calibration succeeds on every list of more than three pairs of poses, so does
the whole step. -/
theorem C22_total (hhe : ∀ ps, 3 < ps.length → ∃ x, he ps = .ok x) :
    ∃ pp, findPoses ofVec op t oo (findPairs objs t oo) he cnt0 = .ok pp := by
  rw [findPoses_flat ofVec op t hC.sorted oo _ he cnt0]
  exact recFold_total _ he _ (fun k _ hk => hhe _ hk) _

include hC ht hL hfr in
/-- C22: it is enough that the hand-eye calibration succeeds on six or more pairs of poses, if no two groups have four
or five joint frames. -/
theorem C22_enough (hhe : ∀ ps, 6 ≤ ps.length → ∃ x, he ps = .ok x)
    (hlen : ∀ i j g1 g2, OMap.get? t.groups i = some g1 → OMap.get? t.groups j = some g2 → i ≠ j →
      3 < (jointFrames oo frames g1 g2 (chosen objs t oo i j)).length →
      6 ≤ (jointFrames oo frames g1 g2 (chosen objs t oo i j)).length) :
    ∃ pp, findPoses ofVec op t oo (findPairs objs t oo) he cnt0 = .ok pp := by
  rw [findPoses_flat ofVec op t hC.sorted oo _ he cnt0]
  refine recFold_total _ he _ (fun k hk h3 => ?_) _
  obtain ⟨i, j⟩ := k
  obtain ⟨m1, m2, m3⟩ := mem_groupPairs.1 hk
  obtain ⟨g1, h1⟩ := OMap.mem_keys.1 m1
  obtain ⟨g2, h2⟩ := OMap.mem_keys.1 m2
  dsimp only at h1 h2 m3
  have hps := posesFor_eq oo frames hfr t ht hL objs ofVec op i j g1 g2 h1 h2
  refine hhe _ ?_
  rw [hps, List.length_map] at h3 ⊢
  exact hlen i j g1 g2 h1 h2 m3 h3

include hC ht hL hfr in
/-- C34: when the hand-eye calibration of fewer than six pose pairs is undefined (`HandEye.C34_few_poses`),
one pair of groups whose chosen objects are seen together in four or five frames spoils the search for all
transforms. -/
theorem C34_pairs (hfew : ∀ ps, 3 < ps.length → ps.length < 6 → he ps = .ub)
    (hmany : ∀ ps, 6 ≤ ps.length → ∃ x, he ps = .ok x) (i j : Nat) (hij : i ≠ j) (g1 g2 : CamGroup G)
    (h1 : OMap.get? t.groups i = some g1) (h2 : OMap.get? t.groups j = some g2)
    (h4 : 3 < (jointFrames oo frames g1 g2 (chosen objs t oo i j)).length)
    (h6 : (jointFrames oo frames g1 g2 (chosen objs t oo i j)).length < 6) :
    findPoses ofVec op t oo (findPairs objs t oo) he cnt0 = .ub := by
  rw [findPoses_flat ofVec op t hC.sorted oo _ he cnt0]
  have hps := posesFor_eq oo frames hfr t ht hL objs ofVec op i j g1 g2 h1 h2
  refine Verif.Lemmas.StaleMerge.foldlM_ub _ _ ?_ (i, j)
    (mem_groupPairs.2 ⟨OMap.mem_keys.2 ⟨g1, h1⟩, OMap.mem_keys.2 ⟨g2, h2⟩, hij⟩) ?_ _
  · intro k _ st
    unfold recStep
    by_cases hk : (posesFor ofVec op t oo (findPairs objs t oo) k).length ≤ 3
    · rw [if_pos hk]; exact Or.inl ⟨_, rfl⟩
    · rw [if_neg hk]
      by_cases hk6 : (posesFor ofVec op t oo (findPairs objs t oo) k).length < 6
      · right; rw [hfew _ (by omega) hk6]; rfl
      · left
        obtain ⟨x, hx⟩ := hmany (posesFor ofVec op t oo (findPairs objs t oo) k) (by omega)
        rw [hx]; exact ⟨_, rfl⟩
  · intro st
    unfold recStep
    rw [hps]
    simp only [List.length_map]
    rw [if_neg (by omega), hfew _ (by simpa using h4) (by simpa using h6)]
    rfl

include hC ht hL hfr in
theorem pairsOk (hcnt : OMap.Sorted cnt0) (pp : PairPoses G)
    (h : findPoses ofVec op t oo (findPairs objs t oo) he cnt0 = .ok pp) :
    PairsOk t.groups pp.pose := by
  have hsorted : OMap.Sorted pp.pose := by
    have h' := h
    rw [findPoses_flat ofVec op t hC.sorted oo _ he cnt0] at h'
    exact (recFold_ok _ he _ { pose := [], cnt := cnt0 } _ List.Pairwise.nil hcnt h').1
  refine ⟨hsorted, fun a b hk => ?_, fun a b hk => ?_⟩
  · exact (((C22_recorded oo frames hfr t hC ht hL objs ofVec op he cnt0 pp hcnt h a b).1).1 hk).1
  · obtain ⟨hne, g1, g2, h1, h2, hlen⟩ :=
      ((C22_recorded oo frames hfr t hC ht hL objs ofVec op he cnt0 pp hcnt h a b).1).1 hk
    obtain ⟨f, hf⟩ := List.exists_mem_of_length_pos (Nat.lt_trans (by decide : 0 < 3) hlen)
    unfold jointFrames at hf
    rw [List.mem_filter, Bool.and_eq_true, decide_eq_true_eq, decide_eq_true_eq] at hf
    obtain ⟨hff, p1, p2⟩ := hf
    obtain ⟨as, has, _⟩ := (seenIn_pos ht h1 hff).1 p1
    obtain ⟨bs, hbs, _⟩ := (seenIn_pos ht h2 hff).1 p2
    exact ⟨(mem_groupVertices hC).2 ⟨g1, h1, hL.objObs a g1 f as h1 has⟩,
      (mem_groupVertices hC).2 ⟨g2, h2, hL.objObs b g2 f bs h2 hbs⟩⟩

/-! ### C23 -/

theorem vertices_eq (hC : Collection t.groups) : groupVertices t.groups = observingGroups t.groups := by
  apply nat_sorted_ext (groupVertices_sorted hC) (List.Pairwise.filter _ (keys_lt hC.sorted))
  intro i
  rw [mem_groupVertices hC]
  rw [List.mem_filter, Option.any_eq_true]
  constructor
  · rintro ⟨g, hg, hne⟩
    exact ⟨OMap.mem_keys.2 ⟨g, hg⟩, g, hg, by simpa using hne⟩
  · rintro ⟨_, g, hg, hne⟩
    exact ⟨g, hg, by simpa using hne⟩

/-- What a merge of camera groups must give: groups numbered 0, 1, … , one per class of observing
groups joined by recorded transforms; each has exactly the cameras of its class, and again the groups
form a proper collection (disjoint, reference camera least and at the identity). The pose of a camera
is its old pose followed by the product of recorded transforms along a path of recorded pairs, which is
the single transform between its group and the first group of the class if there is one. -/
structure MergedGroups (gs : OMap Nat (CamGroup G)) (T : OMap (Nat × Nat) G)
    (m : OMap Nat (CamGroup G)) : Prop where
  collection : Collection m
  numbered : OMap.keys m = List.range m.length
  classes : ∃ cs, IsPartition (Joined T) (observingGroups gs) cs ∧ cs.length = m.length ∧
    ∀ i c, cs[i]? = some c → ∃ g, OMap.get? m i = some g ∧
      (∀ q, q ∈ OMap.keys g.cameras ↔ ∃ j ∈ c, ∃ gj, OMap.get? gs j = some gj ∧ q ∈ OMap.keys gj.cameras) ∧
      ∀ j ∈ c, ∀ gj, OMap.get? gs j = some gj → ∀ q x, OMap.get? gj.poses q = some x →
        ∃ r p, c.head? = some r ∧ IsPath (Joined T) r j p ∧ (∀ e ∈ p.zip p.tail, e ∈ OMap.keys T) ∧
          ((r, j) ∈ OMap.keys T → p = [r, j]) ∧
          OMap.get? g.poses q = some (x * ((p.zip p.tail).map fun e => (OMap.get? T e).getD 1).prod)
  /-- no observation is attached yet -/
  bare : ∀ i g, OMap.get? m i = some g → g.objObs = [] ∧ g.frames = []

include hC in
private theorem merge_cases (pp : PairPoses G) (hT : PairsOk t.groups pp.pose)
    (hcnt : ∀ k ∈ OMap.keys pp.pose, 2 ≤ (OMap.get? pp.cnt k).getD 0) (choose : Nat → Nat → Graph.DState → Nat) :
    (∃ m, mergeWith t.groups pp choose = .ok m ∧ MergedGroups t.groups pp.pose m) ∨
    (mergeWith t.groups pp choose = .throw ∧
      ∃ a b, (a, b) ∈ OMap.keys pp.pose ∧ (b, a) ∉ OMap.keys pp.pose) := by
  unfold mergeWith
  have hcnt' : ∀ k ∈ OMap.keys pp.pose, 2 ≤ (fun k => (OMap.get? pp.cnt k).getD 0) k := hcnt
  generalize (fun k => (OMap.get? pp.cnt k).getD 0) = cnt at hcnt' ⊢
  have hpart := group_partition hC hT cnt
  have hneed : ∀ r j, Needed t.groups pp.pose cnt r j → r ∈ groupVertices t.groups ∧
      ReflTransGen (Joined pp.pose) r j := by
    rintro r j ⟨c, hc, hr, hj⟩
    have hrc := Verif.Lemmas.Objects.mem_of_head? hr
    exact ⟨hpart.perm.subset (List.mem_flatten.2 ⟨c, hc, hrc⟩), (hpart.linked c hc r hrc j).1 hj⟩
  by_cases hall : ∀ r j, Needed t.groups pp.pose cnt r j →
      ∃ x, placement id pp.pose (groupGraph t.groups pp.pose cnt) (choose r j) r j = .ok x
  · left
    have hpl : ∀ r j, Needed t.groups pp.pose cnt r j →
        placement id pp.pose (groupGraph t.groups pp.pose cnt) (choose r j) r j =
          .ok ((fun r j => match placement id pp.pose (groupGraph t.groups pp.pose cnt) (choose r j) r j with
            | .ok x => x
            | _ => 1) r j) := by
      intro r j hn
      obtain ⟨x, hx⟩ := hall r j hn
      simp only [hx]
    obtain ⟨m, e, hcol, hk, hm⟩ := mergeCameraGroup_ok hC hT cnt choose _ hpl
    have hlen : m.length = (groupGraph t.groups pp.pose cnt).connectedComponents.length := by
      have := congrArg List.length hk
      simpa [OMap.keys] using this
    refine ⟨m, e, hcol, by rw [hk, hlen], ⟨_, by rw [← vertices_eq t hC]; exact hpart, hlen.symm, ?_⟩, ?_⟩
    swap
    · intro i g hg
      have hi : i < (groupGraph t.groups pp.pose cnt).connectedComponents.length := by
        have : i ∈ OMap.keys m := OMap.mem_keys.2 ⟨g, hg⟩
        rw [hk] at this
        exact List.mem_range.1 this
      obtain ⟨g', hg', hM⟩ := hm i _ (List.getElem?_eq_getElem hi)
      rw [hg] at hg'
      simp only [Option.some.injEq] at hg'
      subst hg'
      exact ⟨hM.objObs, hM.frames⟩
    intro i c hc
    obtain ⟨g, hg, hM⟩ := hm i c hc
    refine ⟨g, hg, hM.keys, fun j hj gj hgj q x hx => ?_⟩
    obtain ⟨r, hr, hp⟩ := hM.pose j hj gj hgj q x hx
    have hn : Needed t.groups pp.pose cnt r j := ⟨c, List.mem_of_getElem? hc, hr, hj⟩
    obtain ⟨hrv, hrj⟩ := hneed r j hn
    obtain ⟨p, hsp, hpath, h | h⟩ := group_placement hC hT cnt (choose r j) hrv hrj
    · refine ⟨r, p, hr, hpath, h.1, fun hd => ?_, ?_⟩
      · rw [group_direct hC hT cnt (choose r j) hd (hcnt' _ hd)] at hsp
        exact (Outcome.ok.inj hsp).symm
      rw [hp]
      simp only [h.2]
    · obtain ⟨y, hy⟩ := hall r j hn
      rw [h.2] at hy
      cases hy
  · right
    simp only [not_forall] at hall
    obtain ⟨r, j, hn, hno⟩ := hall
    obtain ⟨hrv, hrj⟩ := hneed r j hn
    obtain ⟨p, _, hpath, h | h⟩ := group_placement hC hT cnt (choose r j) hrv hrj
    · exact absurd ⟨_, h.2⟩ hno
    · refine ⟨mergeCameraGroup_throw hC hT cnt choose r j hn h.2, ?_⟩
      obtain ⟨⟨e, he, hne⟩, _⟩ := h
      have hcons : Structure.consecutive p = p.zip p.tail := by cases p <;> rfl
      have hj : Joined pp.pose e.1 e.2 :=
        Structure.isChain_consecutive hpath.chain e (by rw [hcons]; exact he)
      rcases hj with hj | hj
      · exact absurd hj hne
      · exact ⟨e.2, e.1, hj, hne⟩

include hC ht hL hfr in
/-- C23: merging the camera groups with the transforms found either succeeds with the expected groups,
or throws, and the latter only when some transform was recorded in one direction but not in the other.
It never dereferences a missing group. -/
theorem C23_merge (hcnt : OMap.Sorted cnt0) (pp : PairPoses G)
    (h : findPoses ofVec op t oo (findPairs objs t oo) he cnt0 = .ok pp)
    (choose : Nat → Nat → Graph.DState → Nat) :
    (∃ m, mergeWith t.groups pp choose = .ok m ∧ MergedGroups t.groups pp.pose m) ∨
    (mergeWith t.groups pp choose = .throw ∧
      ∃ a b, (a, b) ∈ OMap.keys pp.pose ∧ (b, a) ∉ OMap.keys pp.pose) :=
  merge_cases t hC pp (pairsOk oo frames hfr t hC ht hL objs ofVec op he cnt0 hcnt pp h)
    (fun k hk => by
      obtain ⟨i, j⟩ := k
      obtain ⟨k1, k2, _⟩ := C22_recorded oo frames hfr t hC ht hL objs ofVec op he cnt0 pp hcnt h i j
      obtain ⟨_, g1, g2, h1, h2, hlen⟩ := k1.1 hk
      obtain ⟨x, hx⟩ := OMap.mem_keys.1 hk
      obtain ⟨_, _, _, hc⟩ := k2 x hx g1 g2 h1 h2
      rw [hc, Option.getD_some]
      omega) choose

omit [Group G] in
private theorem joint_swap (g1 g2 : CamGroup G) (q : Nat × Nat) :
    jointSightings oo frames g2 g1 (q.2, q.1) = jointSightings oo frames g1 g2 q := by
  unfold jointSightings
  congr 1
  apply List.map_congr_left
  intro f _
  exact Nat.mul_comm _ _

include hC ht hL hfr in
/-- C54: if for any two groups with a joint sighting the most often jointly seen pair
of objects is unique, the transforms found are symmetric and the merge succeeds. -/
theorem C54_symmetric (hcnt : OMap.Sorted cnt0) (pp : PairPoses G)
    (h : findPoses ofVec op t oo (findPairs objs t oo) he cnt0 = .ok pp)
    (huniq : ∀ i j g1 g2, OMap.get? t.groups i = some g1 → OMap.get? t.groups j = some g2 → i ≠ j →
      ∀ p q, (∀ x, jointSightings oo frames g1 g2 x ≤ jointSightings oo frames g1 g2 p) →
        (∀ x, jointSightings oo frames g1 g2 x ≤ jointSightings oo frames g1 g2 q) →
        0 < jointSightings oo frames g1 g2 p → p = q)
    (choose : Nat → Nat → Graph.DState → Nat) :
    (∀ a b, (a, b) ∈ OMap.keys pp.pose → (b, a) ∈ OMap.keys pp.pose) ∧
    ∃ m, mergeWith t.groups pp choose = .ok m ∧ MergedGroups t.groups pp.pose m := by
  have hsym : ∀ a b, (a, b) ∈ OMap.keys pp.pose → (b, a) ∈ OMap.keys pp.pose := by
    intro a b hab
    obtain ⟨hne, g1, g2, h1, h2, hlen⟩ :=
      ((C22_recorded oo frames hfr t hC ht hL objs ofVec op he cnt0 pp hcnt h a b).1).1 hab
    rw [(C22_recorded oo frames hfr t hC ht hL objs ofVec op he cnt0 pp hcnt h b a).1]
    refine ⟨hne.symm, g2, g1, h2, h1, ?_⟩
    obtain ⟨p, p1, p2, p3⟩ := C21_choice oo frames hfr t hC ht hL objs a b hne g1 g2 h1 h2
    obtain ⟨q, q1, q2, q3⟩ := C21_choice oo frames hfr t hC ht hL objs b a hne.symm g2 g1 h2 h1
    have ep : chosen objs t oo a b = p := by unfold chosen; rw [p1]; rfl
    have eq : chosen objs t oo b a = q := by unfold chosen; rw [q1]; rfl
    rw [ep] at hlen
    rw [eq]
    -- there is a joint sighting
    have hpos : 0 < jointSightings oo frames g1 g2 p := by
      obtain ⟨f, hf⟩ := List.exists_mem_of_length_pos (Nat.lt_trans (by decide : 0 < 3) hlen)
      unfold jointFrames at hf
      rw [List.mem_filter, Bool.and_eq_true, decide_eq_true_eq, decide_eq_true_eq] at hf
      unfold jointSightings
      refine Nat.pos_of_ne_zero fun h0 => ?_
      have hmem : seenIn oo g1 f p.1 * seenIn oo g2 f p.2 ∈
          frames.map fun f => seenIn oo g1 f p.1 * seenIn oo g2 f p.2 := List.mem_map.2 ⟨f, hf.1, rfl⟩
      have := List.single_le_sum (fun _ _ => Nat.zero_le _) _ hmem
      rw [h0] at this
      exact absurd this (Nat.not_le.2 (Nat.mul_pos hf.2.1 hf.2.2))
    have hp := p3 ⟨p, hpos⟩
    have hq := q3 ⟨(p.2, p.1), by rw [joint_swap oo frames g1 g2 p]; exact hpos⟩
    have hqs : ∀ x, jointSightings oo frames g1 g2 x ≤ jointSightings oo frames g1 g2 (q.2, q.1) := by
      intro x
      have := (hq.2 (x.2, x.1)).1
      rw [joint_swap oo frames g1 g2 x] at this
      have e2 := joint_swap oo frames g1 g2 (q.2, q.1)
      dsimp only at e2
      rw [← e2]
      exact this
    have hpq := huniq a b g1 g2 h1 h2 hne p (q.2, q.1) (fun x => (hp.2 x).1) hqs hpos
    have hjf : jointFrames oo frames g2 g1 q = jointFrames oo frames g1 g2 p := by
      rw [hpq]
      unfold jointFrames
      apply List.filter_congr
      intro f _
      rw [Bool.and_comm]
    rw [hjf]
    exact hlen
  refine ⟨hsym, ?_⟩
  rcases C23_merge oo frames hfr t hC ht hL objs ofVec op he cnt0 hcnt pp h choose with h' | ⟨_, a, b, h1, h2⟩
  · exact h'
  · exact absurd (hsym a b h1) h2

end

end Verif.Props.NonOverlap
