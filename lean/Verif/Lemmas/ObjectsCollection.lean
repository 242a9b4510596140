import Verif.Lemmas.ObjectsMerge

namespace Verif.Lemmas.Objects
open Verif Verif.Objects Verif.Structure Verif.Spec.Objects Verif.Spec.Structure Verif.Spec.Store
open Verif.Lemmas.Structure Relation

variable {G Pt P Path : Type}

theorem _root_.Verif.Spec.Structure.IsPartition.heads_lt {r : Nat → Nat → Prop} {V : List Nat}
    {cs : List (List Nat)} (h : IsPartition r V cs) {i j : Nat} {c c' : List Nat}
    (hi : cs[i]? = some c) (hj : cs[j]? = some c') (hij : i < j) {a b : Nat} (ha : c.head? = some a)
    (hb : c'.head? = some b) : a < b := by
  have hh := h.heads
  rw [List.pairwise_filterMap] at hh
  obtain ⟨hi', ei⟩ := List.getElem?_eq_some_iff.1 hi
  obtain ⟨hj', ej⟩ := List.getElem?_eq_some_iff.1 hj
  have := List.pairwise_iff_getElem.1 hh i j hi' hj' hij
  rw [ei, ej] at this
  exact this a ha b hb

theorem _root_.Verif.Spec.Structure.IsPartition.index_unique {r : Nat → Nat → Prop} {V : List Nat}
    {cs : List (List Nat)} (h : IsPartition r V cs) (hV : V.Nodup) {i j : Nat} {c c' : List Nat}
    (hi : cs[i]? = some c) (hj : cs[j]? = some c') {a : Nat} (ha : a ∈ c) (hb : a ∈ c') : i = j := by
  have hnd : cs.flatten.Nodup := h.perm.nodup_iff.2 hV
  obtain ⟨_, hp⟩ := List.nodup_flatten.1 hnd
  obtain ⟨hi', ei⟩ := List.getElem?_eq_some_iff.1 hi
  obtain ⟨hj', ej⟩ := List.getElem?_eq_some_iff.1 hj
  rcases Nat.lt_trichotomy i j with hlt | heq | hgt
  · have := List.pairwise_iff_getElem.1 hp i j hi' hj' hlt
    rw [ei, ej] at this
    exact absurd hb (this ha)
  · exact heq
  · have := List.pairwise_iff_getElem.1 hp j i hj' hi' hgt
    rw [ei, ej] at this
    exact absurd ha (this hb)

/-- Entries of a numbered map whose images form a given list. -/
theorem getElem?_of_map_eq {V : Type} {m : OMap Nat V} {cs : List (List Nat)} (f : V → List Nat)
    (hk : OMap.keys m = List.range m.length) (hs : OMap.Sorted m)
    (h : m.map (fun e => f e.2) = cs) {i : Nat} {v : V} (hv : OMap.get? m i = some v) :
    cs[i]? = some (f v) := by
  have hm := (OMap.get?_eq_some hs).1 hv
  obtain ⟨j, hj⟩ := List.mem_iff_getElem?.1 hm
  have hj' := (List.getElem?_eq_some_iff.1 hj).1
  have : (OMap.keys m)[j]? = some i := by
    unfold OMap.keys; rw [List.getElem?_map, hj]; rfl
  rw [hk, List.getElem?_range hj'] at this
  simp only [Option.some.injEq] at this
  subst this
  rw [← h, List.getElem?_map, hj]
  rfl

theorem head_le {c : List Nat} (hs : c.Pairwise (· < ·)) {r b : Nat} (hr : c.head? = some r)
    (hb : b ∈ c) : r ≤ b := by
  cases c with
  | nil => cases hr
  | cons a c =>
    simp only [List.head?_cons, Option.some.injEq] at hr
    subst hr
    rcases List.mem_cons.1 hb with rfl | hb
    · exact Nat.le_refl _
    · exact Nat.le_of_lt ((List.pairwise_cons.1 hs).1 b hb)

theorem buildObjects_collection [Group G] [SMul G Pt] {nCam nBoard : Nat}
    {l : List (Insertion P Path)}
    (hl : ∀ a ∈ l, a.obs.cam < nCam ∧ a.obs.board < nBoard) {s : Store P Path}
    (hs : Describes nCam nBoard l s) (pose : Nat → G) (avg : List G → G) (bpts : List (List Pt))
    (hb : bpts.length = nBoard) (choose : Nat → Nat → Graph.DState → Nat)
    (objs : OMap Nat (Object G Pt)) (ho : buildObjects s pose avg bpts choose = .ok objs) :
    Collection bpts objs := by
  obtain ⟨objs', e, h1, h2, h3, h4⟩ := buildObjects_ok (G := G) (Pt := Pt) hl hs pose avg bpts hb choose
  rw [ho] at e
  simp only [Outcome.ok.injEq] at e
  subst e
  have hidx : ∀ i o, OMap.get? objs i = some o → (objs.map fun e => OMap.keys e.2.boards)[i]? =
      some (OMap.keys o.boards) := fun i o ho =>
    getElem?_of_map_eq (fun o : Object G Pt => OMap.keys o.boards) h2 h1 rfl ho
  refine ⟨h1, fun i o ho => (h4 i o ho).good, fun i o ho => (h4 i o ho).id, ?_, ?_, ?_, ?_, ?_, ?_⟩
  · intro i j o o' hi hj b hb hb'
    exact h3.index_unique ((observedBoards_sorted nBoard l).imp Nat.ne_of_lt) (hidx i o hi)
      (hidx j o' hj) hb hb'
  · intro i o ho; exact mem_of_head? (h4 i o ho).ref
  · intro i o ho b hb
    exact head_le (sorted_natKey (OMap.keys_sorted (h4 i o ho).good.boards_sorted)) (h4 i o ho).ref hb
  · intro i o ho
    obtain ⟨x, hx, hp⟩ := (h4 i o ho).pose o.refBoard (mem_of_head? (h4 i o ho).ref)
    have hT := boards_tableOk hl hs pose
    have hmem : o.refBoard ∈ observedBoards nBoard l := h3.perm.subset (List.mem_flatten.2
      ⟨_, List.mem_of_getElem? (hidx i o ho), mem_of_head? (h4 i o ho).ref⟩)
    have := hT.placement_self (fun x => x⁻¹) avg (choose o.refBoard o.refBoard) hmem
    have hg : boardGraph s (boardPairs s pose) = Graph.run (graphCalls (observedBoards nBoard l)
        (tableEdges (boardPairs s pose))) := by
      unfold boardGraph; rw [boardVertices_eq hs]
    rw [hg, this] at hx
    simp only [Outcome.ok.injEq] at hx
    rw [hp, hx]
  · intro i j o o' hi hj hij
    exact h3.heads_lt (hidx i o hi) (hidx j o' hj) hij (h4 i o hi).ref (h4 j o' hj).ref
  · intro i o ho; exact (h4 i o ho).nb

/-- Merging keeps a well-formed collection. -/
theorem mergeObjects_ok [Group G] [SMul G Pt] {bpts : List (List Pt)} {objs : OMap Nat (Object G Pt)}
    (hC : Collection bpts objs) {vs : List Nat} {t : PairTable G} (hT : TableOk vs t)
    (hvs : ∀ j ∈ vs, j ∈ OMap.keys objs) (avg : List G → G)
    (choose : Nat → Nat → Graph.DState → Nat) :
    ∃ m pl, mergeObjects bpts objs (interTransform avg t) (Graph.run (graphCalls vs (tableEdges t)))
        choose = .ok m ∧ Collection bpts m ∧ OMap.keys m = List.range m.length ∧
      (∀ r ∈ vs, ∀ j, ReflTransGen (Measured t) r j →
        placement (fun x => x⁻¹) (interTransform avg t) (Graph.run (graphCalls vs (tableEdges t)))
          (choose r j) r j = .ok (pl r j)) ∧
      ∃ cs, IsPartition (Measured t) vs cs ∧ cs.length = m.length ∧
        ∀ i c, cs[i]? = some c → ∃ o, OMap.get? m i = some o ∧ MergedFrom bpts objs pl i c o := by
  have hpart := hT.partition
  have hpl : ∃ pl : Nat → Nat → G, ∀ r ∈ vs, ∀ j, ReflTransGen (Measured t) r j →
      placement (fun x => x⁻¹) (interTransform avg t) (Graph.run (graphCalls vs (tableEdges t)))
        (choose r j) r j = .ok (pl r j) := by
    refine ⟨fun r j => match placement (fun x => x⁻¹) (interTransform avg t)
      (Graph.run (graphCalls vs (tableEdges t))) (choose r j) r j with
      | .ok x => x
      | _ => 1, ?_⟩
    intro r hr j hj
    obtain ⟨p, _, _, h⟩ := hT.placement (fun x => x⁻¹) avg (choose r j) hr hj
    dsimp only
    rw [h]
  obtain ⟨pl, hpl⟩ := hpl
  obtain ⟨m, e, hk, hsm, hm⟩ := foldlM_number
    (fun i c => mergeObject (G := G) bpts objs (interTransform avg t)
      (Graph.run (graphCalls vs (tableEdges t))) choose i c)
    (fun i c o => MergedFrom bpts objs pl i c o)
    (Graph.run (graphCalls vs (tableEdges t))).connectedComponents (by
      intro i c hc
      have hcm := List.mem_of_getElem? hc
      have hsub : ∀ b ∈ c, b ∈ vs := fun b hbc =>
        hpart.perm.subset (List.mem_flatten.2 ⟨c, hcm, hbc⟩)
      cases c with
      | nil => exact absurd rfl (hpart.nonempty _ hcm)
      | cons r c =>
        apply mergeObject_ok hC _ _ _ _ _ _ (hpart.sorted _ hcm)
        · intro j hj
          exact hpl r (hsub r (by simp)) j ((hpart.linked _ hcm r (by simp) j).1 hj)
        · intro j hj; exact hvs j (hsub j hj))
  have hlen : m.length = (Graph.run (graphCalls vs (tableEdges t))).connectedComponents.length := by
    have := congrArg List.length hk
    simpa [OMap.keys] using this
  have hget : ∀ i o, OMap.get? m i = some o →
      ∃ c, (Graph.run (graphCalls vs (tableEdges t))).connectedComponents[i]? = some c ∧
        MergedFrom bpts objs pl i c o := by
    intro i o ho
    have hi : i ∈ OMap.keys m := OMap.mem_keys.2 ⟨o, ho⟩
    rw [hk, List.mem_range] at hi
    obtain ⟨o', h1, h2⟩ := hm i _ (List.getElem?_eq_getElem hi)
    rw [ho] at h1
    simp only [Option.some.injEq] at h1
    subst h1
    exact ⟨_, List.getElem?_eq_getElem hi, h2⟩
  refine ⟨m, pl, e, ⟨hsm, ?_, ?_, ?_, ?_, ?_, ?_, ?_, ?_⟩, by rw [hlen, hk], hpl, _, hpart, hlen.symm, hm⟩
  · intro i o ho; obtain ⟨c, _, h⟩ := hget i o ho; exact h.good
  · intro i o ho; obtain ⟨c, _, h⟩ := hget i o ho; exact h.id
  · intro i j o o' hi hj b hb hb'
    obtain ⟨c, hc, h⟩ := hget i o hi
    obtain ⟨c', hc', h'⟩ := hget j o' hj
    obtain ⟨a, ha, oa, h1, h2⟩ := (h.keys b).1 hb
    obtain ⟨a', ha', oa', h1', h2'⟩ := (h'.keys b).1 hb'
    have := hC.disjoint a a' oa oa' h1 h1' b h2 h2'
    subst this
    exact hpart.index_unique (hT.vs_sorted.imp Nat.ne_of_lt) hc hc' ha ha'
  · intro i o ho
    obtain ⟨c, _, h⟩ := hget i o ho
    obtain ⟨r, ro, hr, hro, he⟩ := h.ref
    rw [he]
    exact (h.keys _).2 ⟨r, mem_of_head? hr, ro, hro, hC.ref_mem r ro hro⟩
  · intro i o ho b hb
    obtain ⟨c, hc, h⟩ := hget i o ho
    obtain ⟨r, ro, hr, hro, he⟩ := h.ref
    obtain ⟨j, hj, oj, h1, h2⟩ := (h.keys b).1 hb
    have hle := head_le (hpart.sorted c (List.mem_of_getElem? hc)) hr hj
    rw [he]
    refine Nat.le_trans ?_ (hC.ref_least j oj h1 b h2)
    rcases Nat.lt_or_eq_of_le hle with hlt | rfl
    · exact Nat.le_of_lt (hC.ref_incr r j ro oj hro h1 hlt)
    · rw [hro] at h1; simp only [Option.some.injEq] at h1; rw [h1]
  · intro i o ho
    obtain ⟨c, hc, h⟩ := hget i o ho
    obtain ⟨r, ro, hr, hro, he⟩ := h.ref
    obtain ⟨r', hr', hp⟩ := h.pose r (mem_of_head? hr) ro hro ro.refBoard 1 (hC.ref_pose r ro hro)
    rw [hr] at hr'
    simp only [Option.some.injEq] at hr'
    subst hr'
    have hrv : r ∈ vs := hpart.perm.subset (List.mem_flatten.2
      ⟨c, List.mem_of_getElem? hc, mem_of_head? hr⟩)
    have h1 := hpl r hrv r ReflTransGen.refl
    rw [hT.placement_self (fun x => x⁻¹) avg (choose r r) hrv] at h1
    simp only [Outcome.ok.injEq] at h1
    rw [he, hp, ← h1, one_mul]
  · intro i j o o' hi hj hij
    obtain ⟨c, hc, h⟩ := hget i o hi
    obtain ⟨c', hc', h'⟩ := hget j o' hj
    obtain ⟨r, ro, hr, hro, he⟩ := h.ref
    obtain ⟨r', ro', hr', hro', he'⟩ := h'.ref
    rw [he, he']
    exact hC.ref_incr r r' ro ro' hro hro' (hpart.heads_lt hc hc' hij hr hr')
  · intro i o ho; obtain ⟨c, _, h⟩ := hget i o ho; exact h.nb

end Verif.Lemmas.Objects
