import Verif.Lemmas.StaleMerge
import Verif.Props.Pipeline

/-! A successful merge of camera groups yields a proper collection, whatever numbers the table of transforms
was recorded under. -/
namespace Verif.Lemmas.Finish
open Verif Verif.NonOverlap Verif.Groups Verif.Objects Verif.Structure
open Verif.Spec.Groups Verif.Spec.Structure Verif.Spec.NonOverlap
open Verif.Lemmas.Structure Verif.Lemmas.Groups Verif.Lemmas.Objects Verif.Lemmas.GroupMerge
open Verif.Lemmas.StaleMerge Relation

variable {G Pt P Path : Type}

/-- Every step of a successful loop that numbers its values has succeeded. -/
theorem foldlM_number_inv {V C : Type} (f : Nat → C → Outcome V) (cs : List C) (m : OMap Nat V)
    (h : Outcome.foldlM (fun (m : OMap Nat V) (e : C × Nat) =>
        f e.2 e.1 >>= fun v => pure (OMap.set m e.2 v)) [] cs.zipIdx = .ok m) :
    ∀ i c, cs[i]? = some c → ∃ v, f i c = .ok v := by
  have key : ∀ (L : List (C × Nat)) (m0 m : OMap Nat V),
      Outcome.foldlM (fun (m : OMap Nat V) (e : C × Nat) =>
        f e.2 e.1 >>= fun v => pure (OMap.set m e.2 v)) m0 L = .ok m → ∀ e ∈ L, ∃ v, f e.2 e.1 = .ok v := by
    intro L
    induction L with
    | nil => intro _ _ _ e he; cases he
    | cons x L ih =>
      intro m0 m hm e he
      rw [Outcome.foldlM_cons] at hm
      obtain ⟨m1, h1, h2⟩ := Outcome.bind_eq_ok.1 hm
      rcases List.mem_cons.1 he with rfl | he
      · obtain ⟨v, h3, _⟩ := Outcome.bind_eq_ok.1 h1
        exact ⟨v, h3⟩
      · exact ih m1 m h2 e he
  intro i c hc
  exact key _ _ _ h (c, i) (List.mem_zipIdx_iff_getElem?.2 hc)

section
variable [Group G] {gs : OMap Nat (CamGroup G)} (hC : Collection gs) {T : OMap (Nat × Nat) G}
  (hne : ∀ a b, (a, b) ∈ OMap.keys T → a ≠ b)
  (cnt : Nat × Nat → Nat) (choose : Nat → Nat → Graph.DState → Nat)

include hne in
/-- A group is placed in itself by the identity. -/
theorem place_self (ch : Graph.DState → Nat) {a : Nat} (ha : a ∈ Spec.Graph.vertices (calls gs T cnt)) :
    placement id T (groupGraph gs T cnt) ch a a = .ok 1 := by
  obtain ⟨p, k, h1, h2, h3, _⟩ := Props.Graph.C03_C04_path (calls gs T cnt) (noFresh hne cnt) ch a a ha
    ReflTransGen.refl (by
      intro x y w hs
      have hw : 0 ≤ w := by
        rcases (step_graphCalls ..).1 hs with h | h <;>
        · unfold groupEdges at h
          obtain ⟨e, _, he⟩ := List.mem_map.1 h
          simp only [Prod.mk.injEq] at he
          rw [← he.2.2]
          exact div_nonneg (by decide) (Nat.cast_nonneg _)
      exact trunc_nonneg hw)
  obtain ⟨w1, w2, w3⟩ := walk_props h2
  have : p = [a] := isPath_self ⟨w1, w2, w3, h3⟩
  have h1' : (groupGraph gs T cnt).shortestPathBetween ch a a = .ok p := h1
  unfold placement
  rw [h1', Outcome.bind_ok, this]
  rfl

/-- All placements of a successful loop have succeeded. -/
theorem place_inv (T : OMap (Nat × Nat) G) (g : Graph Nat) (r : Nat) (c : List Nat) (m m' : OMap Nat G)
    (h : Outcome.foldlM (mergeGroupPlace T g choose r) m c = .ok m') :
    ∀ j ∈ c, ∃ x, placement id T g (choose r j) r j = .ok x := by
  induction c generalizing m with
  | nil => intro j hj; cases hj
  | cons k c ih =>
    intro j hj
    rw [Outcome.foldlM_cons] at h
    obtain ⟨m1, h1, h2⟩ := Outcome.bind_eq_ok.1 h
    rcases List.mem_cons.1 hj with rfl | hj
    · unfold mergeGroupPlace at h1
      obtain ⟨x, h3, _⟩ := Outcome.bind_eq_ok.1 h1
      exact ⟨x, h3⟩
    · exact ih m1 h2 j hj

include hC hne in
/-- What a successful merge produced. -/
theorem merged (m : OMap Nat (CamGroup G)) (hm : mergeCameraGroup gs T (groupGraph gs T cnt) choose = .ok m) :
    ∃ pl : Nat → Nat → G, OMap.Sorted m ∧ (∀ r, pl r r = 1) ∧
      OMap.keys m = List.range (groupGraph gs T cnt).connectedComponents.length ∧
      ∀ i c, (groupGraph gs T cnt).connectedComponents[i]? = some c → ∃ g r, minElement c = .ok r ∧
        OMap.get? m i = some g ∧ MergedBy gs pl i r c g := by
  obtain ⟨hp, hc⟩ := comps hne cnt (gs := gs)
  let pl : Nat → Nat → G := fun r j => if r = j then 1 else
    match placement id T (groupGraph gs T cnt) (choose r j) r j with
    | .ok x => x
    | _ => 1
  have hsteps := foldlM_number_inv (fun i c => mergeGroup gs T (groupGraph gs T cnt) choose i c) _ m hm
  obtain ⟨m', e, hk, hsm, hm'⟩ := foldlM_number
    (fun i c => mergeGroup gs T (groupGraph gs T cnt) choose i c)
    (fun i c o => ∃ r, minElement c = .ok r ∧ MergedBy gs pl i r c o)
    (groupGraph gs T cnt).connectedComponents (by
      intro i c hci
      have hcm := List.mem_of_getElem? hci
      obtain ⟨o, ho⟩ := hsteps i c hci
      unfold mergeGroup at ho
      obtain ⟨r, h1, ho⟩ := Outcome.bind_eq_ok.1 ho
      obtain ⟨rg, h2, ho⟩ := Outcome.bind_eq_ok.1 ho
      obtain ⟨tr, h3, _⟩ := Outcome.bind_eq_ok.1 ho
      obtain ⟨r', h4, h5, _⟩ := minElement_ok (hc c hcm).1
      rw [h1] at h4
      simp only [Outcome.ok.injEq] at h4
      subst h4
      have hr : r ∈ OMap.keys gs := by
        cases hg : OMap.get? gs r with
        | none => rw [hg] at h2; cases h2
        | some g => exact OMap.mem_keys.2 ⟨g, hg⟩
      obtain ⟨o, h6, h7⟩ := mergeGroup_by hC T (groupGraph gs T cnt) choose i r c h1 pl (by
        intro j hj
        simp only [pl]
        by_cases hrj : r = j
        · subst hrj
          rw [if_pos rfl]
          exact place_self hne cnt _ (hp.subset (List.mem_flatten.2 ⟨c, hcm, h5⟩))
        · rw [if_neg hrj]
          obtain ⟨x, hx⟩ := place_inv choose T _ r c [] tr h3 j hj
          rw [hx]) hr
      exact ⟨o, h6, r, h1, h7⟩)
  have : m' = m := by
    have h2 : mergeCameraGroup gs T (groupGraph gs T cnt) choose = .ok m' := e
    rw [hm] at h2
    simpa using h2.symm
  subst this
  refine ⟨pl, hsm, fun r => if_pos rfl, hk, fun i c hci => ?_⟩
  obtain ⟨g, h1, r, h2, h3⟩ := hm' i c hci
  exact ⟨g, r, h2, h1, h3⟩

end

/-- The first members of a duplicate-free list keep their places. -/
theorem firstOccs_prefix (A B : List Nat) (hA : A.Nodup) :
    ∃ B', Spec.Graph.firstOccs (A ++ B) = A ++ B' ∧ ∀ x ∈ B', x ∈ B := by
  have key : ∀ (B acc : List Nat), ∃ B', B.foldl (fun acc x => if x ∈ acc then acc else acc ++ [x]) acc =
      acc ++ B' ∧ ∀ x ∈ B', x ∈ B := by
    intro B
    induction B with
    | nil => intro acc; exact ⟨[], by simp, by simp⟩
    | cons b B ih =>
      intro acc
      rw [List.foldl_cons]
      split
      · obtain ⟨B', h1, h2⟩ := ih acc
        exact ⟨B', h1, fun x hx => List.mem_cons_of_mem _ (h2 x hx)⟩
      · obtain ⟨B', h1, h2⟩ := ih (acc ++ [b])
        refine ⟨b :: B', by rw [h1]; simp, fun x hx => ?_⟩
        rcases List.mem_cons.1 hx with rfl | hx
        · simp
        · exact List.mem_cons_of_mem _ (h2 x hx)
  have hA' : ∀ (A acc : List Nat), (acc ++ A).Nodup →
      A.foldl (fun acc x => if x ∈ acc then acc else acc ++ [x]) acc = acc ++ A := by
    intro A
    induction A with
    | nil => intro acc _; simp
    | cons a A ih =>
      intro acc h
      rw [List.foldl_cons, if_neg (by
        intro ha
        rw [List.nodup_append] at h
        exact h.2.2 a ha a (by simp) rfl), ih (acc ++ [a]) (by simpa using h)]
      simp
  unfold Spec.Graph.firstOccs
  rw [List.foldl_append, hA' A [] (by simpa using hA)]
  obtain ⟨B', h1, h2⟩ := key B A
  exact ⟨B', by simpa using h1, h2⟩

/-- Two members at different places. -/
theorem pair_sublist {α : Type} {l : List α} {i j : Nat} {a b : α} (hi : l[i]? = some a) (hj : l[j]? = some b)
    (hij : i < j) : [a, b].Sublist l := by
  have h1 : l.take j ++ l.drop j = l := List.take_append_drop j l
  rw [← h1]
  have ha : [a].Sublist (l.take j) := by
    rw [List.singleton_sublist]
    exact List.mem_of_getElem? (i := i) (by rw [List.getElem?_take_of_lt hij]; exact hi)
  have hb : [b].Sublist (l.drop j) := by
    rw [List.singleton_sublist]
    exact List.mem_of_getElem? (i := 0) (by rw [List.getElem?_drop]; simpa using hj)
  exact ha.append hb

theorem nodup_pair {α : Type} {l : List (List α)} {a b : List α}
    (h : l.flatten.Nodup) (hs : [a, b].Sublist l) {x : α} (ha : x ∈ a) (hb : x ∈ b) : False := by
  have := List.nodup_flatten.1 h
  have h2 := this.2.sublist hs
  simp only [List.pairwise_cons, List.mem_singleton, forall_eq] at h2
  exact h2.1 ha hb

section
variable [Group G] {gs : OMap Nat (CamGroup G)} (hC : Collection gs) (pp : PairPoses G)
  (hne : ∀ a b, (a, b) ∈ OMap.keys pp.pose → a ≠ b) (choose : Nat → Nat → Graph.DState → Nat)
  (k : Nat) (hk : OMap.keys gs = List.range k) (hobs : ∀ i g, OMap.get? gs i = some g → g.objObs ≠ [])

include hC hk hobs in
theorem vertices_all : groupVertices gs = List.range k := by
  rw [← hk]
  apply OMap.sorted_keys_ext ((groupVertices_sorted hC).imp fun h => by simpa [Key.lt] using h)
    (OMap.keys_sorted hC.sorted)
  intro i
  rw [mem_groupVertices hC, OMap.mem_keys]
  exact ⟨fun ⟨g, h, _⟩ => ⟨g, h⟩, fun ⟨g, h⟩ => ⟨g, h, hobs i g h⟩⟩

include hC hne hk hobs in
/-- The components are numbered by increasing least group. -/
theorem minima_lt (cnt : Nat × Nat → Nat)
    (hmin : ∀ c ∈ (groupGraph gs pp.pose cnt).connectedComponents, ∀ r, minElement c = .ok r → r < k)
    {i j : Nat} {c c' : List Nat} {r r' : Nat}
    (hi : (groupGraph gs pp.pose cnt).connectedComponents[i]? = some c)
    (hj : (groupGraph gs pp.pose cnt).connectedComponents[j]? = some c') (hij : i < j)
    (hr : minElement c = .ok r) (hr' : minElement c' = .ok r') : r < r' := by
  obtain ⟨_, h2, h3⟩ := Props.Graph.C02_components (calls gs pp.pose cnt) (noFresh hne cnt)
  obtain ⟨B, hB⟩ : ∃ B, Spec.Graph.vertices (calls gs pp.pose cnt) = List.range k ++ B := by
    unfold Spec.Graph.vertices calls
    rw [live_graphCalls]
    unfold graphCalls
    rw [List.flatMap_append, List.flatMap_map, vertices_all hC k hk hobs]
    obtain ⟨B', e, _⟩ := firstOccs_prefix (List.range k)
      (((groupEdges pp.pose cnt).map fun e => Graph.Call.addEdge e.1 e.2.1 e.2.2).flatMap Spec.Graph.ids)
      List.nodup_range
    refine ⟨B', ?_⟩
    rw [← e]
    congr 2
    simp [Spec.Graph.ids]
  have hnd : (List.range k ++ B).Nodup := by
    rw [← hB]; exact Graph.nodup_firstOccs _
  have hge : ∀ x ∈ B, k ≤ x := by
    intro x hx
    by_contra hlt
    rw [List.nodup_append] at hnd
    exact hnd.2.2 x (List.mem_range.2 (by omega)) x hx rfl
  rw [hB] at h2 h3
  have hhead : ∀ c ∈ (groupGraph gs pp.pose cnt).connectedComponents, ∀ r, minElement c = .ok r →
      c.head? = some r := by
    intro c hc r hr
    obtain ⟨r0, e1, e2, e3⟩ := minElement_ok (h2 c hc).1
    rw [hr] at e1
    simp only [Outcome.ok.injEq] at e1
    subst e1
    have hrk := hmin c hc r hr
    obtain ⟨c1, c2, rfl, s1, s2⟩ := List.sublist_append_iff.1 (h2 c hc).2.1
    have hr1 : r ∈ c1 := by
      rcases List.mem_append.1 e2 with h | h
      · exact h
      · have := hge r (s2.subset h); omega
    cases c1 with
    | nil => cases hr1
    | cons a c1 =>
      have hp : (a :: c1).Pairwise (· < ·) := List.pairwise_lt_range.sublist s1
      have hle := e3 a (by simp)
      rcases List.mem_cons.1 hr1 with rfl | h
      · rfl
      · have := (List.pairwise_cons.1 hp).1 r h
        omega
  have hmi := List.mem_of_getElem? hi
  have hmj := List.mem_of_getElem? hj
  have hrk := hmin c hmi r hr
  have hrk' := hmin c' hmj r' hr'
  have hsub : [some r, some r'].Sublist ((List.range k ++ B).map some) := by
    refine List.Sublist.trans ?_ h3
    have : [some r, some r'] = [c, c'].map List.head? := by
      simp [hhead c hmi r hr, hhead c' hmj r' hr']
    rw [this]
    apply List.Sublist.map
    exact pair_sublist hi hj hij
  have hpw : (((List.range k ++ B).map some).filter fun o => decide (∃ x, o = some x ∧ x < k)).Pairwise
      fun a b => ∃ x y, a = some x ∧ b = some y ∧ x < y := by
    rw [List.filter_map, List.filter_append]
    have : B.filter ((fun o : Option Nat => decide (∃ x, o = some x ∧ x < k)) ∘ some) = [] := by
      rw [List.filter_eq_nil_iff]
      intro x hx
      have := hge x hx
      simp
      omega
    rw [this, List.append_nil, List.pairwise_map]
    exact (List.pairwise_lt_range.filter _).imp fun h => ⟨_, _, rfl, rfl, h⟩
  have hsub2 := hsub.filter fun o => decide (∃ x, o = some x ∧ x < k)
  have he : [some r, some r'].filter (fun o => decide (∃ x, o = some x ∧ x < k)) = [some r, some r'] := by
    rw [List.filter_eq_self]
    intro o ho
    simp only [List.mem_cons, List.not_mem_nil, or_false] at ho
    rcases ho with rfl | rfl
    · simpa using hrk
    · simpa using hrk'
  rw [he] at hsub2
  have := hpw.sublist hsub2
  simp only [List.pairwise_cons, List.mem_singleton, forall_eq] at this
  obtain ⟨⟨x, y, h4, h5, h6⟩, _⟩ := this
  simp only [Option.some.injEq] at h4 h5
  omega

include hC hne hk hobs in
/-- A successful merge yields a proper collection: no camera is lost, every new group contains an old one. -/
theorem merged_collection (m : OMap Nat (CamGroup G)) (hm : mergeWith gs pp choose = .ok m) :
    Collection m ∧ (∀ i g, OMap.get? m i = some g → g.objObs = [] ∧ g.frames = []) ∧
      (∀ j gj q, OMap.get? gs j = some gj → q ∈ OMap.keys gj.cameras →
        ∃ i g, OMap.get? m i = some g ∧ q ∈ OMap.keys g.cameras) ∧
      (∀ i g, OMap.get? m i = some g → ∃ j gj, OMap.get? gs j = some gj ∧
        ∀ q ∈ OMap.keys gj.cameras, q ∈ OMap.keys g.cameras) ∧
      (∃ k', OMap.keys m = List.range k') ∧
      ∀ i g q, OMap.get? m i = some g → q ∈ OMap.keys g.cameras →
        ∃ j gj, OMap.get? gs j = some gj ∧ q ∈ OMap.keys gj.cameras := by
  unfold mergeWith at hm
  generalize (fun k => (OMap.get? pp.cnt k).getD 0) = cnt at hm
  obtain ⟨hp, hc⟩ := comps hne cnt (gs := gs)
  obtain ⟨pl, hs, hpl, hkm, h2⟩ := merged hC hne cnt choose m hm
  have hget : ∀ i g, OMap.get? m i = some g → ∃ c r, (groupGraph gs pp.pose cnt).connectedComponents[i]? = some c ∧
      minElement c = .ok r ∧ MergedBy gs pl i r c g := by
    intro i g hg
    have hi : i ∈ OMap.keys m := OMap.mem_keys.2 ⟨g, hg⟩
    rw [hkm, List.mem_range] at hi
    obtain ⟨g', r, e1, e2, e3⟩ := h2 i _ (List.getElem?_eq_getElem hi)
    rw [hg] at e2
    simp only [Option.some.injEq] at e2
    subst e2
    exact ⟨_, r, List.getElem?_eq_getElem hi, e1, e3⟩
  have hleast : ∀ c ∈ (groupGraph gs pp.pose cnt).connectedComponents, ∀ r, minElement c = .ok r →
      r ∈ c ∧ ∀ x ∈ c, r ≤ x := by
    intro c hcm r hr
    obtain ⟨r', e1, e2, e3⟩ := minElement_ok (hc c hcm).1
    rw [hr] at e1
    simp only [Outcome.ok.injEq] at e1
    subst e1
    exact ⟨e2, e3⟩
  have hmin : ∀ c ∈ (groupGraph gs pp.pose cnt).connectedComponents, ∀ r, minElement c = .ok r → r < k := by
    intro c hcm r hr
    obtain ⟨i, hi⟩ := List.mem_iff_getElem?.1 hcm
    obtain ⟨g', r', e1, _, e3⟩ := h2 i c hi
    rw [hr] at e1
    simp only [Outcome.ok.injEq] at e1
    subst e1
    obtain ⟨rg, h, _⟩ := e3.ref
    have : r ∈ OMap.keys gs := OMap.mem_keys.2 ⟨rg, h⟩
    rwa [hk, List.mem_range] at this
  have hflat : (groupGraph gs pp.pose cnt).connectedComponents.flatten.Nodup :=
    hp.nodup_iff.2 (Graph.nodup_firstOccs _)
  refine ⟨⟨hs, ?_, ?_, ?_, ?_, ?_, ?_, ?_, ?_, ?_, ?_⟩, ?_, ?_, ?_, ⟨_, hkm⟩, fun i g q h hq => by
    obtain ⟨c, r, _, _, hM⟩ := hget i g h
    obtain ⟨j, _, gj, hgj, hqj⟩ := (hM.keys q).1 hq
    exact ⟨j, gj, hgj, hqj⟩⟩
  · intro i g h; obtain ⟨c, r, _, _, hM⟩ := hget i g h; exact hM.id
  · intro i g h; obtain ⟨c, r, _, _, hM⟩ := hget i g h; exact hM.cameras_sorted
  · intro i g h; obtain ⟨c, r, _, _, hM⟩ := hget i g h; exact hM.poses_sorted
  · intro i g h; obtain ⟨c, r, _, _, hM⟩ := hget i g h; exact hM.posesKeys
  · intro i g h; obtain ⟨c, r, _, _, hM⟩ := hget i g h; exact hM.camIdx
  · intro i j g g' hi hj q hq hq'
    obtain ⟨c, r, hci, _, hM⟩ := hget i g hi
    obtain ⟨c', r', hcj, _, hM'⟩ := hget j g' hj
    obtain ⟨a, ha, ga, hga, hqa⟩ := (hM.keys q).1 hq
    obtain ⟨b, hb, gb, hgb, hqb⟩ := (hM'.keys q).1 hq'
    have := hC.disjoint a b ga gb hga hgb q hqa hqb
    subst this
    by_contra hij
    rcases Nat.lt_or_gt_of_ne hij with h | h
    · exact nodup_pair hflat (pair_sublist hci hcj h) ha hb
    · exact nodup_pair hflat (pair_sublist hcj hci h) hb ha
  · intro i g h
    obtain ⟨c, r, hci, hr, hM⟩ := hget i g h
    obtain ⟨rg, h2, h3⟩ := hM.ref
    rw [hM.keys]
    exact ⟨r, (hleast c (List.mem_of_getElem? hci) r hr).1, rg, h2, h3 ▸ hC.ref_mem r rg h2⟩
  · intro i g h q hq
    obtain ⟨c, r, hci, hr, hM⟩ := hget i g h
    obtain ⟨rg, h2, h3⟩ := hM.ref
    obtain ⟨j, hj, gj, hgj, hqj⟩ := (hM.keys q).1 hq
    have hle := (hleast c (List.mem_of_getElem? hci) r hr).2 j hj
    rw [h3]
    rcases Nat.lt_or_eq_of_le hle with h' | h'
    · exact Nat.le_trans (Nat.le_of_lt (hC.ref_incr r j rg gj h2 hgj h')) (hC.ref_least j gj hgj q hqj)
    · subst h'
      rw [h2] at hgj
      simp only [Option.some.injEq] at hgj
      subst hgj
      exact hC.ref_least r rg h2 q hqj
  · intro i g h
    obtain ⟨c, r, hci, hr, hM⟩ := hget i g h
    obtain ⟨rg, h2, h3⟩ := hM.ref
    have := hM.pose r (hleast c (List.mem_of_getElem? hci) r hr).1 rg h2 rg.refCam 1 (hC.ref_pose r rg h2)
    rw [h3, this, hpl, mul_one]
  · intro i j g g' hi hj hij
    obtain ⟨c, r, hci, hr, hM⟩ := hget i g hi
    obtain ⟨c', r', hcj, hr', hM'⟩ := hget j g' hj
    obtain ⟨rg, h2, h3⟩ := hM.ref
    obtain ⟨rg', h2', h3'⟩ := hM'.ref
    rw [h3, h3']
    exact hC.ref_incr r r' rg rg' h2 h2' (minima_lt hC pp hne k hk hobs cnt hmin hci hcj hij hr hr')
  · intro i g h; obtain ⟨c, r, _, _, hM⟩ := hget i g h; exact ⟨hM.objObs, hM.frames⟩
  · intro j gj q hj hq
    have hv : j ∈ (groupGraph gs pp.pose cnt).connectedComponents.flatten :=
      hp.symm.subset ((mem_vertices cnt j).2 (Or.inl ((mem_groupVertices hC).2 ⟨gj, hj, hobs j gj hj⟩)))
    obtain ⟨c, hcm, hjc⟩ := List.mem_flatten.1 hv
    obtain ⟨i, hi⟩ := List.mem_iff_getElem?.1 hcm
    obtain ⟨g, r, _, e2, e3⟩ := h2 i c hi
    exact ⟨i, g, e2, (e3.keys q).2 ⟨j, hjc, gj, hj, hq⟩⟩
  · intro i g h
    obtain ⟨c, r, hci, hr, hM⟩ := hget i g h
    obtain ⟨rg, h2, h3⟩ := hM.ref
    refine ⟨r, rg, h2, fun q hq => (hM.keys q).2 ⟨r, (hleast c (List.mem_of_getElem? hci) r hr).1, rg, h2, hq⟩⟩

end

end Verif.Lemmas.Finish
