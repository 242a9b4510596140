import Verif.Lemmas.NonOverlapPoses

namespace Verif.Lemmas.GroupMerge
open Verif Verif.NonOverlap Verif.Groups Verif.Objects Verif.Structure
open Verif.Spec.Groups Verif.Spec.Structure Verif.Spec.NonOverlap
open Verif.Lemmas.Structure Verif.Lemmas.Groups Verif.Lemmas.Objects Relation

variable {G : Type}

theorem foldlM_ok_or_throw {σ α : Type} (f : σ → α → Outcome σ) (l : List α)
    (h : ∀ x ∈ l, ∀ s, (∃ s', f s x = .ok s') ∨ f s x = .throw) (s : σ) :
    (∃ s', Outcome.foldlM f s l = .ok s') ∨ Outcome.foldlM f s l = .throw := by
  induction l generalizing s with
  | nil => exact Or.inl ⟨s, rfl⟩
  | cons x l ih =>
    rw [Outcome.foldlM_cons]
    rcases h x (by simp) s with ⟨s', e⟩ | e
    · rw [e, Outcome.bind_ok]
      exact ih (fun y hy => h y (by simp [hy])) s'
    · rw [e]; exact Or.inr rfl

theorem foldlM_throw {σ α : Type} (f : σ → α → Outcome σ) (l : List α)
    (h : ∀ x ∈ l, ∀ s, (∃ s', f s x = .ok s') ∨ f s x = .throw) (x : α) (hx : x ∈ l)
    (hf : ∀ s, f s x = .throw) (s : σ) : Outcome.foldlM f s l = .throw := by
  induction l generalizing s with
  | nil => cases hx
  | cons y l ih =>
    rw [Outcome.foldlM_cons]
    rcases List.mem_cons.1 hx with rfl | hx
    · rw [hf s]; rfl
    · rcases h y (by simp) s with ⟨s', e⟩ | e
      · rw [e, Outcome.bind_ok]
        exact ih (fun y hy => h y (by simp [hy])) hx s'
      · rw [e]; rfl

/-- Cameras inserted one after the other. -/
def insertPairs (st : CamGroup G) (L : List (Nat × G)) : CamGroup G :=
  L.foldl (fun st e => insertCamera st e.1 e.2) st

theorem insertPairs_spec (L : List (Nat × G)) (hnd : (L.map (·.1)).Nodup) (i r : Nat) :
    let g := insertPairs ({ id := i, refCam := r } : CamGroup G) L
    OMap.Sorted g.cameras ∧ OMap.Sorted g.poses ∧ g.camIdx = L.map (·.1) ∧ g.id = i ∧ g.refCam = r ∧
      g.objObs = [] ∧ g.frames = [] ∧ (∀ q, q ∈ OMap.keys g.cameras ↔ q ∈ L.map (·.1)) ∧
      ∀ q x, OMap.get? g.poses q = some x ↔ (q, x) ∈ L := by
  intro g
  simp only [g]
  clear g
  induction L using List.reverseRecOn with
  | nil =>
    exact ⟨List.Pairwise.nil, List.Pairwise.nil, rfl, rfl, rfl, rfl, rfl,
      by simp [insertPairs, OMap.keys], by simp [insertPairs]⟩
  | append_singleton L e ih =>
    rw [List.map_append, List.nodup_append] at hnd
    obtain ⟨hn1, _, hn3⟩ := hnd
    obtain ⟨h1, h2, h3, h4, h5, h6, h7, h8, h9⟩ := ih hn1
    have he : e.1 ∉ L.map (·.1) := fun h => hn3 _ h e.1 (by simp) rfl
    have hfold : insertPairs ({ id := i, refCam := r } : CamGroup G) (L ++ [e]) =
        insertCamera (insertPairs ({ id := i, refCam := r } : CamGroup G) L) e.1 e.2 := by
      unfold insertPairs
      rw [List.foldl_append]
      rfl
    rw [hfold]
    generalize insertPairs ({ id := i, refCam := r } : CamGroup G) L = st at *
    refine ⟨OMap.sorted_set _ _ _ h1, OMap.sorted_set _ _ _ h2, ?_, h4, h5, h6, h7, ?_, ?_⟩
    · show st.camIdx ++ [e.1] = _
      rw [h3]; simp
    · intro q
      show q ∈ OMap.keys (OMap.set st.cameras e.1 ()) ↔ _
      rw [OMap.mem_keys_set h1, h8]
      simp [or_comm]
    · intro q x
      show OMap.get? (OMap.set st.poses e.1 e.2) q = some x ↔ _
      rw [OMap.get?_set _ _ _ _ h2, List.mem_append, List.mem_singleton]
      by_cases hq : q = e.1
      · subst hq
        rw [if_pos rfl]
        have : (e.1, x) ∉ L := fun h => he (List.mem_map.2 ⟨_, h, rfl⟩)
        simp only [this, false_or, Option.some.injEq]
        constructor
        · rintro rfl; rfl
        · intro h; rw [← h]
      · rw [if_neg hq, h9]
        constructor
        · exact Or.inl
        · rintro (h | rfl)
          · exact h
          · exact absurd rfl hq

/-- What is known of a group merged from the component `c` of groups. -/
structure MergedFrom [Group G] (gs : OMap Nat (CamGroup G)) (pl : Nat → Nat → G) (i : Nat) (c : List Nat)
    (g : CamGroup G) : Prop where
  cameras_sorted : OMap.Sorted g.cameras
  poses_sorted : OMap.Sorted g.poses
  id : g.id = i
  ref : ∃ r rg, c.head? = some r ∧ OMap.get? gs r = some rg ∧ g.refCam = rg.refCam
  camIdx : g.camIdx.Perm (OMap.keys g.cameras)
  keys : ∀ q, q ∈ OMap.keys g.cameras ↔ ∃ j ∈ c, ∃ gj, OMap.get? gs j = some gj ∧
    q ∈ OMap.keys gj.cameras
  posesKeys : OMap.keys g.poses = OMap.keys g.cameras
  pose : ∀ j ∈ c, ∀ gj, OMap.get? gs j = some gj → ∀ q x, OMap.get? gj.poses q = some x →
    ∃ r, c.head? = some r ∧ OMap.get? g.poses q = some (x * pl r j)
  objObs : g.objObs = []
  frames : g.frames = []

theorem foldlM_mergeGroupPlace [Group G] (T : OMap (Nat × Nat) G) (g : Graph Nat)
    (choose : Nat → Nat → Graph.DState → Nat) (r : Nat) (c : List Nat) (pl : Nat → G)
    (hpl : ∀ j ∈ c, placement id T g (choose r j) r j = .ok (pl j)) (m : OMap Nat G)
    (hm : OMap.Sorted m) :
    ∃ m', Outcome.foldlM (mergeGroupPlace T g choose r) m c = .ok m' ∧ OMap.Sorted m' ∧
      ∀ j, OMap.get? m' j = if j ∈ c then some (pl j) else OMap.get? m j := by
  induction c generalizing m with
  | nil => exact ⟨m, rfl, hm, by simp⟩
  | cons j c ih =>
    obtain ⟨m', e, h1, h2⟩ := ih (fun k hk => hpl k (by simp [hk])) (OMap.set m j (pl j))
      (OMap.sorted_set _ _ _ hm)
    refine ⟨m', ?_, h1, fun k => ?_⟩
    · have hj : mergeGroupPlace T g choose r m j = .ok (OMap.set m j (pl j)) := by
        unfold mergeGroupPlace
        rw [hpl j (by simp), Outcome.bind_ok]; rfl
      rw [Outcome.foldlM_cons, hj, Outcome.bind_ok, e]
    · rw [h2, OMap.get?_set _ _ _ _ hm]
      simp only [List.mem_cons]
      by_cases hk : k ∈ c <;> by_cases hkj : k = j <;> simp [hk, hkj]

/-- A group made from the cameras of the groups in `c`, in the frame of group `r`. -/
structure MergedBy [Group G] (gs : OMap Nat (CamGroup G)) (pl : Nat → Nat → G) (i r : Nat) (c : List Nat)
    (g : CamGroup G) : Prop where
  cameras_sorted : OMap.Sorted g.cameras
  poses_sorted : OMap.Sorted g.poses
  id : g.id = i
  ref : ∃ rg, OMap.get? gs r = some rg ∧ g.refCam = rg.refCam
  camIdx : g.camIdx.Perm (OMap.keys g.cameras)
  keys : ∀ q, q ∈ OMap.keys g.cameras ↔ ∃ j ∈ c, ∃ gj, OMap.get? gs j = some gj ∧
    q ∈ OMap.keys gj.cameras
  posesKeys : OMap.keys g.poses = OMap.keys g.cameras
  pose : ∀ j ∈ c, ∀ gj, OMap.get? gs j = some gj → ∀ q x, OMap.get? gj.poses q = some x →
    OMap.get? g.poses q = some (x * pl r j)
  objObs : g.objObs = []
  frames : g.frames = []

theorem mergeGroup_by [Group G] {gs : OMap Nat (CamGroup G)} (hC : Collection gs)
    (T : OMap (Nat × Nat) G) (g : Graph Nat) (choose : Nat → Nat → Graph.DState → Nat) (i r : Nat)
    (c : List Nat) (hs : minElement c = .ok r) (pl : Nat → Nat → G)
    (hpl : ∀ j ∈ c, placement id T g (choose r j) r j = .ok (pl r j))
    (hmem : r ∈ OMap.keys gs) :
    ∃ o : CamGroup G, mergeGroup gs T g choose i c = .ok o ∧
      MergedBy gs pl i r c o := by
  obtain ⟨rg, hrg⟩ := OMap.mem_keys.1 hmem
  obtain ⟨tr, htr, _, htr2⟩ := foldlM_mergeGroupPlace T g choose r c (pl r) hpl []
    List.Pairwise.nil
  let L : List (Nat × G) := (gs.filter fun e => e.1 ∈ c).flatMap fun e =>
    e.2.cameras.map fun b => (b.1, (OMap.get? e.2.poses b.1).getD 1 * pl r e.1)
  have hLmem : ∀ b x, (b, x) ∈ L ↔ ∃ j oj, j ∈ c ∧ OMap.get? gs j = some oj ∧
      b ∈ OMap.keys oj.cameras ∧ x = (OMap.get? oj.poses b).getD 1 * pl r j := by
    intro b x
    simp only [L, List.mem_flatMap, List.mem_filter, List.mem_map, decide_eq_true_eq, Prod.mk.injEq]
    constructor
    · rintro ⟨⟨j, oj⟩, ⟨h1, h2⟩, ⟨b', u⟩, h3, rfl, rfl⟩
      exact ⟨j, oj, h2, (OMap.get?_eq_some hC.sorted).2 h1, List.mem_map.2 ⟨_, h3, rfl⟩, rfl⟩
    · rintro ⟨j, oj, h1, h2, h3, rfl⟩
      obtain ⟨⟨b', u⟩, h4, rfl⟩ := List.mem_map.1 h3
      exact ⟨(j, oj), ⟨(OMap.get?_eq_some hC.sorted).1 h2, h1⟩, (b', u), h4, rfl, rfl⟩
  have hfold : ∀ (l : OMap Nat (CamGroup G)), (∀ e ∈ l, e ∈ gs) → ∀ st : CamGroup G,
      Outcome.foldlM (mergeGroupInto c tr) st l = .ok (insertPairs st
        ((l.filter fun e => e.1 ∈ c).flatMap fun e =>
          e.2.cameras.map fun b => (b.1, (OMap.get? e.2.poses b.1).getD 1 * pl r e.1))) := by
    intro l
    induction l with
    | nil => intro _ st; rfl
    | cons e l ih =>
      intro hl st
      have hid := hC.id e.1 e.2 ((OMap.get?_eq_some hC.sorted).2 (hl e (by simp)))
      rw [Outcome.foldlM_cons, List.filter_cons]
      by_cases he : e.1 ∈ c
      · have hstep : mergeGroupInto c tr st e = .ok (e.2.cameras.foldl (mergeCam e.2 (pl r e.1)) st) := by
          unfold mergeGroupInto
          rw [hid, if_pos he, htr2, if_pos he]
        rw [hstep, if_pos (by simpa using he), Outcome.bind_ok,
          ih (fun x hx => hl x (by simp [hx])), List.flatMap_cons]
        unfold insertPairs
        rw [List.foldl_append, List.foldl_map]
        rfl
      · have hstep : mergeGroupInto c tr st e = .ok st := by
          unfold mergeGroupInto
          rw [hid, if_neg he]
        rw [hstep, Outcome.bind_ok, if_neg (by simpa using he)]
        exact ih (fun x hx => hl x (by simp [hx])) st
  have hnodup : (L.map (·.1)).Nodup := by
    have hL' : L.map (·.1) = (gs.filter fun e => e.1 ∈ c).flatMap fun e =>
        OMap.keys e.2.cameras := by
      simp only [L, List.map_flatMap, List.map_map]
      rfl
    rw [hL', List.nodup_flatMap]
    refine ⟨?_, ?_⟩
    · rintro ⟨j, oj⟩ hj
      have := (OMap.get?_eq_some hC.sorted).2 (List.mem_filter.1 hj).1
      exact OMap.keys_nodup (hC.cameras_sorted j oj this)
    · have hpw : gs.Pairwise fun a b => Key.lt a.1 b.1 = true := hC.sorted
      refine List.Pairwise.imp_of_mem ?_ (List.Pairwise.filter _ hpw)
      rintro ⟨j, oj⟩ ⟨k, ok⟩ hj hk hlt
      intro b hb hb'
      have h1 := (OMap.get?_eq_some hC.sorted).2 (List.mem_filter.1 hj).1
      have h2 := (OMap.get?_eq_some hC.sorted).2 (List.mem_filter.1 hk).1
      exact OMap.lt_ne hlt (hC.disjoint j k oj ok h1 h2 b hb hb')
  obtain ⟨h1, h2, h3, h4, h5, h6, h7, h8, h9⟩ := insertPairs_spec L hnodup i rg.refCam
  have hkeys : ∀ q, q ∈ L.map (·.1) ↔ ∃ j ∈ c, ∃ gj, OMap.get? gs j = some gj ∧
      q ∈ OMap.keys gj.cameras := by
    intro q
    rw [List.mem_map]
    constructor
    · rintro ⟨⟨b, x⟩, hx, rfl⟩
      obtain ⟨j, oj, q1, q2, q3, _⟩ := (hLmem b x).1 hx
      exact ⟨j, q1, oj, q2, q3⟩
    · rintro ⟨j, q1, oj, q2, q3⟩
      exact ⟨_, (hLmem q _).2 ⟨j, oj, q1, q2, q3, rfl⟩, rfl⟩
  refine ⟨_, ?_, h1, h2, h4, ⟨rg, hrg, h5⟩, ?_, ?_, ?_, ?_, h6, h7⟩
  · unfold mergeGroup
    rw [hs, Outcome.bind_ok, hrg, Outcome.deref_some, Outcome.bind_ok, htr,
      Outcome.bind_ok, hfold gs (fun _ h => h)]
  · rw [h3]
    exact (List.perm_ext_iff_of_nodup hnodup (OMap.keys_nodup h1)).2 fun q => (h8 q).symm
  · intro q
    rw [h8, hkeys]
  · apply OMap.sorted_keys_ext (OMap.keys_sorted h2) (OMap.keys_sorted h1)
    intro q
    rw [h8, OMap.mem_keys, List.mem_map]
    constructor
    · rintro ⟨x, hx⟩
      exact ⟨(q, x), (h9 q x).1 hx, rfl⟩
    · rintro ⟨⟨q', x⟩, hx, rfl⟩
      exact ⟨x, (h9 _ x).2 hx⟩
  · intro j hj oj hoj b x hx
    have hb : b ∈ OMap.keys oj.cameras := by
      rw [← hC.poses j oj hoj]
      exact OMap.mem_keys.2 ⟨x, hx⟩
    rw [h9]
    exact (hLmem _ _).2 ⟨j, oj, hj, hoj, hb, by rw [hx]; rfl⟩

theorem mergeGroup_ok [Group G] {gs : OMap Nat (CamGroup G)} (hC : Collection gs)
    (T : OMap (Nat × Nat) G) (g : Graph Nat) (choose : Nat → Nat → Graph.DState → Nat) (i r : Nat)
    (c : List Nat) (hs : (r :: c).Pairwise (· < ·)) (pl : Nat → Nat → G)
    (hpl : ∀ j ∈ r :: c, placement id T g (choose r j) r j = .ok (pl r j))
    (hmem : ∀ j ∈ r :: c, j ∈ OMap.keys gs) :
    ∃ o : CamGroup G, mergeGroup gs T g choose i (r :: c) = .ok o ∧
      MergedFrom gs pl i (r :: c) o := by
  obtain ⟨o, h1, h⟩ := mergeGroup_by hC T g choose i r (r :: c) (minElement_sorted hs) pl hpl
    (hmem r (by simp))
  obtain ⟨rg, h2, h3⟩ := h.ref
  exact ⟨o, h1, h.cameras_sorted, h.poses_sorted, h.id, ⟨r, rg, rfl, h2, h3⟩, h.camIdx, h.keys,
    h.posesKeys, fun j hj gj hgj q x hx => ⟨r, rfl, h.pose j hj gj hgj q x hx⟩, h.objObs, h.frames⟩

/-- Requirements on the table of transforms between groups. -/
structure PairsOk (gs : OMap Nat (CamGroup G)) (T : OMap (Nat × Nat) G) : Prop where
  sorted : OMap.Sorted T
  ne : ∀ a b, (a, b) ∈ OMap.keys T → a ≠ b
  mem : ∀ a b, (a, b) ∈ OMap.keys T → a ∈ groupVertices gs ∧ b ∈ groupVertices gs

theorem adj_groupEdges (T : OMap (Nat × Nat) G) (cnt : Nat × Nat → Nat) :
    Adj (groupEdges T cnt) = Joined T := by
  funext a b
  apply propext
  unfold Adj Joined groupEdges OMap.keys
  simp only [List.mem_map, Prod.mk.injEq]
  constructor
  · rintro ⟨w, ⟨e, he, h1, h2, _⟩ | ⟨e, he, h1, h2, _⟩⟩
    · exact Or.inl ⟨e, he, Prod.ext h1 h2⟩
    · exact Or.inr ⟨e, he, Prod.ext h1 h2⟩
  · rintro (⟨e, he, h⟩ | ⟨e, he, h⟩)
    · exact ⟨_, Or.inl ⟨e, he, by rw [h], by rw [h], rfl⟩⟩
    · exact ⟨_, Or.inr ⟨e, he, by rw [h], by rw [h], rfl⟩⟩

theorem groupVertices_eq [Group G] {gs : OMap Nat (CamGroup G)} (hC : Collection gs) :
    groupVertices gs = (gs.filter fun e => decide (e.2.objObs.length > 0)).map (·.1) := by
  unfold groupVertices
  apply List.map_congr_left
  intro e he
  exact hC.id e.1 e.2 ((OMap.get?_eq_some hC.sorted).2 (List.mem_filter.1 he).1)

theorem groupVertices_sorted [Group G] {gs : OMap Nat (CamGroup G)} (hC : Collection gs) :
    (groupVertices gs).Pairwise (· < ·) := by
  rw [groupVertices_eq hC, List.pairwise_map]
  have hpw : gs.Pairwise fun a b => Key.lt a.1 b.1 = true := hC.sorted
  exact (List.Pairwise.filter _ hpw).imp fun h => by simpa [Key.lt] using h

theorem mem_groupVertices [Group G] {gs : OMap Nat (CamGroup G)} (hC : Collection gs) {i : Nat} :
    i ∈ groupVertices gs ↔ ∃ g, OMap.get? gs i = some g ∧ g.objObs ≠ [] := by
  rw [groupVertices_eq hC, List.mem_map]
  constructor
  · rintro ⟨⟨i', g⟩, he, rfl⟩
    rw [List.mem_filter, decide_eq_true_eq] at he
    refine ⟨g, (OMap.get?_eq_some hC.sorted).2 he.1, fun h => ?_⟩
    have := he.2
    rw [h] at this
    simp at this
  · rintro ⟨g, hg, hne⟩
    exact ⟨(i, g), List.mem_filter.2 ⟨(OMap.get?_eq_some hC.sorted).1 hg, by
      simpa using List.length_pos_iff.2 hne⟩, rfl⟩

section
variable [Group G] {gs : OMap Nat (CamGroup G)} (hC : Collection gs) {T : OMap (Nat × Nat) G}
  (hT : PairsOk gs T) (cnt : Nat × Nat → Nat) (choose : Nat → Nat → Graph.DState → Nat)

omit [Group G] in
include hT in
theorem edgesOk : ∀ e ∈ groupEdges T cnt, e.1 ≠ e.2.1 ∧ e.1 ∈ groupVertices gs ∧
    e.2.1 ∈ groupVertices gs ∧ 0 ≤ e.2.2 := by
  intro e he
  unfold groupEdges at he
  obtain ⟨⟨⟨a, b⟩, x⟩, hx, rfl⟩ := List.mem_map.1 he
  have hk : (a, b) ∈ OMap.keys T := List.mem_map.2 ⟨_, hx, rfl⟩
  exact ⟨hT.ne a b hk, (hT.mem a b hk).1, (hT.mem a b hk).2, by
    apply div_nonneg
    · decide
    · exact Nat.cast_nonneg _⟩

include hC hT in
theorem group_partition : IsPartition (Joined T) (groupVertices gs)
    (groupGraph gs T cnt).connectedComponents := by
  rw [← adj_groupEdges T cnt]
  exact comps_partition (groupVertices_sorted hC) fun e he =>
    ⟨(edgesOk hT cnt e he).1, (edgesOk hT cnt e he).2.1, (edgesOk hT cnt e he).2.2.1⟩

include hC hT in
theorem group_path (ch : Graph.DState → Nat) {a b : Nat} (ha : a ∈ groupVertices gs)
    (hab : ReflTransGen (Joined T) a b) :
    ∃ p, (groupGraph gs T cnt).shortestPathBetween ch a b = .ok p ∧ IsPath (Joined T) a b p := by
  rw [← adj_groupEdges T cnt] at hab ⊢
  exact path_spec ((groupVertices_sorted hC).imp Nat.ne_of_lt) (edgesOk hT cnt) ch ha hab

theorem chain_value (step : G → G) (L : List (Nat × Nat)) (acc : G)
    (h : ∀ e ∈ L, e ∈ OMap.keys T) :
    Outcome.foldlM (chainStep step T) acc L =
      .ok (acc * (L.map fun e => step ((OMap.get? T e).getD 1)).prod) := by
  induction L generalizing acc with
  | nil => simp
  | cons e L ih =>
    obtain ⟨x, hx⟩ := OMap.mem_keys.1 (h e (by simp))
    rw [Outcome.foldlM_cons]
    have : chainStep step T acc e = .ok (acc * step x) := by
      unfold chainStep; rw [hx]
    rw [this, Outcome.bind_ok, ih _ fun e he => h e (by simp [he]), List.map_cons, List.prod_cons, hx,
      Option.getD_some, mul_assoc]

theorem chain_throw (step : G → G) (L : List (Nat × Nat)) (acc : G)
    (h : ∃ e ∈ L, e ∉ OMap.keys T) : Outcome.foldlM (chainStep step T) acc L = .throw := by
  obtain ⟨e, he, hn⟩ := h
  refine foldlM_throw _ L ?_ e he ?_ acc
  · intro x _ s
    unfold chainStep
    cases OMap.get? T x with
    | none => exact Or.inr rfl
    | some y => exact Or.inl ⟨_, rfl⟩
  · intro s
    unfold chainStep
    rw [OMap.get?_eq_none.2 hn]

include hC hT in
/-- Placement of a group: the path exists; the value is the product along it, or the look-up of a
missing transform throws. -/
theorem group_placement (ch : Graph.DState → Nat) {a b : Nat} (ha : a ∈ groupVertices gs)
    (hab : ReflTransGen (Joined T) a b) :
    ∃ p, (groupGraph gs T cnt).shortestPathBetween ch a b = .ok p ∧ IsPath (Joined T) a b p ∧
      ((∀ e ∈ p.zip p.tail, e ∈ OMap.keys T) ∧ placement id T (groupGraph gs T cnt) ch a b =
        .ok ((p.zip p.tail).map fun e => (OMap.get? T e).getD 1).prod ∨
       (∃ e ∈ p.zip p.tail, e ∉ OMap.keys T) ∧ placement id T (groupGraph gs T cnt) ch a b = .throw) := by
  obtain ⟨p, h1, h2⟩ := group_path hC hT cnt ch ha hab
  refine ⟨p, h1, h2, ?_⟩
  have hcons : consecutive p = p.zip p.tail := by cases p <;> rfl
  by_cases h : ∀ e ∈ p.zip p.tail, e ∈ OMap.keys T
  · refine Or.inl ⟨h, ?_⟩
    unfold placement
    rw [h1, Outcome.bind_ok]
    unfold chain
    rw [hcons, chain_value id _ _ h, one_mul]
    rfl
  · right
    simp only [not_forall] at h
    obtain ⟨e, he, hn⟩ := h
    refine ⟨⟨e, he, hn⟩, ?_⟩
    unfold placement
    rw [h1, Outcome.bind_ok]
    unfold chain
    rw [hcons, chain_throw id _ _ ⟨e, he, hn⟩]

/-- The placements needed by the merge. -/
def Needed (gs : OMap Nat (CamGroup G)) (T : OMap (Nat × Nat) G) (cnt : Nat × Nat → Nat) (r j : Nat) :
    Prop := ∃ c ∈ (groupGraph gs T cnt).connectedComponents, c.head? = some r ∧ j ∈ c

include hC hT in
/-- The merge of camera groups, if all needed placements are known. -/
theorem mergeCameraGroup_ok (pl : Nat → Nat → G)
    (hpl : ∀ r j, Needed gs T cnt r j →
      placement id T (groupGraph gs T cnt) (choose r j) r j = .ok (pl r j)) :
    ∃ m, mergeCameraGroup gs T (groupGraph gs T cnt) choose = .ok m ∧ Collection m ∧
      OMap.keys m = List.range (groupGraph gs T cnt).connectedComponents.length ∧
      ∀ i c, (groupGraph gs T cnt).connectedComponents[i]? = some c → ∃ g, OMap.get? m i = some g ∧
        MergedFrom gs pl i c g := by
  have hpart := group_partition hC hT cnt
  have hvs := groupVertices_sorted hC
  obtain ⟨m, e, hk, hsm, hm⟩ := foldlM_number
    (fun i c => mergeGroup gs T (groupGraph gs T cnt) choose i c)
    (fun i c o => MergedFrom gs pl i c o) (groupGraph gs T cnt).connectedComponents (by
      intro i c hc
      have hcm := List.mem_of_getElem? hc
      have hsub : ∀ b ∈ c, b ∈ groupVertices gs := fun b hbc =>
        hpart.perm.subset (List.mem_flatten.2 ⟨c, hcm, hbc⟩)
      cases c with
      | nil => exact absurd rfl (hpart.nonempty _ hcm)
      | cons r c =>
        apply mergeGroup_ok hC _ _ _ _ _ _ (hpart.sorted _ hcm)
        · intro j hj
          exact hpl r j ⟨_, hcm, rfl, hj⟩
        · intro j hj
          obtain ⟨g, hg, _⟩ := (mem_groupVertices hC).1 (hsub j hj)
          exact OMap.mem_keys.2 ⟨g, hg⟩)
  have hget : ∀ i g, OMap.get? m i = some g →
      ∃ c, (groupGraph gs T cnt).connectedComponents[i]? = some c ∧ MergedFrom gs pl i c g := by
    intro i g ho
    have hi : i ∈ OMap.keys m := OMap.mem_keys.2 ⟨g, ho⟩
    rw [hk, List.mem_range] at hi
    obtain ⟨o', h1, h2⟩ := hm i _ (List.getElem?_eq_getElem hi)
    rw [ho] at h1
    simp only [Option.some.injEq] at h1
    subst h1
    exact ⟨_, List.getElem?_eq_getElem hi, h2⟩
  refine ⟨m, e, ?_, hk, hm⟩
  refine ⟨hsm, ?_, ?_, ?_, ?_, ?_, ?_, ?_, ?_, ?_, ?_⟩
  · intro i g h; obtain ⟨c, _, hM⟩ := hget i g h; exact hM.id
  · intro i g h; obtain ⟨c, _, hM⟩ := hget i g h; exact hM.cameras_sorted
  · intro i g h; obtain ⟨c, _, hM⟩ := hget i g h; exact hM.poses_sorted
  · intro i g h; obtain ⟨c, _, hM⟩ := hget i g h; exact hM.posesKeys
  · intro i g h; obtain ⟨c, _, hM⟩ := hget i g h; exact hM.camIdx
  · intro i j g g' hi hj q hq hq'
    obtain ⟨c, hc, hM⟩ := hget i g hi
    obtain ⟨c', hc', hM'⟩ := hget j g' hj
    obtain ⟨a, ha, ga, hga, hqa⟩ := (hM.keys q).1 hq
    obtain ⟨b, hb, gb, hgb, hqb⟩ := (hM'.keys q).1 hq'
    have := hC.disjoint a b ga gb hga hgb q hqa hqb
    subst this
    exact hpart.index_unique (hvs.imp Nat.ne_of_lt) hc hc' ha hb
  · intro i g h
    obtain ⟨c, _, hM⟩ := hget i g h
    obtain ⟨r, rg, h1, h2, h3⟩ := hM.ref
    rw [hM.keys]
    exact ⟨r, mem_of_head? h1, rg, h2, h3 ▸ hC.ref_mem r rg h2⟩
  · intro i g h q hq
    obtain ⟨c, hc, hM⟩ := hget i g h
    obtain ⟨r, rg, h1, h2, h3⟩ := hM.ref
    obtain ⟨j, hj, gj, hgj, hqj⟩ := (hM.keys q).1 hq
    have hle := head_le (hpart.sorted _ (List.mem_of_getElem? hc)) h1 hj
    rw [h3]
    rcases Nat.lt_or_eq_of_le hle with h' | h'
    · exact Nat.le_trans (Nat.le_of_lt (hC.ref_incr r j rg gj h2 hgj h')) (hC.ref_least j gj hgj q hqj)
    · subst h'
      rw [h2] at hgj
      simp only [Option.some.injEq] at hgj
      subst hgj
      exact hC.ref_least r rg h2 q hqj
  · intro i g h
    obtain ⟨c, hc, hM⟩ := hget i g h
    obtain ⟨r, rg, h1, h2, h3⟩ := hM.ref
    have hcm := List.mem_of_getElem? hc
    obtain ⟨r', h4, h5⟩ := hM.pose r (mem_of_head? h1) rg h2 rg.refCam 1 (hC.ref_pose r rg h2)
    rw [h1] at h4
    simp only [Option.some.injEq] at h4
    subst h4
    have hr : r ∈ groupVertices gs :=
      hpart.perm.subset (List.mem_flatten.2 ⟨c, hcm, mem_of_head? h1⟩)
    have hp := hpl r r ⟨c, hcm, h1, mem_of_head? h1⟩
    obtain ⟨p, _, hp2, hp3⟩ := group_placement hC hT cnt (choose r r) hr ReflTransGen.refl
    rw [isPath_self hp2] at hp3
    rcases hp3 with ⟨_, hp3⟩ | ⟨⟨e, he, _⟩, _⟩
    · rw [hp] at hp3
      simp only [Outcome.ok.injEq] at hp3
      rw [h3, h5, hp3]
      simp
    · simp at he
  · intro i j g g' hi hj hij
    obtain ⟨c, hc, hM⟩ := hget i g hi
    obtain ⟨c', hc', hM'⟩ := hget j g' hj
    obtain ⟨r, rg, h1, h2, h3⟩ := hM.ref
    obtain ⟨r', rg', h1', h2', h3'⟩ := hM'.ref
    rw [h3, h3']
    exact hC.ref_incr r r' rg rg' h2 h2' (hpart.heads_lt hc hc' hij h1 h1')

include hC hT in
/-- The merge throws if some needed placement does. -/
theorem mergeCameraGroup_throw (r j : Nat) (hn : Needed gs T cnt r j)
    (hth : placement id T (groupGraph gs T cnt) (choose r j) r j = .throw) :
    mergeCameraGroup gs T (groupGraph gs T cnt) choose = .throw := by
  have hpart := group_partition hC hT cnt
  -- placements are values or throw
  have hpt : ∀ c ∈ (groupGraph gs T cnt).connectedComponents, ∀ r, c.head? = some r → ∀ j ∈ c, ∀ m,
      (∃ m', mergeGroupPlace T (groupGraph gs T cnt) choose r m j = .ok m') ∨
        mergeGroupPlace T (groupGraph gs T cnt) choose r m j = .throw := by
    intro c hcm r hr j hj m
    have hrv : r ∈ groupVertices gs :=
      hpart.perm.subset (List.mem_flatten.2 ⟨c, hcm, mem_of_head? hr⟩)
    obtain ⟨p, _, _, h | h⟩ := group_placement hC hT cnt (choose r j) hrv
      ((hpart.linked c hcm r (mem_of_head? hr) j).1 hj)
    · left
      unfold mergeGroupPlace
      rw [h.2]; exact ⟨_, rfl⟩
    · right
      unfold mergeGroupPlace
      rw [h.2]; rfl
  have hgroup : ∀ i c, c ∈ (groupGraph gs T cnt).connectedComponents →
      (∃ o, mergeGroup gs T (groupGraph gs T cnt) choose i c = .ok o) ∨
        mergeGroup gs T (groupGraph gs T cnt) choose i c = .throw := by
    intro i c hcm
    cases c with
    | nil => exact absurd rfl (hpart.nonempty _ hcm)
    | cons r c =>
      have hrv : r ∈ groupVertices gs :=
        hpart.perm.subset (List.mem_flatten.2 ⟨_, hcm, by simp⟩)
      obtain ⟨rg, hrg, _⟩ := (mem_groupVertices hC).1 hrv
      unfold mergeGroup
      rw [minElement_sorted (hpart.sorted _ hcm), Outcome.bind_ok, hrg, Outcome.deref_some,
        Outcome.bind_ok]
      rcases foldlM_ok_or_throw (mergeGroupPlace T (groupGraph gs T cnt) choose r) (r :: c)
        (fun j hj m => hpt _ hcm r rfl j hj m) [] with ⟨tr, e⟩ | e
      · rw [e, Outcome.bind_ok]
        apply foldlM_ok_or_throw
        intro x _ s
        unfold mergeGroupInto
        split
        · cases OMap.get? tr x.2.id with
          | none => exact Or.inr rfl
          | some y => exact Or.inl ⟨_, rfl⟩
        · exact Or.inl ⟨_, rfl⟩
      · rw [e]; exact Or.inr rfl
  obtain ⟨c, hcm, hr, hj⟩ := hn
  obtain ⟨i, hi⟩ := List.mem_iff_getElem?.1 hcm
  unfold mergeCameraGroup
  refine foldlM_throw _ _ ?_ (c, i) ?_ ?_ []
  · rintro ⟨c', i'⟩ hx s
    have hc' : c' ∈ (groupGraph gs T cnt).connectedComponents := by
      exact List.fst_mem_of_mem_zipIdx hx
    unfold mergeGroupStep
    rcases hgroup i' c' hc' with ⟨o, e⟩ | e
    · rw [e]; exact Or.inl ⟨_, rfl⟩
    · rw [e]; exact Or.inr rfl
  · exact List.mem_zipIdx_iff_getElem?.2 hi
  · intro s
    unfold mergeGroupStep
    have : mergeGroup gs T (groupGraph gs T cnt) choose i c = .throw := by
      cases c with
      | nil => cases hj
      | cons r' c =>
        simp only [List.head?_cons, Option.some.injEq] at hr
        subst hr
        have hrv : r' ∈ groupVertices gs :=
          hpart.perm.subset (List.mem_flatten.2 ⟨_, hcm, by simp⟩)
        obtain ⟨rg, hrg, _⟩ := (mem_groupVertices hC).1 hrv
        unfold mergeGroup
        rw [minElement_sorted (hpart.sorted _ hcm), Outcome.bind_ok, hrg, Outcome.deref_some,
          Outcome.bind_ok]
        rw [foldlM_throw (mergeGroupPlace T (groupGraph gs T cnt) choose r') (r' :: c)
          (fun j hj m => hpt _ hcm r' rfl j hj m) j hj (fun s => by
            unfold mergeGroupPlace; rw [hth]; rfl) []]
        rfl
    rw [this]; rfl

end

end Verif.Lemmas.GroupMerge
