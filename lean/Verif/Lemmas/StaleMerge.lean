import Verif.Lemmas.GroupMerge

/-! Merging camera groups with a table of transforms whose numbers need not be those of the groups. -/
namespace Verif.Lemmas.StaleMerge
open Verif Verif.NonOverlap Verif.Groups Verif.Objects Verif.Structure
open Verif.Spec.Groups Verif.Spec.Structure Verif.Spec.NonOverlap
open Verif.Lemmas.Structure Verif.Lemmas.Groups Verif.Lemmas.Objects Verif.Lemmas.GroupMerge Relation

variable {G : Type}

theorem foldlM_ub {σ α : Type} (f : σ → α → Outcome σ) (l : List α)
    (h : ∀ x ∈ l, ∀ s, (∃ s', f s x = .ok s') ∨ f s x = .ub) (x : α) (hx : x ∈ l)
    (hf : ∀ s, f s x = .ub) (s : σ) : Outcome.foldlM f s l = .ub := by
  induction l generalizing s with
  | nil => cases hx
  | cons y l ih =>
    rw [Outcome.foldlM_cons]
    rcases List.mem_cons.1 hx with rfl | hx
    · rw [hf s]; rfl
    · rcases h y (by simp) s with ⟨s', e⟩ | e
      · rw [e, Outcome.bind_ok]
        exact ih (fun y hy => h y (by simp [hy])) hx s'
      · rw [e]; rfl

theorem minElement_ok {c : List Nat} (hc : c ≠ []) :
    ∃ r, minElement c = .ok r ∧ r ∈ c ∧ ∀ x ∈ c, r ≤ x := by
  cases c with
  | nil => exact absurd rfl hc
  | cons a l =>
    refine ⟨l.foldl min a, rfl, ?_⟩
    clear hc
    induction l generalizing a with
    | nil => simp
    | cons b l ih =>
      rw [List.foldl_cons]
      obtain ⟨h1, h2⟩ := ih (min a b)
      refine ⟨?_, ?_⟩
      · rcases List.mem_cons.1 h1 with h | h
        · rw [h]
          rcases Nat.le_total a b with hab | hab
          · rw [Nat.min_eq_left hab]; simp
          · rw [Nat.min_eq_right hab]; simp
        · simp [h]
      · have hm := h2 (min a b) (by simp)
        intro x hx
        rcases List.mem_cons.1 hx with rfl | hx
        · exact Nat.le_trans hm (Nat.min_le_left _ _)
        · rcases List.mem_cons.1 hx with rfl | hx
          · exact Nat.le_trans hm (Nat.min_le_right _ _)
          · exact h2 x (by simp [hx])

section
variable [Group G] {gs : OMap Nat (CamGroup G)} (hC : Collection gs) {T : OMap (Nat × Nat) G}
  (hne : ∀ a b, (a, b) ∈ OMap.keys T → a ≠ b)
  (hsym : ∀ a b, (a, b) ∈ OMap.keys T → (b, a) ∈ OMap.keys T)
  (cnt : Nat × Nat → Nat) (choose : Nat → Nat → Graph.DState → Nat)

/-- The history of graph calls. -/
def calls (gs : OMap Nat (CamGroup G)) (T : OMap (Nat × Nat) G) (cnt : Nat × Nat → Nat) :
    List (Graph.Call Nat) := graphCalls (groupVertices gs) (groupEdges T cnt)

omit [Group G] in
theorem mem_vertices (x : Nat) : x ∈ Spec.Graph.vertices (calls gs T cnt) ↔
    x ∈ groupVertices gs ∨ ∃ y, Joined T x y := by
  unfold Spec.Graph.vertices calls
  rw [live_graphCalls, Graph.mem_firstOccs]
  unfold graphCalls
  rw [List.flatMap_append, List.mem_append, List.flatMap_map, List.flatMap_map]
  constructor
  · rintro (h | h)
    · left; simpa [Spec.Graph.ids] using h
    · right
      obtain ⟨e, he, hx⟩ := List.mem_flatMap.1 h
      unfold groupEdges at he
      obtain ⟨⟨⟨a, b⟩, y⟩, hy, rfl⟩ := List.mem_map.1 he
      have hk : (a, b) ∈ OMap.keys T := List.mem_map.2 ⟨_, hy, rfl⟩
      simp only [Spec.Graph.ids, List.mem_cons, List.not_mem_nil, or_false] at hx
      rcases hx with rfl | rfl
      · exact ⟨b, Or.inl hk⟩
      · exact ⟨a, Or.inr hk⟩
  · rintro (h | ⟨y, hk | hk⟩)
    · left; simpa [Spec.Graph.ids] using h
    · right
      obtain ⟨⟨k, z⟩, hz, hke⟩ := List.mem_map.1 hk
      dsimp only at hke
      subst hke
      refine List.mem_flatMap.2 ⟨(x, y, 1 / (cnt (x, y) : Rat)), List.mem_map.2 ⟨_, hz, rfl⟩, ?_⟩
      simp [Spec.Graph.ids]
    · right
      obtain ⟨⟨k, z⟩, hz, hke⟩ := List.mem_map.1 hk
      dsimp only at hke
      subst hke
      refine List.mem_flatMap.2 ⟨(y, x, 1 / (cnt (y, x) : Rat)), List.mem_map.2 ⟨_, hz, rfl⟩, ?_⟩
      simp [Spec.Graph.ids]

omit [Group G] in
theorem linked_eq : Spec.Graph.Linked (calls gs T cnt) = ReflTransGen (Joined T) := by
  unfold Spec.Graph.Linked calls
  rw [← adj_groupEdges T cnt]
  congr 1
  funext a b
  exact propext ⟨fun ⟨w, h⟩ => ⟨w, (step_graphCalls ..).1 h⟩, fun ⟨w, h⟩ => ⟨w, (step_graphCalls ..).2 h⟩⟩

omit [Group G] in
include hne in
theorem noFresh : Spec.Graph.NoFreshSelf (calls gs T cnt) := by
  apply noFreshSelf_graphCalls
  intro e he
  unfold groupEdges at he
  obtain ⟨⟨⟨a, b⟩, x⟩, hx, rfl⟩ := List.mem_map.1 he
  exact hne a b (List.mem_map.2 ⟨_, hx, rfl⟩)

omit [Group G] in
include hne in
theorem comps : (groupGraph gs T cnt).connectedComponents.flatten.Perm
      (Spec.Graph.vertices (calls gs T cnt)) ∧
    (∀ c ∈ (groupGraph gs T cnt).connectedComponents, c ≠ [] ∧
      ∀ a ∈ c, ∀ b, b ∈ c ↔ ReflTransGen (Joined T) a b) := by
  obtain ⟨h1, h2, _⟩ := Props.Graph.C02_components (calls gs T cnt) (noFresh hne cnt)
  refine ⟨h1, fun c hc => ⟨(h2 c hc).1, fun a ha b => ?_⟩⟩
  rw [(h2 c hc).2.2 a ha b, linked_eq]

include hne hsym in
theorem place (ch : Graph.DState → Nat) {a b : Nat} (ha : a ∈ Spec.Graph.vertices (calls gs T cnt))
    (hab : ReflTransGen (Joined T) a b) :
    ∃ x, placement id T (groupGraph gs T cnt) ch a b = .ok x ∧ (a = b → x = 1) := by
  obtain ⟨p, k, h1, h2, h3, _⟩ := Props.Graph.C03_C04_path (calls gs T cnt) (noFresh hne cnt) ch a b ha
    (by rw [linked_eq]; exact hab) (by
      intro x y w hs
      have hw : 0 ≤ w := by
        rcases (step_graphCalls ..).1 hs with h | h <;>
        · unfold groupEdges at h
          obtain ⟨e, _, he⟩ := List.mem_map.1 h
          simp only [Prod.mk.injEq] at he
          rw [← he.2.2]
          exact div_nonneg (by decide) (Nat.cast_nonneg _)
      exact trunc_nonneg hw)
  obtain ⟨w1, w2, w3⟩ := walk_props h2
  have hadj : (fun x y => ∃ w, Spec.Graph.Step (calls gs T cnt) x y w) = Joined T := by
    rw [← adj_groupEdges T cnt]
    funext a b
    exact propext ⟨fun ⟨w, h⟩ => ⟨w, (step_graphCalls ..).1 h⟩, fun ⟨w, h⟩ => ⟨w, (step_graphCalls ..).2 h⟩⟩
  rw [hadj] at w3
  have hall : ∀ e ∈ consecutive p, e ∈ OMap.keys T := by
    intro e he
    rcases isChain_consecutive w3 e he with h | h
    · exact h
    · exact hsym _ _ h
  refine ⟨1 * ((consecutive p).map fun e => id ((OMap.get? T e).getD 1)).prod, ?_, ?_⟩
  · unfold placement
    have h1' : (groupGraph gs T cnt).shortestPathBetween ch a b = .ok p := h1
    rw [h1', Outcome.bind_ok]
    unfold chain
    rw [chain_value id _ _ hall]
  · intro hab'
    subst hab'
    have : p = [a] := isPath_self ⟨w1, w2, w3, h3⟩
    rw [this]
    simp [consecutive]

include hC hne hsym in
/-- If the least number of every component is the number of a group, the merge succeeds. -/
theorem stale_ok (hmin : ∀ c ∈ (groupGraph gs T cnt).connectedComponents, ∀ r, minElement c = .ok r →
      r ∈ OMap.keys gs) :
    ∃ m pl, mergeCameraGroup gs T (groupGraph gs T cnt) choose = .ok m ∧ OMap.Sorted m ∧
      (∀ r, pl r r = (1 : G)) ∧
      OMap.keys m = List.range (groupGraph gs T cnt).connectedComponents.length ∧
      ∀ i c, (groupGraph gs T cnt).connectedComponents[i]? = some c → ∃ g r, minElement c = .ok r ∧
        OMap.get? m i = some g ∧ MergedBy gs pl i r c g := by
  obtain ⟨hp, hc⟩ := comps hne cnt (gs := gs)
  let pl : Nat → Nat → G := fun r j => if r = j then 1 else
    match placement id T (groupGraph gs T cnt) (choose r j) r j with
    | .ok x => x
    | _ => 1
  have hpl : ∀ c ∈ (groupGraph gs T cnt).connectedComponents, ∀ r ∈ c, ∀ j ∈ c,
      placement id T (groupGraph gs T cnt) (choose r j) r j = .ok (pl r j) := by
    intro c hcm r hr j hj
    obtain ⟨x, h1, h2⟩ := place hne hsym cnt (choose r j)
      (hp.subset (List.mem_flatten.2 ⟨c, hcm, hr⟩)) (((hc c hcm).2 r hr j).1 hj)
    simp only [pl]
    by_cases hrj : r = j
    · rw [if_pos hrj, h1, h2 hrj]
    · rw [if_neg hrj, h1]
  obtain ⟨m, e, hk, hsm, hm⟩ := foldlM_number
    (fun i c => mergeGroup gs T (groupGraph gs T cnt) choose i c)
    (fun i c o => ∃ r, minElement c = .ok r ∧ MergedBy gs pl i r c o)
    (groupGraph gs T cnt).connectedComponents (by
      intro i c hci
      have hcm := List.mem_of_getElem? hci
      obtain ⟨r, h1, h2, _⟩ := minElement_ok (hc c hcm).1
      obtain ⟨o, h3, h4⟩ := mergeGroup_by hC T (groupGraph gs T cnt) choose i r c h1 pl
        (hpl c hcm r h2) (hmin c hcm r h1)
      exact ⟨o, h3, r, h1, h4⟩)
  refine ⟨m, pl, e, hsm, fun r => if_pos rfl, hk, fun i c hci => ?_⟩
  obtain ⟨g, h1, r, h2, h3⟩ := hm i c hci
  exact ⟨g, r, h2, h1, h3⟩

include hC hne hsym in
/-- If not, a missing group is dereferenced. -/
theorem stale_ub (c : List Nat) (hcm : c ∈ (groupGraph gs T cnt).connectedComponents) (r : Nat)
    (hr : minElement c = .ok r) (hno : r ∉ OMap.keys gs) :
    mergeCameraGroup gs T (groupGraph gs T cnt) choose = .ub := by
  obtain ⟨hp, hc⟩ := comps hne cnt (gs := gs)
  have hgroup : ∀ i c, c ∈ (groupGraph gs T cnt).connectedComponents →
      (∃ o, mergeGroup gs T (groupGraph gs T cnt) choose i c = .ok o) ∨
        mergeGroup gs T (groupGraph gs T cnt) choose i c = .ub := by
    intro i c hcm
    obtain ⟨r, h1, h2, _⟩ := minElement_ok (hc c hcm).1
    by_cases hk : r ∈ OMap.keys gs
    · obtain ⟨o, h3, _⟩ := mergeGroup_by hC T (groupGraph gs T cnt) choose i r c h1
        (fun r j => match placement id T (groupGraph gs T cnt) (choose r j) r j with
          | .ok x => x
          | _ => 1) (by
          intro j hj
          obtain ⟨x, h1, h2⟩ := place hne hsym cnt (choose r j)
            (hp.subset (List.mem_flatten.2 ⟨c, hcm, h2⟩)) (((hc c hcm).2 r h2 j).1 hj)
          rw [h1]) hk
      exact Or.inl ⟨o, h3⟩
    · right
      unfold mergeGroup
      rw [h1, Outcome.bind_ok, OMap.get?_eq_none.2 hk]
      rfl
  obtain ⟨i, hi⟩ := List.mem_iff_getElem?.1 hcm
  unfold mergeCameraGroup
  refine foldlM_ub _ _ ?_ (c, i) ?_ ?_ []
  · rintro ⟨c', i'⟩ hx s
    unfold mergeGroupStep
    rcases hgroup i' c' (List.fst_mem_of_mem_zipIdx hx) with ⟨o, e⟩ | e
    · rw [e]; exact Or.inl ⟨_, rfl⟩
    · rw [e]; exact Or.inr rfl
  · exact List.mem_zipIdx_iff_getElem?.2 hi
  · intro s
    unfold mergeGroupStep mergeGroup
    rw [hr, Outcome.bind_ok, OMap.get?_eq_none.2 hno]
    rfl

end

/-- Reinitialising the group observations succeeds when every group is listed under its number. -/
theorem regroup_total {P : Type} (oo : List (ObjObs P)) (frames : List Nat) (t : GroupTables G)
    (hs : OMap.Sorted t.groups) (hid : ∀ i g, OMap.get? t.groups i = some g → g.id = i) :
    ∃ t', mergeAllCameraGroupObs oo frames t = .ok t' := by
  unfold mergeAllCameraGroupObs initAllCameraGroupObs
  have key : ∀ (l : List (Nat × CamGroup G)) (t0 : GroupTables G), OMap.Sorted t0.groups →
      (∀ e ∈ l, e.2.id ∈ OMap.keys t0.groups) →
      ∃ t', Outcome.foldlM (fun t (e : Nat × CamGroup G) => initCameraGroupObs oo frames t e.2.id) t0 l = .ok t' := by
    intro l
    induction l with
    | nil => intro t0 _ _; exact ⟨t0, rfl⟩
    | cons e l ih =>
      intro t0 h0 h1
      obtain ⟨g, hg⟩ := OMap.mem_keys.1 (h1 e (by simp))
      rw [Outcome.foldlM_cons]
      unfold initCameraGroupObs
      rw [hg, Outcome.deref_some, Outcome.bind_ok]
      apply ih
      · exact OMap.sorted_set _ _ _ h0
      · intro e' he'
        show _ ∈ OMap.keys (OMap.set t0.groups _ _)
        rw [OMap.mem_keys_set h0]
        exact Or.inr (h1 e' (by simp [he']))
  apply key
  · exact hs
  · intro e he
    have := (OMap.get?_eq_some hs).2 (show (e.1, e.2) ∈ t.groups from he)
    rw [hid e.1 e.2 this]
    exact OMap.mem_keys.2 ⟨e.2, this⟩

end Verif.Lemmas.StaleMerge
