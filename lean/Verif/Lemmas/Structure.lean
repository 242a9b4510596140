import Verif.Model.Structure
import Verif.Spec.Structure
import Verif.Lemmas.GraphHistory
import Verif.Props.Graph
import Mathlib.Data.List.Basic
import Mathlib.Tactic.Group
import Mathlib.Algebra.Order.Field.Rat

set_option linter.unusedSectionVars false
namespace Verif.Structure
open Spec.Structure Graph Spec.Graph Relation

/-! ### The graph built from vertices and edges -/

/-- Adjacency given by an edge list. -/
def Adj (es : List (Nat × Nat × Rat)) (a b : Nat) : Prop :=
  ∃ w, (a, b, w) ∈ es ∨ (b, a, w) ∈ es

theorem live_graphCalls (vs : List Nat) (es : List (Nat × Nat × Rat)) :
    live (graphCalls vs es) = graphCalls vs es := by
  have key : ∀ l : List (Call Nat), (∀ c ∈ l, c ≠ Call.clear) → live l = l := by
    intro l
    induction l using List.reverseRecOn with
    | nil => intro _; rfl
    | append_singleton l c ih =>
      intro h
      rw [live_snoc, ih (fun c hc => h c (by simp [hc]))]
      have := h c (by simp)
      cases c <;> simp_all
  apply key
  intro c hc
  unfold graphCalls at hc
  simp only [List.mem_append, List.mem_map] at hc
  rcases hc with ⟨v, _, rfl⟩ | ⟨e, _, rfl⟩ <;> simp

theorem step_graphCalls (vs : List Nat) (es : List (Nat × Nat × Rat)) (a b : Nat) (w : Rat) :
    Step (graphCalls vs es) a b w ↔ (a, b, w) ∈ es ∨ (b, a, w) ∈ es := by
  unfold Step
  rw [live_graphCalls]
  have key : ∀ a b w, Call.addEdge a b w ∈ graphCalls vs es ↔ (a, b, w) ∈ es := by
    intro a b w
    unfold graphCalls
    simp only [List.mem_append, List.mem_map, Call.addEdge.injEq, reduceCtorEq, and_false,
      exists_false, false_or]
    constructor
    · rintro ⟨⟨x, y, z⟩, he, rfl, rfl, rfl⟩; exact he
    · intro h; exact ⟨_, h, rfl, rfl, rfl⟩
  rw [key, key]

theorem firstOccs_append_mem {l l' : List Nat} (h : ∀ x ∈ l', x ∈ l) :
    Spec.Graph.firstOccs (l ++ l') = Spec.Graph.firstOccs l := by
  induction l' using List.reverseRecOn with
  | nil => simp
  | append_singleton l' x ih =>
    rw [← List.append_assoc]
    have e : Spec.Graph.firstOccs ((l ++ l') ++ [x]) = if x ∈ Spec.Graph.firstOccs (l ++ l') then
        Spec.Graph.firstOccs (l ++ l') else Spec.Graph.firstOccs (l ++ l') ++ [x] := by
      unfold Spec.Graph.firstOccs; rw [List.foldl_append]; rfl
    rw [e, ih (fun y hy => h y (by simp [hy]))]
    rw [if_pos]
    have hx : x ∈ l := h x (by simp)
    clear e ih h
    induction l using List.reverseRecOn with
    | nil => cases hx
    | append_singleton l y ih =>
      unfold Spec.Graph.firstOccs at ih ⊢
      rw [List.foldl_append]
      simp only [List.foldl_cons, List.foldl_nil]
      rcases List.mem_append.1 hx with hx | hx
      · have := ih hx
        split
        · exact this
        · simp [this]
      · simp only [List.mem_singleton] at hx
        subst hx
        split
        · assumption
        · simp

theorem firstOccs_nodup {l : List Nat} (h : l.Nodup) : Spec.Graph.firstOccs l = l := by
  induction l using List.reverseRecOn with
  | nil => rfl
  | append_singleton l x ih =>
    unfold Spec.Graph.firstOccs at ih ⊢
    rw [List.foldl_append, List.foldl_cons, List.foldl_nil, ih (List.nodup_append.1 h).1, if_neg]
    intro hx
    exact (List.nodup_append.1 h).2.2 x hx x (by simp) rfl

theorem vertices_graphCalls {vs : List Nat} (hv : vs.Nodup) {es : List (Nat × Nat × Rat)}
    (he : ∀ e ∈ es, e.1 ∈ vs ∧ e.2.1 ∈ vs) : vertices (graphCalls vs es) = vs := by
  unfold vertices
  rw [live_graphCalls]
  unfold graphCalls
  rw [List.flatMap_append, List.flatMap_map]
  have e1 : vs.flatMap (fun v => ids (Call.addVertex v)) = vs := by simp [ids]
  rw [e1, firstOccs_append_mem, firstOccs_nodup hv]
  intro x hx
  rw [List.flatMap_map] at hx
  obtain ⟨e, h1, h2⟩ := List.mem_flatMap.1 hx
  simp only [ids, List.mem_cons, List.not_mem_nil, or_false] at h2
  rcases h2 with rfl | rfl
  · exact (he e h1).1
  · exact (he e h1).2

theorem noFreshSelf_graphCalls {vs : List Nat} {es : List (Nat × Nat × Rat)}
    (he : ∀ e ∈ es, e.1 ≠ e.2.1) : NoFreshSelf (graphCalls vs es) := by
  apply noFreshSelf_of_ne
  intro c hc
  unfold graphCalls at hc
  simp only [List.mem_append, List.mem_map] at hc
  rcases hc with ⟨v, _, rfl⟩ | ⟨e, h, rfl⟩
  · rfl
  · simpa [edgeNe] using he e h

theorem trunc_nonneg {w : Rat} (h : 0 ≤ w) : 0 ≤ trunc w := by
  unfold trunc
  exact Int.tdiv_nonneg (Rat.num_nonneg.2 h) (Int.natCast_nonneg _)

/-- Components of the graph built from increasing vertices and edges between distinct vertices. -/
theorem comps_partition {vs : List Nat} (hv : vs.Pairwise (· < ·)) {es : List (Nat × Nat × Rat)}
    (he : ∀ e ∈ es, e.1 ≠ e.2.1 ∧ e.1 ∈ vs ∧ e.2.1 ∈ vs) :
    IsPartition (Adj es) vs (Graph.run (graphCalls vs es)).connectedComponents := by
  have hnd : vs.Nodup := hv.imp Nat.ne_of_lt
  have hV := vertices_graphCalls hnd (fun e h => (he e h).2)
  obtain ⟨h1, h2, h3⟩ := Props.Graph.C02_components (graphCalls vs es)
    (noFreshSelf_graphCalls fun e h => (he e h).1)
  rw [hV] at h1 h2 h3
  refine ⟨h1, fun c hc => (h2 c hc).1, fun c hc => hv.sublist (h2 c hc).2.1, ?_, ?_⟩
  · intro c hc a ha b
    rw [(h2 c hc).2.2 a ha b]
    have : (fun a b => ∃ w, Step (graphCalls vs es) a b w) = Adj es := by
      funext a b
      exact propext ⟨fun ⟨w, h⟩ => ⟨w, (step_graphCalls ..).1 h⟩,
        fun ⟨w, h⟩ => ⟨w, (step_graphCalls ..).2 h⟩⟩
    unfold Linked
    rw [this]
  · have h4 := h3.filterMap id
    rw [List.filterMap_map, List.filterMap_map] at h4
    have e : vs.filterMap (id ∘ some) = vs := by simp
    rw [e] at h4
    exact hv.sublist h4

theorem walk_props {h : List (Call Nat)} {f : Rat → Int} {a b : Nat} {p : List Nat} {k : Int}
    (hw : Walk h f a b p k) :
    p.head? = some a ∧ p.getLast? = some b ∧ p.IsChain (fun x y => ∃ w, Step h x y w) := by
  induction hw with
  | nil => simp
  | @cons a b c w p k hs hw ih =>
    obtain ⟨h1, h2, h3⟩ := ih
    cases p with
    | nil => cases h1
    | cons x p =>
      simp only [List.head?_cons, Option.some.injEq] at h1
      subst h1
      refine ⟨rfl, ?_, ?_⟩
      · rw [List.getLast?_cons_cons]; exact h2
      · exact List.IsChain.cons_cons ⟨w, hs⟩ h3

/-- Paths between two vertices of a component. -/
theorem path_spec {vs : List Nat} (hv : vs.Nodup) {es : List (Nat × Nat × Rat)}
    (he : ∀ e ∈ es, e.1 ≠ e.2.1 ∧ e.1 ∈ vs ∧ e.2.1 ∈ vs ∧ 0 ≤ e.2.2) (choose : DState → Nat)
    {a b : Nat} (ha : a ∈ vs) (hab : ReflTransGen (Adj es) a b) :
    ∃ p, (Graph.run (graphCalls vs es)).shortestPathBetween choose a b = .ok p ∧
      IsPath (Adj es) a b p := by
  have hV := vertices_graphCalls hv (fun e h => ⟨(he e h).2.1, (he e h).2.2.1⟩)
  have hadj : (fun a b => ∃ w, Step (graphCalls vs es) a b w) = Adj es := by
    funext a b
    exact propext ⟨fun ⟨w, h⟩ => ⟨w, (step_graphCalls ..).1 h⟩,
      fun ⟨w, h⟩ => ⟨w, (step_graphCalls ..).2 h⟩⟩
  obtain ⟨p, k, h1, h2, h3, _⟩ := Props.Graph.C03_C04_path (graphCalls vs es)
    (noFreshSelf_graphCalls fun e h => (he e h).1) choose a b (by rw [hV]; exact ha)
    (by unfold Linked; rw [hadj]; exact hab) (by
      intro x y w hs
      rcases (step_graphCalls ..).1 hs with h | h
      · exact trunc_nonneg (he _ h).2.2.2
      · exact trunc_nonneg (he _ h).2.2.2)
  obtain ⟨h4, h5, h6⟩ := walk_props h2
  rw [hadj] at h6
  exact ⟨p, h1, h4, h5, h6, h3⟩

theorem minElement_sorted {a : Nat} {l : List Nat} (h : (a :: l).Pairwise (· < ·)) :
    minElement (a :: l) = .ok a := by
  show Outcome.ok (l.foldl min a) = _
  congr 1
  have : ∀ x ∈ l, a < x := (List.pairwise_cons.1 h).1
  clear h
  induction l with
  | nil => rfl
  | cons x l ih =>
    rw [List.foldl_cons, Nat.min_eq_left (Nat.le_of_lt (this x (by simp)))]
    exact ih fun y hy => this y (by simp [hy])

/-! ### Pair tables -/

variable {G E : Type}

theorem push_fold (l : List ((Nat × Nat) × G)) :
    OMap.Sorted (l.foldl push []) ∧ ∀ k, OMap.get? (l.foldl push []) k =
      if (l.filter fun e => e.1 = k) = [] then none
      else some ((l.filter fun e => e.1 = k).map (·.2)) := by
  induction l using List.reverseRecOn with
  | nil => exact ⟨List.Pairwise.nil, fun k => rfl⟩
  | append_singleton l e ih =>
    obtain ⟨hs, hg⟩ := ih
    rw [List.foldl_append, List.foldl_cons, List.foldl_nil]
    refine ⟨OMap.sorted_set _ _ _ hs, fun k => ?_⟩
    show OMap.get? (OMap.set _ _ _) k = _
    rw [OMap.get?_set _ _ _ _ hs, List.filter_append]
    by_cases hk : k = e.1
    · subst hk
      rw [if_pos rfl, hg]
      by_cases hn : (l.filter fun x => x.1 = e.1) = []
      · simp [hn]
      · rw [if_neg hn]
        simp
    · rw [if_neg hk, hg]
      have : ([e].filter fun x => x.1 = k) = [] := by simp [Ne.symm hk]
      rw [this, List.append_nil]

theorem pairTable_sorted (f : E → E → Option ((Nat × Nat) × G)) (views : List (List E)) :
    OMap.Sorted (pairTable f views) := (push_fold _).1

/-- An entry is a key iff some view has a pair producing it. -/
theorem mem_keys_pairTable (f : E → E → Option ((Nat × Nat) × G)) (views : List (List E))
    (k : Nat × Nat) : k ∈ OMap.keys (pairTable f views) ↔
      ∃ v ∈ views, ∃ x ∈ v, ∃ y ∈ v, ∃ z, f x y = some (k, z) := by
  rw [OMap.mem_keys]
  unfold pairTable
  simp only [(push_fold _).2]
  constructor
  · rintro ⟨l, h⟩
    split at h
    · cases h
    · rename_i hne
      obtain ⟨e, he⟩ := List.exists_mem_of_ne_nil _ hne
      obtain ⟨h1, h2⟩ := List.mem_filter.1 he
      obtain ⟨v, hv, h3⟩ := List.mem_flatMap.1 h1
      unfold pairsOfView at h3
      obtain ⟨x, hx, h4⟩ := List.mem_flatMap.1 h3
      obtain ⟨y, hy, h5⟩ := List.mem_filterMap.1 h4
      refine ⟨v, hv, x, hx, y, hy, e.2, ?_⟩
      rw [h5]
      simp at h2
      rw [← h2]
  · rintro ⟨v, hv, x, hx, y, hy, z, hz⟩
    refine ⟨_, if_neg ?_⟩
    apply List.ne_nil_of_mem (a := (k, z))
    refine List.mem_filter.2 ⟨List.mem_flatMap.2 ⟨v, hv, List.mem_flatMap.2 ⟨x, hx,
      List.mem_filterMap.2 ⟨y, hy, hz⟩⟩⟩, by simp⟩

/-- The values of an entry are the measurements of the views, and there is at least one. -/
theorem get?_pairTable (f : E → E → Option ((Nat × Nat) × G)) (views : List (List E))
    {k : Nat × Nat} {l : List G} (h : OMap.get? (pairTable f views) k = some l) :
    l ≠ [] ∧ ∀ z ∈ l, ∃ v ∈ views, ∃ x ∈ v, ∃ y ∈ v, f x y = some (k, z) := by
  unfold pairTable at h
  rw [(push_fold _).2] at h
  split at h
  · cases h
  · rename_i hne
    simp only [Option.some.injEq] at h
    subst h
    refine ⟨by simpa using hne, ?_⟩
    intro z hz
    obtain ⟨e, he, rfl⟩ := List.mem_map.1 hz
    obtain ⟨h1, h2⟩ := List.mem_filter.1 he
    obtain ⟨v, hv, h3⟩ := List.mem_flatMap.1 h1
    unfold pairsOfView at h3
    obtain ⟨x, hx, h4⟩ := List.mem_flatMap.1 h3
    obtain ⟨y, hy, h5⟩ := List.mem_filterMap.1 h4
    refine ⟨v, hv, x, hx, y, hy, ?_⟩
    rw [h5]
    simp at h2
    rw [← h2]

/-- Exact count of the measurements of a pair. -/
theorem length_pairTable (f : E → E → Option ((Nat × Nat) × G)) (views : List (List E))
    (k : Nat × Nat) : ((OMap.get? (pairTable f views) k).getD []).length =
      ((views.flatMap (pairsOfView f)).filter fun e => e.1 = k).length := by
  unfold pairTable
  rw [(push_fold _).2]
  split
  · rename_i h; rw [h]; rfl
  · simp

theorem interTransform_get? (avg : List G → G) (t : PairTable G) (k : Nat × Nat) :
    OMap.get? (interTransform avg t) k = (OMap.get? t k).map avg := by
  unfold interTransform
  induction t with
  | nil => rfl
  | cons e t ih =>
    simp only [List.map_cons, OMap.get?]
    split
    · rfl
    · exact ih

theorem interTransform_keys (avg : List G → G) (t : PairTable G) :
    OMap.keys (interTransform avg t) = OMap.keys t := by
  unfold interTransform OMap.keys
  rw [List.map_map]
  rfl

theorem mem_tableEdges {t : PairTable G} {a b : Nat} :
    (∃ w, (a, b, w) ∈ tableEdges t) ↔ (a, b) ∈ OMap.keys t := by
  unfold tableEdges OMap.keys
  simp only [List.mem_map, Prod.mk.injEq]
  constructor
  · rintro ⟨w, e, he, h1, h2, _⟩
    exact ⟨e, he, Prod.ext h1 h2⟩
  · rintro ⟨e, he, h⟩
    exact ⟨_, e, he, by rw [h], by rw [h], rfl⟩

theorem tableEdges_nonneg {t : PairTable G} {e : Nat × Nat × Rat} (h : e ∈ tableEdges t) :
    0 ≤ e.2.2 := by
  unfold tableEdges at h
  obtain ⟨x, _, rfl⟩ := List.mem_map.1 h
  show (0 : Rat) ≤ 1 / (x.2.length : Rat)
  rw [Rat.div_def, Rat.one_mul]
  exact inv_nonneg.2 (by exact_mod_cast Nat.zero_le _)

/-- Adjacency of a table whose keys are symmetric. -/
theorem adj_tableEdges {t : PairTable G} (hsym : ∀ a b, (a, b) ∈ OMap.keys t → (b, a) ∈ OMap.keys t)
    (a b : Nat) : Adj (tableEdges t) a b ↔ (a, b) ∈ OMap.keys t := by
  unfold Adj
  constructor
  · rintro ⟨w, h | h⟩
    · exact mem_tableEdges.1 ⟨w, h⟩
    · exact hsym _ _ (mem_tableEdges.1 ⟨w, h⟩)
  · intro h
    obtain ⟨w, hw⟩ := mem_tableEdges.2 h
    exact ⟨w, Or.inl hw⟩

/-! ### Chains -/

variable [Group G]

theorem consecutive_cons (a b : Nat) (p : List Nat) :
    consecutive (a :: b :: p) = (a, b) :: consecutive (b :: p) := rfl

/-- General value of a chain: if every pair has transform with `step (T a b) = φ a b`, the chain is
the product of the `φ`s from left to right. -/
theorem chain_prod (step : G → G) (T : OMap (Nat × Nat) G) (p : List Nat) (φ : Nat × Nat → G)
    (h : ∀ e ∈ consecutive p, ∃ x, OMap.get? T e = some x ∧ step x = φ e) :
    chain step T p = .ok ((consecutive p).map φ).prod := by
  unfold chain
  suffices H : ∀ (l : List (Nat × Nat)) (t : G),
      (∀ e ∈ l, ∃ x, OMap.get? T e = some x ∧ step x = φ e) →
      Outcome.foldlM (chainStep step T) t l = .ok (t * (l.map φ).prod) by
    simpa using H _ 1 h
  intro l
  induction l with
  | nil => intro t _; simp
  | cons e l ih =>
    intro t hl
    obtain ⟨x, hx, hφ⟩ := hl e (by simp)
    have : chainStep step T t e = .ok (t * step x) := by unfold chainStep; rw [hx]
    rw [Outcome.foldlM_cons, this, Outcome.bind_ok]
    rw [ih _ (fun e he => hl e (by simp [he])), hφ]
    simp [mul_assoc]

/-- Telescoping: with `φ (a, b) = (q a)⁻¹ * q b` the product along a path is `(q first)⁻¹ * q last`. -/
theorem prod_telescope (q : Nat → G) (p : List Nat) (a b : Nat) (ha : p.head? = some a)
    (hb : p.getLast? = some b) :
    ((consecutive p).map fun e => (q e.1)⁻¹ * q e.2).prod = (q a)⁻¹ * q b := by
  induction p generalizing a with
  | nil => cases ha
  | cons x p ih =>
    simp only [List.head?_cons, Option.some.injEq] at ha
    subst ha
    cases p with
    | nil =>
      simp at hb
      subst hb
      simp [consecutive]
    | cons y p =>
      rw [List.getLast?_cons_cons] at hb
      rw [consecutive_cons, List.map_cons, List.prod_cons, ih y rfl hb]
      group

theorem isChain_consecutive {r : Nat → Nat → Prop} {p : List Nat} (h : p.IsChain r) :
    ∀ e ∈ consecutive p, r e.1 e.2 := by
  induction p with
  | nil => intro e he; simp [consecutive] at he
  | cons a p ih =>
    cases p with
    | nil => intro e he; simp [consecutive] at he
    | cons b p =>
      intro e he
      rw [consecutive_cons] at he
      rcases List.mem_cons.1 he with rfl | he
      · exact h.rel
      · exact ih h.of_cons e he

end Verif.Structure
