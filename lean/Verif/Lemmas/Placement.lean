import Verif.Lemmas.Structure

/-! Placement of the members of a component, for a symmetric table. -/
namespace Verif.Lemmas.Structure
open Verif Verif.Structure Verif.Spec.Structure Relation

variable {G : Type}

/-- The relation of being a measured pair. -/
def Measured (t : PairTable G) (a b : Nat) : Prop := (a, b) ∈ OMap.keys t

structure TableOk (vs : List Nat) (t : PairTable G) : Prop where
  vs_sorted : vs.Pairwise (· < ·)
  ne : ∀ a b, Measured t a b → a ≠ b
  symm : ∀ a b, Measured t a b → Measured t b a
  mem : ∀ a b, Measured t a b → a ∈ vs

variable {vs : List Nat} {t : PairTable G}

theorem TableOk.edges (h : TableOk vs t) :
    ∀ e ∈ tableEdges t, e.1 ≠ e.2.1 ∧ e.1 ∈ vs ∧ e.2.1 ∈ vs ∧ 0 ≤ e.2.2 := by
  rintro ⟨a, b, w⟩ he
  have hk : Measured t a b := mem_tableEdges.1 ⟨w, he⟩
  exact ⟨h.ne _ _ hk, h.mem _ _ hk, h.mem _ _ (h.symm _ _ hk), tableEdges_nonneg he⟩

theorem TableOk.adj (h : TableOk vs t) : Adj (tableEdges t) = Measured t := by
  funext a b
  exact propext (adj_tableEdges h.symm a b)

theorem TableOk.partition (h : TableOk vs t) :
    IsPartition (Measured t) vs
      (Graph.run (graphCalls vs (tableEdges t))).connectedComponents := by
  rw [← h.adj]
  exact comps_partition h.vs_sorted fun e he => ⟨(h.edges e he).1, (h.edges e he).2.1, (h.edges e he).2.2.1⟩

/-- A path exists, its pairs are measured, and the placement is their composition. -/
theorem TableOk.placement [Group G] (h : TableOk vs t) (step : G → G) (avg : List G → G)
    (choose : Graph.DState → Nat) {a b : Nat} (ha : a ∈ vs) (hab : ReflTransGen (Measured t) a b) :
    ∃ p, (Graph.run (graphCalls vs (tableEdges t))).shortestPathBetween choose a b = .ok p ∧
      IsPath (Measured t) a b p ∧
      Structure.placement step (interTransform avg t)
        (Graph.run (graphCalls vs (tableEdges t))) choose a b =
      .ok ((consecutive p).map fun e => step (avg ((OMap.get? t e).getD []))).prod := by
  rw [← h.adj] at hab
  obtain ⟨p, hp, hpath⟩ := path_spec (h.vs_sorted.imp Nat.ne_of_lt) h.edges choose ha hab
  rw [h.adj] at hpath
  refine ⟨p, hp, hpath, ?_⟩
  unfold Structure.placement
  rw [hp, Outcome.bind_ok]
  apply chain_prod
  intro e he
  obtain ⟨zs, hz⟩ := OMap.mem_keys.1 (isChain_consecutive hpath.chain e he)
  exact ⟨avg zs, by rw [interTransform_get?, hz]; rfl, by rw [hz]; rfl⟩

theorem isPath_self {r : Nat → Nat → Prop} {a : Nat} {p : List Nat} (h : IsPath r a a p) : p = [a] := by
  obtain ⟨h1, h2, _, h4⟩ := h
  match p with
  | [] => cases h1
  | [x] => simp at h1; rw [h1]
  | x :: y :: p =>
    simp only [List.head?_cons, Option.some.injEq] at h1
    subst h1
    rw [List.getLast?_cons_cons] at h2
    have := List.mem_of_getLast? h2
    exact absurd this (List.nodup_cons.1 h4).1

theorem TableOk.placement_self [Group G] (h : TableOk vs t) (step : G → G) (avg : List G → G)
    (choose : Graph.DState → Nat) {a : Nat} (ha : a ∈ vs) :
    Structure.placement step (interTransform avg t)
        (Graph.run (graphCalls vs (tableEdges t))) choose a a = .ok 1 := by
  obtain ⟨p, _, hp, e⟩ := h.placement step avg choose ha ReflTransGen.refl
  rw [e, isPath_self hp]
  rfl

/-- Every vertex of a path is linked to its head. -/
theorem path_linked {r : Nat → Nat → Prop} : ∀ (p : List Nat) (a : Nat), p.head? = some a →
    p.IsChain r → ∀ x ∈ p, ReflTransGen r a x := by
  intro p
  induction p with
  | nil => intro a ha; cases ha
  | cons c p ih =>
    intro a ha hc x hx
    simp only [List.head?_cons, Option.some.injEq] at ha
    subst ha
    rcases List.mem_cons.1 hx with rfl | hx
    · exact ReflTransGen.refl
    · cases p with
      | nil => cases hx
      | cons d p =>
        rw [List.isChain_cons_cons] at hc
        exact ReflTransGen.head hc.1 (ih d rfl hc.2 x hx)

/-- Exact measurements give the exact placement. -/
theorem TableOk.placement_exact [Group G] (h : TableOk vs t) (step : G → G) (avg : List G → G)
    (choose : Graph.DState → Nat) {a b : Nat} (ha : a ∈ vs) (hab : ReflTransGen (Measured t) a b)
    (q : Nat → G)
    (hq : ∀ x y zs, ReflTransGen (Measured t) a x → OMap.get? t (x, y) = some zs →
      step (avg zs) = (q x)⁻¹ * q y) :
    Structure.placement step (interTransform avg t)
        (Graph.run (graphCalls vs (tableEdges t))) choose a b = .ok ((q a)⁻¹ * q b) := by
  obtain ⟨p, _, hp, e⟩ := h.placement step avg choose ha hab
  rw [e, ← prod_telescope q p a b hp.head hp.last]
  congr 2
  apply List.map_congr_left
  rintro ⟨x, y⟩ he
  obtain ⟨zs, hz⟩ := OMap.mem_keys.1 (isChain_consecutive hp.chain _ he)
  rw [hz]
  refine hq x y zs ?_ hz
  exact path_linked p a hp.head hp.chain x (List.of_mem_zip he).1

end Verif.Lemmas.Structure
