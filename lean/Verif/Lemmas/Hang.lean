import Verif.Spec.Hang
import Verif.Lemmas.Structure
import Verif.Lemmas.Objects
import Verif.Model.Pipeline
import Verif.Model.Finish

set_option linter.unusedSectionVars false
namespace Verif.Hang
open Spec.Hang Verif.Structure Spec.Structure Verif.Graph Verif.Spec.Graph

section
variable {α β σ : Type _}

theorem ok (a : α) : Ends (Outcome.ok a) := ⟨fun h => nomatch h⟩
theorem pure' (a : α) : Ends (pure a : Outcome α) := ⟨fun h => nomatch h⟩
theorem ub : Ends (Outcome.ub : Outcome α) := ⟨fun h => nomatch h⟩
theorem throw : Ends (Outcome.throw : Outcome α) := ⟨fun h => nomatch h⟩

theorem bind {α β : Type u} {x : Outcome α} {f : α → Outcome β} (hx : Ends x) (hf : ∀ a, x = .ok a → Ends (f a)) :
    Ends (x >>= f) := by
  cases x with
  | ok a => exact hf a rfl
  | ub => exact ub
  | throw => exact throw
  | diverge => exact absurd rfl hx.back

theorem bind' {α β : Type u} {x : Outcome α} {f : α → Outcome β} (hx : Ends x) (hf : ∀ a, x = .ok a → Ends (f a)) :
    Ends (x.bind f) := bind hx hf

theorem fold {σ α : Type _} {f : σ → α → Outcome σ} {l : List α} (h : ∀ s, ∀ x ∈ l, Ends (f s x)) (s : σ) :
    Ends (Outcome.foldlM f s l) := by
  induction l generalizing s with
  | nil => exact ok s
  | cons x l ih =>
    rw [Outcome.foldlM_cons]
    exact bind (h s x List.mem_cons_self) fun t _ => ih (fun s y hy => h s y (List.mem_cons_of_mem _ hy)) t

theorem idx (l : List α) (i : Nat) : Ends (Outcome.idx l i) := by
  unfold Outcome.idx; split
  · exact ok _
  · exact ub

theorem at! (l : List α) (i : Nat) : Ends (Outcome.at! l i) := by
  unfold Outcome.at!; split
  · exact ok _
  · exact throw

theorem deref (o : Option α) : Ends (Outcome.deref o) := by
  cases o with
  | none => exact ub
  | some a => exact ok a

end

/-- One step of such an argument. -/
macro "ends_step" : tactic => `(tactic| first
  | exact Hang.ok _ | exact Hang.pure' _ | exact Hang.ub | exact Hang.throw
  | exact Hang.idx _ _ | exact Hang.at! _ _ | exact Hang.deref _
  | refine Hang.bind ?_ fun _ _ => ?_ | refine Hang.bind' ?_ fun _ _ => ?_
  | refine Hang.fold (fun _ _ _ => ?_) _ | split)

/-- As many as possible. -/
macro "ends" : tactic => `(tactic| repeat' ends_step)

/-! ### Paths -/

theorem minElement_mem {c : List Nat} {r : Nat} (h : minElement c = .ok r) : r ∈ c := by
  cases c with
  | nil => cases h
  | cons a l =>
    have h1 : l.foldl min a = r := Outcome.ok.inj h
    have h2 : ∀ (l : List Nat) (a : Nat), l.foldl min a ∈ a :: l := by
      intro l
      induction l with
      | nil => intro a; simp
      | cons b l ih =>
        intro a
        rw [List.foldl_cons]
        rcases List.mem_cons.1 (ih (min a b)) with h | h
        · rw [h]
          rcases Nat.le_total a b with h' | h'
          · rw [Nat.min_eq_left h']; simp
          · rw [Nat.min_eq_right h']; simp
        · exact List.mem_cons_of_mem _ (List.mem_cons_of_mem _ h)
    exact h1 ▸ h2 l a

theorem minElement_ends (c : List Nat) : Ends (minElement c) := by
  cases c with
  | nil => exact ub
  | cons a l => exact ok _

theorem chain_ends {G : Type} [Group G] (step : G → G) (T : OMap (Nat × Nat) G) (p : List Nat) :
    Ends (chain step T p) := by
  unfold chain
  refine fold (fun s x _ => ?_) _
  unfold chainStep
  ends

/-- Graphs in which the composition along a path between members of a component ends. -/
def Sane (g : Graph Nat) : Prop :=
  ∀ c ∈ g.connectedComponents, ∀ a ∈ c, ∀ b ∈ c, ∀ choose, Ends (g.shortestPathBetween choose a b)

theorem sane {vs : List Nat} {es : List (Nat × Nat × Rat)} (he : ∀ e ∈ es, e.1 ≠ e.2.1 ∧ 0 ≤ e.2.2) :
    Sane (Graph.run (graphCalls vs es)) := by
  intro c hc a ha b hb choose
  have hn := noFreshSelf_graphCalls (vs := vs) (fun e h => (he e h).1)
  obtain ⟨h1, h2, -⟩ := Props.Graph.C02_components (graphCalls vs es) hn
  have hv : a ∈ vertices (graphCalls vs es) := (h2 c hc).2.1.subset ha
  have hl : Linked (graphCalls vs es) a b := ((h2 c hc).2.2 a ha b).1 hb
  obtain ⟨p, k, h, -⟩ := Props.Graph.C03_C04_path (graphCalls vs es) hn choose a b hv hl (by
      intro x y w hs
      rcases (step_graphCalls ..).1 hs with h | h
      · exact trunc_nonneg (he _ h).2
      · exact trunc_nonneg (he _ h).2)
  rw [h]
  exact ok p

theorem placement_ends {G : Type} [Group G] {step : G → G} {T : OMap (Nat × Nat) G} {g : Graph Nat} (hg : Sane g)
    {c : List Nat} (hc : c ∈ g.connectedComponents) {a b : Nat} (ha : a ∈ c) (hb : b ∈ c) (choose) :
    Ends (placement step T g choose a b) := by
  unfold placement
  exact bind (hg c hc a ha b hb choose) fun p _ => chain_ends step T p

theorem mem_zipIdx {α : Type _} {l : List α} {e : α × Nat} (h : e ∈ l.zipIdx) : e.1 ∈ l := by
  obtain ⟨a, i⟩ := e
  exact (List.mem_zipIdx' h).2 ▸ List.getElem_mem _

theorem table_sane {G E : Type} {f : E → E → Option ((Nat × Nat) × G)} (hf : ∀ x y e, f x y = some e → e.1.1 ≠ e.1.2)
    (vs : List Nat) (views : List (List E)) : Sane (Graph.run (graphCalls vs (tableEdges (pairTable f views)))) := by
  apply sane
  intro e h
  refine ⟨?_, tableEdges_nonneg h⟩
  unfold tableEdges at h
  obtain ⟨x, hx, rfl⟩ := List.mem_map.1 h
  obtain ⟨v, hv, a, ha, b, hb, g, hg⟩ := (mem_keys_pairTable f views x.1).1 (List.mem_map.2 ⟨x, hx, rfl⟩)
  exact hf _ _ _ hg

end Verif.Hang
