import Verif.Lemmas.GroupMerge
import Verif.Lemmas.Trust

/-! Groups with a recorded transform to the first group of their class are placed with this transform. -/
namespace Verif.Lemmas.GroupMerge
open Verif Verif.Structure Verif.Groups Verif.Graph Verif.Spec.Graph
open Verif.Spec.Groups Verif.Spec.Structure Verif.Lemmas.Structure
open Relation

variable {G : Type}

section
variable [Group G] {gs : OMap Nat (CamGroup G)} (hC : Collection gs) {T : OMap (Nat × Nat) G}
  (hT : PairsOk gs T) (cnt : Nat × Nat → Nat)

omit [Group G] in
private theorem mem_edges {a b : Nat} {w : Rat} :
    (a, b, w) ∈ groupEdges T cnt ↔ (a, b) ∈ OMap.keys T ∧ w = 1 / (cnt (a, b) : Rat) := by
  unfold groupEdges
  constructor
  · intro h
    obtain ⟨⟨k, x⟩, hx, he⟩ := List.mem_map.1 h
    simp only [Prod.mk.injEq] at he
    obtain ⟨rfl, rfl, rfl⟩ := he
    exact ⟨List.mem_map.2 ⟨_, hx, rfl⟩, rfl⟩
  · rintro ⟨h, rfl⟩
    obtain ⟨⟨k, x⟩, hx, rfl⟩ := List.mem_map.1 h
    exact List.mem_map.2 ⟨_, hx, rfl⟩

include hC hT in
theorem group_direct (ch : DState → Nat) {a b : Nat} (hab : (a, b) ∈ OMap.keys T) (hcnt : 2 ≤ cnt (a, b)) :
    (groupGraph gs T cnt).shortestPathBetween ch a b = .ok [a, b] := by
  have hV := vertices_graphCalls ((groupVertices_sorted hC).imp Nat.ne_of_lt) (fun e he =>
    ⟨(edgesOk hT cnt e he).2.1, (edgesOk hT cnt e he).2.2.1⟩)
  have hmem : a ∈ vertices (graphCalls (groupVertices gs) (groupEdges T cnt)) := by rw [hV]; exact (hT.mem _ _ hab).1
  have hn := noFreshSelf_graphCalls (vs := groupVertices gs) fun e he => (edgesOk hT cnt e he).1
  have hnn : ∀ x y w, Step (graphCalls (groupVertices gs) (groupEdges T cnt)) x y w → 0 ≤ trunc w := by
    intro x y w hs
    rcases (step_graphCalls ..).1 hs with e | e <;>
    · obtain ⟨_, rfl⟩ := (mem_edges cnt).1 e
      rw [Lemmas.Trust.trunc_count]
      split <;> omega
  have hstep : Step (graphCalls (groupVertices gs) (groupEdges T cnt)) a b (1 / (cnt (a, b) : Rat)) :=
    (step_graphCalls ..).2 (Or.inl ((mem_edges cnt).2 ⟨hab, rfl⟩))
  have hall : ∀ a b p k, Walk (graphCalls (groupVertices gs) (groupEdges T cnt)) trunc a b p k → 0 ≤ k := by
    intro a b p k hw
    induction hw with
    | nil => exact le_refl _
    | cons hs _ ih =>
      have := hnn _ _ _ hs
      omega
  refine Lemmas.DijkstraDirect.direct (rep_run _ hn) ch (hT.ne _ _ hab) hstep hmem (fun x y w _ hs => hnn x y w hs) ?_
  intro p k hw
  rw [Lemmas.Trust.trunc_count, if_neg (by omega)]
  exact hall _ _ _ _ hw

end
end Verif.Lemmas.GroupMerge
