import Verif.Lemmas.GraphHistory
import Mathlib.Data.List.Perm.Basic

/-!
# Graph API (C01 – C05)

All statements are about `Graph.run h`, the graph after an arbitrary history `h` of calls, and about
the results of the two queries `connectedComponents` and `shortestPathBetween` (for every
tie-breaking `choose` of the priority queue).  The vocabulary (`vertices`, `Step`, `Linked`,
`Walk`, `NoFreshSelf`) is defined in `Verif/Spec/Graph.lean` from the history alone.
-/
set_option linter.unusedSectionVars false
namespace Verif.Props.Graph
open Verif Verif.Graph Verif.Spec.Graph Relation

variable {α : Type} [DecidableEq α]

/-! ### C01 -/

/-- C01 (all histories without `addEdge(v,v,_)` on a fresh `v`): there is exactly one vertex per id
mentioned since the last clear, in order of first mention. -/
theorem C01_vertices_one (h : List (Call α)) (hn : NoFreshSelf h) :
    (run h).names = vertices h ∧ (run h).names.Nodup :=
  ⟨(rep_run h hn).names, (rep_run h hn).nodup⟩

/-- C01, all histories: repeating `addVertex(v)` changes nothing. -/
theorem C01_addVertex_idempotent (h : List (Call α)) (v : α) :
    run (h ++ [.addVertex v, .addVertex v]) = run (h ++ [.addVertex v]) := by
  have e : h ++ [Call.addVertex v, Call.addVertex v] = (h ++ [Call.addVertex v]) ++ [Call.addVertex v] := by
    simp
  rw [e, run_snoc (h ++ [Call.addVertex v])]
  cases hf : (run (h ++ [Call.addVertex v])).find? v with
  | some i => exact addVertex_of_some hf
  | none =>
    rw [run_snoc] at hf
    simp only [apply] at hf
    cases hf' : (run h).find? v with
    | some i => rw [addVertex_of_some hf', hf'] at hf; cases hf
    | none => rw [addVertex_of_none hf'] at hf; simp [find?] at hf

/-- C01, all histories: an edge between already present ids adds no vertex. -/
theorem C01_addEdge_present (h : List (Call α)) (hn : NoFreshSelf h) (a b : α) (w : Rat)
    (ha : a ∈ vertices h) (hb : b ∈ vertices h) :
    (run (h ++ [.addEdge a b w])).names = (run h).names := by
  have r := rep_run h hn
  have hn' : NoFreshSelf (h ++ [.addEdge a b w]) := by
    intro h1 h2 v w' he
    rcases List.eq_nil_or_concat h2 with rfl | ⟨h2', c, rfl⟩
    · have := List.append_inj' he rfl
      simp at this
      obtain ⟨rfl, rfl, rfl, _⟩ := this
      exact ha
    · have hlen : (h ++ [Call.addEdge a b w]) = (h1 ++ Call.addEdge v v w' :: h2') ++ [c] := by
        rw [he]; simp
      have := List.append_inj' hlen rfl
      exact hn h1 h2' v w' this.1
  have r' := rep_run _ hn'
  rw [r'.names, r.names]
  have hl : live (h ++ [Call.addEdge a b w]) = live h ++ [Call.addEdge a b w] := live_snoc _ _
  have e : vertices (h ++ [Call.addEdge a b w]) = firstOccs (((live h).flatMap ids ++ [a]) ++ [b]) := by
    unfold vertices; rw [hl]; simp [ids]
  have ha' : a ∈ firstOccs ((live h).flatMap ids) := ha
  have hb' : b ∈ firstOccs ((live h).flatMap ids) := hb
  rw [e, firstOccs_snoc, firstOccs_snoc, if_pos ha', if_pos hb']
  rfl

example : NoFreshSelf [Call.addVertex 3, .addEdge 3 3 1, .addEdge (3 : Nat) 7 2] ∧
    (run [Call.addVertex 3, .addEdge 3 3 1, .addEdge (3 : Nat) 7 2]).names = [3, 7] := by
  refine ⟨?_, by decide⟩
  intro h1 h2 v w he
  rcases h1 with _ | ⟨a, _ | ⟨b, _ | ⟨c, l⟩⟩⟩
  · simp at he
  · simp at he; obtain ⟨rfl, ⟨rfl, rfl⟩, _⟩ := he; decide
  · simp at he; omega
  · simp at he

/-- C01 is false of the code in general: `addEdge(5, 5, 1)` on an empty graph creates two vertices
named 5, and `connectedComponents` lists 5 twice. -/
theorem C01_fresh_self_edge_fails :
    ¬ ∀ h : List (Call Int), (run h).names.Nodup := by
  intro H
  exact absurd (H [.addEdge 5 5 1]) (by decide)

/-- The state after any history: the vertex names without repetitions are the mentioned ids, an id is
found iff mentioned, and a name occurs twice iff it was first mentioned by a self-edge. -/
private structure Counted (g : Graph α) (h : List (Call α)) : Prop where
  order : firstOccs g.names = vertices h
  found : ∀ v, (g.find? v).isSome = true ↔ v ∈ (live h).flatMap ids
  two : ∀ v, FirstBySelfEdge h v → g.names.count v = 2
  one : ∀ v, v ∈ vertices h → ¬ FirstBySelfEdge h v → g.names.count v = 1

private theorem firstOccs_append_one {l : List α} {v : α} (n : Nat) :
    firstOccs (l ++ List.replicate n v) = if n = 0 ∨ v ∈ l then firstOccs l else firstOccs l ++ [v] := by
  induction n with
  | zero => simp
  | succ n ih =>
    rw [List.replicate_succ', ← List.append_assoc, firstOccs_snoc, ih]
    by_cases hv : v ∈ l
    · simp [hv, mem_firstOccs]
    · rcases n with _ | n <;> simp [hv, mem_firstOccs]

private theorem first_snoc (h : List (Call α)) (c : Call α) (hc : c ≠ .clear) (v : α) :
    FirstBySelfEdge (h ++ [c]) v ↔ FirstBySelfEdge h v ∨
      (v ∉ (live h).flatMap ids ∧ ∃ w, c = .addEdge v v w) := by
  have hl : live (h ++ [c]) = live h ++ [c] := by rw [live_snoc]; cases c <;> simp_all
  unfold FirstBySelfEdge
  rw [hl]
  constructor
  · rintro ⟨l1, l2, w, he, hn⟩
    rcases List.eq_nil_or_concat l2 with rfl | ⟨l2', c', rfl⟩
    · have := List.append_inj' he rfl
      obtain ⟨rfl, h2⟩ := this
      exact Or.inr ⟨hn, w, by simpa using h2⟩
    · have : live h ++ [c] = (l1 ++ Call.addEdge v v w :: l2') ++ [c'] := by rw [he]; simp
      exact Or.inl ⟨l1, l2', w, (List.append_inj' this rfl).1, hn⟩
  · rintro (⟨l1, l2, w, he, hn⟩ | ⟨hn, w, rfl⟩)
    · exact ⟨l1, l2 ++ [c], w, by rw [he]; simp, hn⟩
    · exact ⟨live h, [], w, rfl, hn⟩

private theorem first_mem {h : List (Call α)} {v : α} (hf : FirstBySelfEdge h v) :
    v ∈ (live h).flatMap ids := by
  obtain ⟨l1, l2, w, he, _⟩ := hf
  rw [he]; simp [ids]

private theorem counted (h : List (Call α)) : Counted (run h) h := by
  induction h using List.reverseRecOn with
  | nil =>
    refine ⟨rfl, by simp [run, empty, find?, live], ?_, by simp [vertices, live, firstOccs]⟩
    rintro v ⟨l1, l2, w, he, _⟩; simp [live] at he
  | append_singleton h c ih =>
    rw [run_snoc]
    have hmem : ∀ v, v ∈ (run h).names ↔ v ∈ (live h).flatMap ids := by
      intro v; rw [← mem_firstOccs, ih.order, vertices, mem_firstOccs]
    have hcount0 : ∀ v, v ∉ (live h).flatMap ids → (run h).names.count v = 0 := by
      intro v hv; rw [List.count_eq_zero, hmem]; exact hv
    cases c with
    | clear =>
      refine ⟨?_, ?_, ?_, ?_⟩
      · simp [apply, clear, empty, vertices, live_snoc, firstOccs]
      · simp [apply, clear, empty, find?, live_snoc]
      · rintro v ⟨l1, l2, w, he, _⟩; simp [live_snoc] at he
      · simp [vertices, live_snoc, firstOccs]
    | addVertex a =>
      have hl : live (h ++ [Call.addVertex a]) = live h ++ [Call.addVertex a] := live_snoc _ _
      have hv : vertices (h ++ [Call.addVertex a]) =
          if a ∈ vertices h then vertices h else vertices h ++ [a] := by
        unfold vertices; rw [hl, List.flatMap_append]
        simp only [List.flatMap_cons, List.flatMap_nil, ids, List.append_nil]
        exact firstOccs_snoc _ _
      have hfs : ∀ v, FirstBySelfEdge (h ++ [Call.addVertex a]) v ↔ FirstBySelfEdge h v := by
        intro v; rw [first_snoc _ _ (by simp)]; simp
      simp only [apply]
      cases hf : (run h).find? a with
      | some i =>
        have hm : a ∈ (live h).flatMap ids := (ih.found a).1 (by rw [hf]; rfl)
        have hm' : a ∈ vertices h := by rw [vertices, mem_firstOccs]; exact hm
        rw [addVertex_of_some hf]
        rw [if_pos hm'] at hv
        refine ⟨by rw [hv]; exact ih.order, fun v => ?_, fun v hv' => ih.two v ((hfs v).1 hv'),
          fun v h1 h2 => ih.one v (hv ▸ h1) fun h3 => h2 ((hfs v).2 h3)⟩
        rw [ih.found, hl]
        simp only [List.flatMap_append, List.mem_append, List.flatMap_cons, List.flatMap_nil, ids,
          List.append_nil, List.mem_singleton]
        exact ⟨Or.inl, fun h => h.elim id fun h => h ▸ hm⟩
      | none =>
        have hm : a ∉ (live h).flatMap ids := fun hm => by
          have := (ih.found a).2 hm; rw [hf] at this; cases this
        have hm' : a ∉ vertices h := by rw [vertices, mem_firstOccs]; exact hm
        rw [addVertex_of_none hf]
        rw [if_neg hm'] at hv
        refine ⟨?_, fun v => ?_, fun v hv' => ?_, fun v h1 h2 => ?_⟩
        · dsimp only
          rw [hv, firstOccs_snoc, ih.order, if_neg hm']
        · simp only [find?, List.lookup_cons, hl, List.flatMap_append, List.mem_append,
            List.flatMap_cons, List.flatMap_nil, ids, List.append_nil, List.mem_singleton]
          rcases eq_or_ne v a with rfl | hne
          · simp
          · rw [beq_eq_false_iff_ne.2 hne]
            simp only [hne, or_false]
            exact ih.found v
        · have h3 := (hfs v).1 hv'
          have hne : a ≠ v := fun e => hm (e ▸ first_mem h3)
          simp [List.count_append, ih.two v h3, hne]
        · dsimp only
          rw [List.count_append]
          rcases eq_or_ne a v with rfl | hne
          · simp [hcount0 a hm]
          · rw [hv] at h1
            have h1' : v ∈ vertices h := by simpa [Ne.symm hne] using h1
            simp [ih.one v h1' fun h3 => h2 ((hfs v).2 h3), hne]
    | addEdge a b w =>
      have hl : live (h ++ [Call.addEdge a b w]) = live h ++ [Call.addEdge a b w] := live_snoc _ _
      have hv : vertices (h ++ [Call.addEdge a b w]) =
          firstOccs (((live h).flatMap ids ++ [a]) ++ [b]) := by
        unfold vertices; rw [hl]; simp [ids]
      have hfs : ∀ v, FirstBySelfEdge (h ++ [Call.addEdge a b w]) v ↔ FirstBySelfEdge h v ∨
          (v ∉ (live h).flatMap ids ∧ a = v ∧ b = v) := by
        intro v; rw [first_snoc _ _ (by simp)]; simp
      have hnames : ((run h).apply (.addEdge a b w)).names = (run h).names ++
          ((if a ∈ (live h).flatMap ids then [] else [a]) ++
           (if b ∈ (live h).flatMap ids then [] else [b])) := by
        simp only [apply, addEdge]
        have fa := ih.found a
        have fb := ih.found b
        cases ha : (run h).find? a <;> cases hb : (run h).find? b <;>
          rw [ha] at fa <;> rw [hb] at fb <;>
          simp only [Option.isSome_none, Option.isSome_some, Bool.false_eq_true, false_iff, true_iff] at fa fb <;>
          simp only [fa, fb, if_true, if_false, List.append_nil, List.nil_append, List.append_assoc]
      refine ⟨?_, fun v => ?_, fun v hv' => ?_, fun v h1 h2 => ?_⟩
      · rw [hnames, hv, firstOccs_snoc, firstOccs_snoc]
        have ho : firstOccs ((live h).flatMap ids) = firstOccs (run h).names := ih.order.symm
        rw [ho]
        by_cases ha : a ∈ (live h).flatMap ids <;> by_cases hb : b ∈ (live h).flatMap ids
        · simp [ha, hb, mem_firstOccs, (hmem a).2, (hmem b).2]
        · simp [ha, hb, mem_firstOccs, (hmem a).2, (hmem b), firstOccs_snoc]
        · simp [ha, hb, mem_firstOccs, (hmem a), (hmem b).2, firstOccs_snoc]
        · rw [if_neg ha, if_neg hb, List.singleton_append, show (run h).names ++ [a, b] =
            ((run h).names ++ [a]) ++ [b] by simp, firstOccs_snoc, firstOccs_snoc]
      · simp only [apply, addEdge, find?, List.lookup_cons, hl, List.flatMap_append, List.mem_append,
            List.flatMap_cons, List.flatMap_nil, ids, List.append_nil, List.mem_cons,
            List.not_mem_nil, or_false]
        rcases eq_or_ne v b with rfl | hb
        · simp
        rw [beq_eq_false_iff_ne.2 hb]
        rcases eq_or_ne v a with rfl | ha
        · simp
        rw [beq_eq_false_iff_ne.2 ha]
        simp only [ha, hb, or_false]
        exact ih.found v
      · rw [hnames]
        rcases (hfs v).1 hv' with h3 | ⟨h3, rfl, rfl⟩
        · have hm := first_mem h3
          have e1 : ∀ x : α, (if x ∈ (live h).flatMap ids then ([] : List α) else [x]).count v = 0 := by
            intro x
            split
            · rfl
            · rename_i hx
              rw [List.count_singleton]
              simp only [beq_iff_eq, ite_eq_right_iff, one_ne_zero, imp_false]
              rintro rfl; exact hx hm
          rw [List.count_append, List.count_append, e1, e1, ih.two v h3]
        · simp [h3, hcount0 _ h3]
      · rw [hnames]
        rw [hfs] at h2
        have h1' : v ∈ (live h).flatMap ids ∨ v = a ∨ v = b := by
          rw [vertices, mem_firstOccs, hl] at h1
          simpa [ids] using h1
        by_cases hm : v ∈ (live h).flatMap ids
        · have e1 : ∀ x : α, (if x ∈ (live h).flatMap ids then ([] : List α) else [x]).count v = 0 := by
            intro x
            split
            · rfl
            · rename_i hx
              rw [List.count_singleton]
              simp only [beq_iff_eq, ite_eq_right_iff, one_ne_zero, imp_false]
              rintro rfl; exact hx hm
          rw [List.count_append, List.count_append, e1, e1,
            ih.one v (by rw [vertices, mem_firstOccs]; exact hm) fun h => h2 (Or.inl h)]
        · have hne : ¬ (a = v ∧ b = v) := fun h => h2 (Or.inr ⟨hm, h⟩)
          rw [List.count_append, List.count_append, hcount0 v hm]
          rcases h1' with h1' | rfl | rfl
          · exact absurd h1' hm
          · have hb : b ≠ v := fun e => hne ⟨rfl, e⟩
            rw [if_neg hm]
            by_cases hbm : b ∈ (live h).flatMap ids <;> simp [hbm, hb]
          · have ha : a ≠ v := fun e => hne ⟨e, rfl⟩
            rw [if_neg hm]
            by_cases ham : a ∈ (live h).flatMap ids <;> simp [ham, ha]

/-- C01, all histories without exception: leaving out repetitions, the vertices are the ids mentioned
since the last clear, in order of first mention; an id that was not mentioned names no vertex, one first
mentioned by `addEdge(v, v, _)` names two vertices, every other mentioned id names exactly one. -/
theorem C01_vertices (h : List (Call α)) :
    firstOccs (run h).names = vertices h ∧
    ∀ v, (v ∉ vertices h → (run h).names.count v = 0) ∧
      (FirstBySelfEdge h v → (run h).names.count v = 2) ∧
      (v ∈ vertices h → ¬ FirstBySelfEdge h v → (run h).names.count v = 1) := by
  have hc := counted h
  refine ⟨hc.order, fun v => ⟨fun hv => ?_, hc.two v, hc.one v⟩⟩
  rw [List.count_eq_zero]
  intro hm
  apply hv
  rw [← hc.order, mem_firstOccs]
  exact hm

example : FirstBySelfEdge [Call.addVertex (9 : Nat), .clear, .addEdge 3 4 1, .addEdge 9 9 1] 9 ∧
    (run [Call.addVertex (9 : Nat), .clear, .addEdge 3 4 1, .addEdge 9 9 1]).names = [3, 4, 9, 9] ∧
    ¬ FirstBySelfEdge [Call.addVertex (9 : Nat), .addEdge 9 9 1] 9 := by
  refine ⟨⟨[.addEdge 3 4 1], [], 1, rfl, by decide⟩, by decide, ?_⟩
  rintro ⟨l1, l2, w, he, hn⟩
  rcases l1 with _ | ⟨c, l1⟩
  · simp [live] at he
  · simp [live] at he
    obtain ⟨rfl, -⟩ := he
    simp [ids] at hn

theorem C01_fresh_self_edge_component :
    (run [Call.addEdge (5 : Int) 5 1]).connectedComponents = [[5, 5]] := by decide

/-! ### C02 -/

/-- C02: `connectedComponents` lists every vertex exactly once; two vertices are in the same list
iff a chain of edges links them; members are in insertion order and so are the components (by
first member). -/
theorem C02_components (h : List (Call α)) (hn : NoFreshSelf h) :
    (run h).connectedComponents.flatten.Perm (vertices h) ∧
    (∀ c ∈ (run h).connectedComponents, c ≠ [] ∧ c.Sublist (vertices h) ∧
      ∀ a ∈ c, ∀ b, b ∈ c ↔ Linked h a b) ∧
    ((run h).connectedComponents.map List.head?).Sublist ((vertices h).map some) :=
  connectedComponents_spec (rep_run h hn)

/-- C02: no component for the empty graph. -/
theorem C02_empty (h : List (Call α)) : (run (h ++ [.clear])).connectedComponents = [] := by
  rw [run_snoc]; rfl

example : NoFreshSelf [Call.addEdge (4 : Nat) 2 1, .addVertex 9, .addEdge 2 7 1] ∧
    (run [Call.addEdge (4 : Nat) 2 1, .addVertex 9, .addEdge 2 7 1]).connectedComponents
      = [[4, 2, 7], [9]] := by
  refine ⟨noFreshSelf_of_ne (by decide +kernel), by decide +kernel⟩

/-! ### C03, C04 -/

/-- C03 and C04: between linked vertices the query returns, for every tie-break of the queue, a
genuine walk from the first to the second vertex along added edges that repeats no vertex, and no
walk between them has a smaller sum of integer parts of weights.  (Hypothesis: the weights'
integer parts are non-negative, as `boost::dijkstra_shortest_paths` demands.) -/
theorem C03_C04_path (h : List (Call α)) (hn : NoFreshSelf h) (choose : DState → Nat) (a b : α)
    (ha : a ∈ vertices h) (hab : Linked h a b) (hw : ∀ x y w, Step h x y w → 0 ≤ trunc w) :
    ∃ p k, (run h).shortestPathBetween choose a b = .ok p ∧
      Walk h trunc a b p k ∧ p.Nodup ∧
      ∀ p' k', Walk h trunc a b p' k' → k ≤ k' :=
  shortestPath_spec (rep_run h hn) choose ha hab fun x y w _ hs => hw x y w hs

/-- The precondition on weights is needed only on the component of the start vertex, and is
exactly what `boost::negative_edge` checks: a linked edge with negative integer part makes the
query throw. -/
theorem C03_negative_edge (h : List (Call α)) (hn : NoFreshSelf h) (choose : DState → Nat) (a b : α)
    (ha : a ∈ vertices h) (hb : b ∈ vertices h) (x y : α) (w : Rat) (hx : Linked h a x)
    (hs : Step h x y w) (hw : trunc w < 0) :
    (run h).shortestPathBetween choose a b = .throw :=
  shortestPath_throw (rep_run h hn) choose ha hb hx hs hw

/-- The graph used by the non-vacuity examples and the C04 witness: a direct edge 0-3 of weight 1
(one joint observation) and a chain 0-1-2-3 of weights 1/2 (two joint observations each). -/
def demo : List (Call Nat) :=
  [.addEdge 0 3 1, .addEdge 0 1 (1/2), .addEdge 1 2 (1/2), .addEdge 2 3 (1/2)]

theorem demo_noFreshSelf : NoFreshSelf demo := by
  exact noFreshSelf_of_ne (by decide +kernel)

example : (0 : Nat) ∈ vertices demo ∧ Linked demo 0 3 ∧
    (∀ x y w, Step demo x y w → 0 ≤ trunc w) ∧
    (run demo).shortestPathBetween (fun _ => 0) 0 3 = .ok [0, 1, 2, 3] := by
  refine ⟨by decide, ReflTransGen.single ⟨1, Or.inl (by decide +kernel)⟩, ?_, by decide +kernel⟩
  intro x y w hs
  have : w = 1 ∨ w = 1/2 := by
    rcases hs with hs | hs <;> simp [live, demo] at hs <;> rcases hs with h | h | h | h <;> simp [h]
  rcases this with rfl | rfl <;> decide +kernel

theorem demo_step {x y : Nat} {w : Rat} (hs : Step demo x y w) :
    (x, y, w) ∈ [(0, 3, (1 : Rat)), (0, 1, 1/2), (1, 2, 1/2), (2, 3, 1/2),
      (3, 0, 1), (1, 0, 1/2), (2, 1, 1/2), (3, 2, 1/2)] := by
  rcases hs with hs | hs <;> simp [live, demo] at hs <;>
    rcases hs with ⟨rfl, rfl, rfl⟩ | ⟨rfl, rfl, rfl⟩ | ⟨rfl, rfl, rfl⟩ | ⟨rfl, rfl, rfl⟩ <;> simp

theorem demo_nonneg {x y : Nat} {w : Rat} (hs : Step demo x y w) : 0 ≤ trunc w := by
  have := demo_step hs
  simp only [List.mem_cons, Prod.mk.injEq, List.not_mem_nil, or_false] at this
  rcases this with ⟨_, _, rfl⟩ | ⟨_, _, rfl⟩ | ⟨_, _, rfl⟩ | ⟨_, _, rfl⟩ | ⟨_, _, rfl⟩ | ⟨_, _, rfl⟩ |
    ⟨_, _, rfl⟩ | ⟨_, _, rfl⟩ <;> decide +kernel

private theorem demo_walk_nonneg {a b : Nat} {p : List Nat} {k : Int}
    (hw : Walk demo trunc a b p k) : 0 ≤ k ∧ p.head? = some a := by
  induction hw with
  | nil => simp
  | cons hs _ ih => have := demo_nonneg hs; exact ⟨by omega, rfl⟩

private theorem demo_unique (p : List Nat) (k : Int) (hw : Walk demo trunc 0 3 p k)
    (hn : p.Nodup) (hk : k ≤ 0) : p = [0, 1, 2, 3] := by
  have e1 : trunc 1 = 1 := by decide +kernel
  have e2 : trunc (1/2) = 0 := by decide +kernel
  have hd : ∀ {a b : Nat} {p : List Nat} {k : Int}, Walk demo trunc a b p k → a ∈ p := by
    intro a b p k h
    have := (demo_walk_nonneg h).2
    exact List.mem_of_mem_head? this
  cases hw with
  | cons hs hw =>
    have h0 := demo_step hs
    have hk0 := (demo_walk_nonneg hw).1
    simp only [List.mem_cons, Prod.mk.injEq, List.not_mem_nil, or_false] at h0
    rcases h0 with ⟨_, rfl, rfl⟩ | ⟨_, rfl, rfl⟩ | ⟨h, _⟩ | ⟨h, _⟩ | ⟨h, _⟩ | ⟨h, _⟩ | ⟨h, _⟩ | ⟨h, _⟩ <;>
      try (exact absurd h (by decide +kernel))
    · rw [e1] at hk; omega
    cases hw with
    | cons hs1 hw1 =>
      have h1 := demo_step hs1
      have m1 := hd hw1
      simp only [List.mem_cons, Prod.mk.injEq, List.not_mem_nil, or_false] at h1
      rcases h1 with ⟨h, _⟩ | ⟨h, _⟩ | ⟨_, rfl, rfl⟩ | ⟨h, _⟩ | ⟨h, _⟩ | ⟨_, rfl, rfl⟩ | ⟨h, _⟩ | ⟨h, _⟩ <;>
        try (exact absurd h (by decide +kernel))
      · cases hw1 with
        | cons hs2 hw2 =>
          have h2 := demo_step hs2
          have m2 := hd hw2
          simp only [List.mem_cons, Prod.mk.injEq, List.not_mem_nil, or_false] at h2
          rcases h2 with ⟨h, _⟩ | ⟨h, _⟩ | ⟨h, _⟩ | ⟨_, rfl, rfl⟩ | ⟨h, _⟩ | ⟨h, _⟩ | ⟨_, rfl, rfl⟩ | ⟨h, _⟩ <;>
            try (exact absurd h (by decide +kernel))
          · cases hw2 with
            | nil => rfl
            | cons hs3 hw3 =>
              have h3 := demo_step hs3
              have m3 := hd hw3
              simp only [List.mem_cons, Prod.mk.injEq, List.not_mem_nil, or_false] at h3
              rcases h3 with ⟨h, _⟩ | ⟨h, _⟩ | ⟨h, _⟩ | ⟨h, _⟩ | ⟨_, rfl, rfl⟩ | ⟨h, _⟩ | ⟨h, _⟩ | ⟨_, rfl, rfl⟩ <;>
                try (exact absurd h (by decide +kernel))
              · exact absurd hn (by simp [m3])
              · exact absurd hn (by simp [m3])
          · exact absurd hn (by simp [m2])
      · exact absurd hn (by simp [m1])

/-- C04, what fails: the returned path need not minimise the sum of the real weights.  For every
tie-break the query below returns the chain of total weight 3/2 although the direct edge weighs 1. -/
theorem C04_real_weights_fail (choose : DState → Nat) :
    (run demo).shortestPathBetween choose 0 3 = .ok [0, 1, 2, 3] ∧
    Walk demo (fun w => w) 0 3 [0, 1, 2, 3] (1/2 + (1/2 + (1/2 + 0))) ∧
    Walk demo (fun w => w) 0 3 [0, 3] (1 + 0) ∧ (1 + 0 : Rat) < 1/2 + (1/2 + (1/2 + 0)) := by
  refine ⟨?_, ?_, ?_, by decide +kernel⟩
  · obtain ⟨p, k, h1, h2, h3, h4⟩ := C03_C04_path demo demo_noFreshSelf choose 0 3 (by decide +kernel)
      (ReflTransGen.single ⟨1, Or.inl (by decide +kernel)⟩) (fun _ _ _ hs => demo_nonneg hs)
    rw [h1]
    have hk : k ≤ 0 := by
      have := h4 [0, 1, 2, 3] (trunc (1/2) + (trunc (1/2) + (trunc (1/2) + 0)))
        (.cons (Or.inl (by decide +kernel)) (.cons (Or.inl (by decide +kernel)) (.cons (Or.inl (by decide +kernel)) (.nil 3))))
      have e : trunc (1/2) = 0 := by decide +kernel
      rw [e] at this; simpa using this
    exact congrArg Outcome.ok (demo_unique p k h2 h3 hk)
  · exact .cons (Or.inl (by decide +kernel)) (.cons (Or.inl (by decide +kernel)) (.cons (Or.inl (by decide +kernel)) (.nil 3)))
  · exact .cons (Or.inl (by decide +kernel)) (.nil 3)

/-! ### C05 -/

/-- C05: unknown vertices give the empty path. -/
theorem C05_unknown (h : List (Call α)) (hn : NoFreshSelf h) (choose : DState → Nat) (a b : α)
    (hab : a ∉ vertices h ∨ b ∉ vertices h) :
    (run h).shortestPathBetween choose a b = .ok [] := by
  have r := rep_run h hn
  rw [← r.names] at hab
  unfold shortestPathBetween
  have hnone : ∀ v, v ∉ (run h).names → (run h).find? v = none := by
    intro v hv
    cases hf : (run h).find? v with
    | none => rfl
    | some i => exact absurd (List.mem_of_getElem? ((r.find v i).1 hf)) hv
  rcases hab with hv | hv
  · rw [hnone _ hv]
  · rw [hnone _ hv]; split <;> simp_all

example : (9 : Nat) ∉ vertices demo := by decide +kernel

/-- C05: the query on two known vertices that are not linked never returns. -/
theorem C05_unlinked_diverges (h : List (Call α)) (hn : NoFreshSelf h) (choose : DState → Nat)
    (a b : α) (ha : a ∈ vertices h) (hb : b ∈ vertices h) (hab : ¬ Linked h a b)
    (hw : ∀ x y w, Step h x y w → 0 ≤ trunc w) :
    (run h).shortestPathBetween choose a b = .diverge :=
  (shortestPath_diverge (rep_run h hn) choose ha hb hab fun x y w _ hs => hw x y w hs)

/-- C05, what `diverge` means: the predecessor loop of `getPath` has not ended after any number of
rounds. -/
theorem C05_loop_never_ends (h : List (Call α)) (hn : NoFreshSelf h) (choose : DState → Nat)
    (s d : Nat) (hs : s < (run h).names.length) (hsd : ¬ (run h).Reach s d)
    (hw : ∀ x y w, Step h x y w → 0 ≤ trunc w) :
    ∃ st, dijkstra (run h) choose s = .ok st ∧ ∀ fuel, walkBack st.pred s fuel d = none := by
  have r := rep_run h hn
  obtain ⟨st, h1, h2⟩ := dijkstra_inv r.bounded hs choose (fun u _ e he => by
    obtain ⟨x, y, _, _, hst⟩ := r.out_iff.1 he
    exact hw x y e.2 hst)
  refine ⟨st, h1, walkBack_self_none (h2.unseen d ?_) ?_⟩
  · simp only [List.not_mem_nil, false_or]; rw [h2.done_reach]; exact hsd
  · rintro rfl; exact hsd ReflTransGen.refl

example : (run [Call.addVertex (1 : Nat), .addVertex 2]).shortestPathBetween (fun _ => 0) 1 2
    = .diverge := by decide +kernel

end Verif.Props.Graph
