import Verif.Spec.Graph
import Verif.Lemmas.Dijkstra
import Verif.Lemmas.ListAux

/-! The model state represents its call history. -/
set_option linter.unusedSectionVars false
namespace Verif.Graph
open Relation Spec.Graph

variable {α : Type} [DecidableEq α]

theorem firstOccs_snoc (l : List α) (x : α) :
    firstOccs (l ++ [x]) = if x ∈ firstOccs l then firstOccs l else firstOccs l ++ [x] := by
  unfold firstOccs; rw [List.foldl_append]; rfl

theorem mem_firstOccs {l : List α} {x : α} : x ∈ firstOccs l ↔ x ∈ l := by
  induction l using List.reverseRecOn generalizing x with
  | nil => simp [firstOccs]
  | append_singleton l a ih =>
    rw [firstOccs_snoc]
    split
    · rename_i h
      rw [ih] at h
      rw [ih]
      simp only [List.mem_append, List.mem_singleton]
      constructor
      · exact Or.inl
      · rintro (h' | rfl)
        · exact h'
        · exact h
    · simp [ih]

theorem nodup_firstOccs (l : List α) : (firstOccs l).Nodup := by
  induction l using List.reverseRecOn with
  | nil => simp [firstOccs]
  | append_singleton l a ih =>
    rw [firstOccs_snoc]
    split
    · exact ih
    · rename_i h
      rw [List.nodup_append]
      exact ⟨ih, by simp, fun x hx y hy hxy => by simp at hy; subst hy; subst hxy; exact h hx⟩

theorem live_snoc (h : List (Call α)) (c : Call α) :
    live (h ++ [c]) = match c with
      | .clear => []
      | c => live h ++ [c] := by
  unfold live; rw [List.foldl_append]; rfl

theorem run_snoc (h : List (Call α)) (c : Call α) : run (h ++ [c]) = (run h).apply c := by
  simp [run, List.foldl_append]

/-- The model state `g` represents history `h`. -/
structure Rep (g : Graph α) (h : List (Call α)) : Prop where
  names : g.names = vertices h
  find : ∀ v i, g.find? v = some i ↔ g.names[i]? = some v
  edges : ∀ i j w, (i, j, w) ∈ g.edges ↔
    ∃ a b, g.names[i]? = some a ∧ g.names[j]? = some b ∧ Call.addEdge a b w ∈ live h

theorem Rep.find_none {g : Graph α} {h} (r : Rep g h) {v : α} (hv : g.find? v = none) :
    v ∉ g.names := by
  intro hm
  obtain ⟨i, hi, rfl⟩ := List.getElem_of_mem hm
  have := (r.find g.names[i] i).2 (List.getElem?_eq_getElem hi)
  rw [hv] at this; cases this

theorem Rep.bounded {g : Graph α} {h} (r : Rep g h) : g.Bounded := by
  intro ⟨i, j, w⟩ he
  obtain ⟨a, b, h1, h2, _⟩ := (r.edges i j w).1 he
  exact ⟨(List.getElem?_eq_some_iff.1 h1).1, (List.getElem?_eq_some_iff.1 h2).1⟩

theorem noFreshSelf_init {h : List (Call α)} {c : Call α} (hn : NoFreshSelf (h ++ [c])) :
    NoFreshSelf h := by
  intro h1 h2 v w he
  exact hn h1 (h2 ++ [c]) v w (by rw [he]; simp)

/-- The edges a call adds connect distinct ids. -/
def edgeNe : Call α → Bool
  | .addEdge a b _ => decide (a ≠ b)
  | _ => true

theorem noFreshSelf_of_ne {h : List (Call α)} (hne : ∀ c ∈ h, edgeNe c = true) :
    NoFreshSelf h := by
  intro h1 h2 v w he
  have := hne (Call.addEdge v v w) (by rw [he]; simp)
  simp [edgeNe] at this

/-- Appending a name to the vertex list keeps the old positions. -/
theorem get_append_left {l : List α} {x a : α} {i : Nat} (h : l[i]? = some a) :
    (l ++ [x])[i]? = some a := by
  have := (List.getElem?_eq_some_iff.1 h).1
  rw [List.getElem?_append_left this]; exact h

theorem addVertex_of_some {g : Graph α} {v : α} {i : Nat} (h : g.find? v = some i) :
    g.addVertex v = g := by unfold addVertex; rw [h]

theorem addVertex_of_none {g : Graph α} {v : α} (h : g.find? v = none) :
    g.addVertex v = { g with names := g.names ++ [v], index := (v, g.names.length) :: g.index } := by
  unfold addVertex; rw [h]

theorem rep_addVertex {g : Graph α} {h} (r : Rep g h) (v : α) :
    Rep (g.addVertex v) (h ++ [Call.addVertex v]) := by
  have hl : live (h ++ [Call.addVertex v]) = live h ++ [Call.addVertex v] := live_snoc _ _
  have hv : vertices (h ++ [Call.addVertex v]) =
      if v ∈ vertices h then vertices h else vertices h ++ [v] := by
    unfold vertices; rw [hl, List.flatMap_append]
    simp only [List.flatMap_cons, List.flatMap_nil, ids, List.append_nil]
    exact firstOccs_snoc _ _
  unfold addVertex
  split
  · rename_i i hi
    have hm : v ∈ vertices h := by
      rw [← r.names]; exact List.mem_of_getElem? ((r.find v i).1 hi)
    constructor
    · rw [hv, if_pos hm]; exact r.names
    · exact r.find
    · intro i j w; rw [r.edges, hl]; simp
  · rename_i hf
    have hm := r.find_none hf
    have hm' : v ∉ vertices h := by rw [← r.names]; exact hm
    constructor
    · simp only; rw [hv, if_neg hm', r.names]
    · intro u i
      simp only [find?, List.lookup_cons]
      by_cases huv : u = v
      · subst huv
        simp only [BEq.rfl]
        rw [List.getElem?_append]
        constructor
        · intro he; simp at he; subst he; simp
        · intro he
          split at he
          · exact absurd (List.mem_of_getElem? he) hm
          · rename_i hlt
            rw [List.getElem?_eq_some_iff] at he
            obtain ⟨h1, _⟩ := he
            simp at h1
            simp; omega
      · have hb : (u == v) = false := by simpa using huv
        rw [hb]
        simp only
        change g.find? u = some i ↔ _
        rw [r.find]
        constructor
        · exact get_append_left
        · intro he
          rw [List.getElem?_append] at he
          split at he
          · exact he
          · rename_i hlt
            rw [List.getElem?_eq_some_iff] at he
            obtain ⟨h1, h2⟩ := he
            simp at h1 h2
            exact absurd h2.symm huv
    · intro i j w
      simp only
      rw [r.edges, hl]
      constructor
      · rintro ⟨a, b, h1, h2, h3⟩
        exact ⟨a, b, get_append_left h1, get_append_left h2, by simp [h3]⟩
      · rintro ⟨a, b, h1, h2, h3⟩
        simp only [List.mem_append, List.mem_singleton, reduceCtorEq, or_false] at h3
        -- both ends were vertices already
        have hab : a ∈ vertices h ∧ b ∈ vertices h := by
          unfold vertices
          rw [mem_firstOccs, mem_firstOccs]
          exact ⟨List.mem_flatMap.2 ⟨_, h3, by simp [ids]⟩,
            List.mem_flatMap.2 ⟨_, h3, by simp [ids]⟩⟩
        have aux : ∀ (c : α) (k : Nat), (g.names ++ [v])[k]? = some c → c ∈ vertices h →
            g.names[k]? = some c := by
          intro c k hk hc
          rw [List.getElem?_append] at hk
          split at hk
          · exact hk
          · rename_i hlt
            rw [List.getElem?_eq_some_iff] at hk
            obtain ⟨h1, h2⟩ := hk
            simp at h1 h2
            subst h2
            exact absurd hc hm'
        exact ⟨a, b, aux a i h1 hab.1, aux b j h2 hab.2, h3⟩

/-- `addEdge` is: make sure both ends exist, then append the edge (when not a fresh self-edge). -/
theorem addEdge_eq {g : Graph α} {h} (r : Rep g h) (a b : α) (w : Rat)
    (hab : a = b → a ∈ g.names) :
    ∃ i j, ((g.addVertex a).addVertex b).find? a = some i ∧
      ((g.addVertex a).addVertex b).find? b = some j ∧
      (g.addEdge a b w).names = ((g.addVertex a).addVertex b).names ∧
      (∀ v, (g.addEdge a b w).find? v = ((g.addVertex a).addVertex b).find? v) ∧
      (g.addEdge a b w).edges = g.edges ++ [(i, j, w)] := by
  cases hfa : g.find? a with
  | some i =>
    cases hfb : g.find? b with
    | some j =>
      have h1 : g.addVertex a = g := by unfold addVertex; rw [hfa]
      have h2 : g.addVertex b = g := by unfold addVertex; rw [hfb]
      refine ⟨i, j, ?_, ?_, ?_, ?_, ?_⟩
      · rw [h1, h2]; exact hfa
      · rw [h1, h2]; exact hfb
      · rw [h1, h2]; unfold addEdge; rw [hfa, hfb]
      · intro v
        rw [h1, h2]; unfold addEdge; rw [hfa, hfb]
        simp only [find?, List.lookup_cons]
        by_cases hvb : v = b
        · subst hvb; simp; exact hfb.symm
        · by_cases hva : v = a
          · subst hva
            have : (v == b) = false := by simpa using hvb
            simp [this]; exact hfa.symm
          · have e1 : (v == b) = false := by simpa using hvb
            have e2 : (v == a) = false := by simpa using hva
            simp [e1, e2]
      · unfold addEdge; rw [hfa, hfb]
    | none =>
      have h1 : g.addVertex a = g := by unfold addVertex; rw [hfa]
      have hne : a ≠ b := by rintro rfl; rw [hfa] at hfb; cases hfb
      have hnb : (a == b) = false := by simpa using hne
      refine ⟨i, g.names.length, ?_, ?_, ?_, ?_, ?_⟩
      · rw [h1]; unfold addVertex; rw [hfb]
        simp only [find?, List.lookup_cons, hnb]
        exact hfa
      · rw [h1]; unfold addVertex; rw [hfb]; simp [find?]
      · rw [h1]; unfold addVertex addEdge; rw [hfa, hfb]
      · intro v
        rw [h1]; unfold addVertex addEdge; rw [hfa, hfb]
        simp only [find?, List.lookup_cons]
        by_cases hvb : v = b
        · subst hvb; simp
        · have e1 : (v == b) = false := by simpa using hvb
          by_cases hva : v = a
          · subst hva; simp [e1]; exact hfa.symm
          · have e2 : (v == a) = false := by simpa using hva
            simp [e1, e2]
      · unfold addEdge; rw [hfa, hfb]
  | none =>
    have hna := r.find_none hfa
    have hne : a ≠ b := fun e => hna (hab e)
    have hnb : (b == a) = false := by simpa using Ne.symm hne
    have hnb' : (a == b) = false := by simpa using hne
    have h1 : g.addVertex a =
        { g with names := g.names ++ [a], index := (a, g.names.length) :: g.index } := by
      unfold addVertex; rw [hfa]
    have hfb1 : (g.addVertex a).find? b = g.find? b := by
      rw [h1]; simp only [find?, List.lookup_cons, hnb]
    cases hfb : g.find? b with
    | some j =>
      rw [hfb] at hfb1
      have h2 : (g.addVertex a).addVertex b = g.addVertex a := by
        exact addVertex_of_some hfb1
      refine ⟨g.names.length, j, ?_, ?_, ?_, ?_, ?_⟩
      · rw [h2, h1]; simp [find?]
      · rw [h2]; exact hfb1
      · rw [h2, h1]; unfold addEdge; rw [hfa, hfb]
      · intro v
        rw [h2, h1]; unfold addEdge; rw [hfa, hfb]
        simp only [find?, List.lookup_cons]
        by_cases hvb : v = b
        · subst hvb; simp [hnb]; exact hfb.symm
        · have e1 : (v == b) = false := by simpa using hvb
          by_cases hva : v = a
          · subst hva; simp [hnb']
          · have e2 : (v == a) = false := by simpa using hva
            simp [e1, e2]
      · unfold addEdge; rw [hfa, hfb]
    | none =>
      rw [hfb] at hfb1
      have h2 : (g.addVertex a).addVertex b =
          { g with names := g.names ++ [a] ++ [b],
                   index := (b, (g.names ++ [a]).length) :: (a, g.names.length) :: g.index } := by
        rw [addVertex_of_none hfb1, h1]
      refine ⟨g.names.length, (g.names ++ [a]).length, ?_, ?_, ?_, ?_, ?_⟩
      · rw [h2]; simp [find?, List.lookup_cons, hnb']
      · rw [h2]; simp [find?]
      · rw [h2]; unfold addEdge; rw [hfa, hfb]
      · intro v; rw [h2]; unfold addEdge; rw [hfa, hfb]; simp only [find?]
      · unfold addEdge; rw [hfa, hfb]

theorem rep_addEdge {g : Graph α} {h} (r : Rep g h) (a b : α) (w : Rat)
    (hab : a = b → a ∈ g.names) : Rep (g.addEdge a b w) (h ++ [Call.addEdge a b w]) := by
  have r2 := rep_addVertex (rep_addVertex r a) b
  obtain ⟨i, j, hi, hj, hnames, hfind, hedges⟩ := addEdge_eq r a b w hab
  have hl : live (h ++ [Call.addEdge a b w]) = live h ++ [Call.addEdge a b w] := live_snoc _ _
  have hl1 : live (h ++ [Call.addVertex a]) = live h ++ [Call.addVertex a] := live_snoc _ _
  have hl2 : live (h ++ [Call.addVertex a] ++ [Call.addVertex b]) =
      live h ++ [Call.addVertex a] ++ [Call.addVertex b] := by
    rw [← hl1]; exact live_snoc _ _
  have hv : vertices (h ++ [Call.addEdge a b w]) =
      vertices (h ++ [Call.addVertex a] ++ [Call.addVertex b]) := by
    unfold vertices; rw [hl, hl2]; simp [ids]
  have hi' := (r2.find a i).1 hi
  have hj' := (r2.find b j).1 hj
  have hnd : ((g.addVertex a).addVertex b).names.Nodup := by
    rw [r2.names]; exact nodup_firstOccs _
  have huniq : ∀ {k k' : Nat} {c : α}, ((g.addVertex a).addVertex b).names[k]? = some c →
      ((g.addVertex a).addVertex b).names[k']? = some c → k = k' := by
    intro k k' c h1 h2
    obtain ⟨hk, hk'⟩ := List.getElem?_eq_some_iff.1 h1
    obtain ⟨hl, hl'⟩ := List.getElem?_eq_some_iff.1 h2
    exact (hnd.getElem_inj_iff).1 (hk'.trans hl'.symm)
  have hg2 : ((g.addVertex a).addVertex b).edges = g.edges := by
    have e : ∀ (g : Graph α) (v : α), (g.addVertex v).edges = g.edges := by
      intro g v; unfold addVertex; split <;> rfl
    rw [e, e]
  constructor
  · rw [hnames, hv, r2.names]
  · intro v k; rw [hfind, hnames]; exact r2.find v k
  · intro x y w'
    rw [hedges, hnames, List.mem_append, ← hg2, r2.edges, hl2, hl]
    simp only [List.mem_singleton, List.mem_append, Prod.mk.injEq, reduceCtorEq, or_false]
    constructor
    · rintro (⟨c, d, h1, h2, h3⟩ | ⟨rfl, rfl, rfl⟩)
      · exact ⟨c, d, h1, h2, Or.inl h3⟩
      · exact ⟨a, b, hi', hj', Or.inr rfl⟩
    · rintro ⟨c, d, h1, h2, h3 | h3⟩
      · exact Or.inl ⟨c, d, h1, h2, h3⟩
      · injection h3 with e1 e2 e3
        subst e1; subst e2; subst e3
        exact Or.inr ⟨huniq h1 hi', huniq h2 hj', rfl⟩

/-- Every history without a fresh self-edge is represented faithfully. -/
theorem rep_run (h : List (Call α)) (hn : NoFreshSelf h) : Rep (run h) h := by
  induction h using List.reverseRecOn with
  | nil => exact ⟨rfl, by simp [run, empty, find?], by simp [run, empty, live]⟩
  | append_singleton h c ih =>
    have r := ih (noFreshSelf_init hn)
    rw [run_snoc]
    cases c with
    | addVertex v => exact rep_addVertex r v
    | addEdge a b w =>
      refine rep_addEdge r a b w ?_
      rintro rfl
      rw [r.names]
      exact hn h [] a w rfl
    | clear =>
      have hl : live (h ++ [Call.clear]) = [] := live_snoc _ _
      refine ⟨?_, ?_, ?_⟩
      · simp [apply, clear, empty, vertices, hl, firstOccs]
      · simp [apply, clear, empty, find?]
      · simp [apply, clear, empty, hl]

/-! ### Transfer between vertex indices and ids -/

section transfer
variable {g : Graph α} {h : List (Call α)}

theorem Rep.nodup (r : Rep g h) : g.names.Nodup := by rw [r.names]; exact nodup_firstOccs _

theorem Rep.inj (r : Rep g h) {i j : Nat} {a : α} (hi : g.names[i]? = some a)
    (hj : g.names[j]? = some a) : i = j := by
  obtain ⟨hk, hk'⟩ := List.getElem?_eq_some_iff.1 hi
  obtain ⟨hl, hl'⟩ := List.getElem?_eq_some_iff.1 hj
  exact (r.nodup.getElem_inj_iff).1 (hk'.trans hl'.symm)

theorem Rep.out_iff (r : Rep g h) {i j : Nat} {w : Rat} :
    (j, w) ∈ g.outEdges i ↔
      ∃ a b, g.names[i]? = some a ∧ g.names[j]? = some b ∧ Step h a b w := by
  rw [mem_outEdges, r.edges, r.edges]
  constructor
  · rintro (⟨a, b, h1, h2, h3⟩ | ⟨a, b, h1, h2, h3⟩)
    · exact ⟨a, b, h1, h2, Or.inl h3⟩
    · exact ⟨b, a, h2, h1, Or.inr h3⟩
  · rintro ⟨a, b, h1, h2, h3 | h3⟩
    · exact Or.inl ⟨a, b, h1, h2, h3⟩
    · exact Or.inr ⟨b, a, h2, h1, h3⟩

theorem Rep.step_mem (r : Rep g h) {a b : α} {w : Rat} (hs : Step h a b w) :
    a ∈ g.names ∧ b ∈ g.names := by
  rw [r.names]; unfold vertices; rw [mem_firstOccs, mem_firstOccs]
  rcases hs with hs | hs
  · exact ⟨List.mem_flatMap.2 ⟨_, hs, by simp [ids]⟩, List.mem_flatMap.2 ⟨_, hs, by simp [ids]⟩⟩
  · exact ⟨List.mem_flatMap.2 ⟨_, hs, by simp [ids]⟩, List.mem_flatMap.2 ⟨_, hs, by simp [ids]⟩⟩

theorem Rep.reach_linked (r : Rep g h) {i j : Nat} (hr : g.Reach i j) {a : α}
    (ha : g.names[i]? = some a) : ∃ b, g.names[j]? = some b ∧ Linked h a b := by
  induction hr with
  | refl => exact ⟨a, ha, ReflTransGen.refl⟩
  | tail _ hbc ih =>
    obtain ⟨b, hb, hl⟩ := ih
    obtain ⟨w, hw⟩ := hbc
    obtain ⟨b', c, h1, h2, h3⟩ := r.out_iff.1 hw
    rw [hb] at h1
    simp at h1; subst h1
    exact ⟨c, h2, hl.tail ⟨w, h3⟩⟩

theorem Rep.linked_reach (r : Rep g h) {a b : α} (hl : Linked h a b) {i : Nat}
    (ha : g.names[i]? = some a) : ∃ j, g.names[j]? = some b ∧ g.Reach i j := by
  induction hl with
  | refl => exact ⟨i, ha, ReflTransGen.refl⟩
  | tail _ hbc ih =>
    obtain ⟨j, hj, hr⟩ := ih
    obtain ⟨w, hw⟩ := hbc
    obtain ⟨k, hk, hk'⟩ := List.getElem_of_mem (r.step_mem hw).2
    have hk2 : g.names[k]? = some _ := List.getElem?_eq_some_iff.2 ⟨hk, hk'⟩
    exact ⟨k, hk2, hr.tail ⟨w, r.out_iff.2 ⟨_, _, hj, hk2, hw⟩⟩⟩

theorem Rep.iwalk_walk (r : Rep g h) {i j : Nat} {p : List Nat} {k : Int}
    (hw : IWalk g i j p k) {a : α} (ha : g.names[i]? = some a) :
    ∃ b, g.names[j]? = some b ∧ Walk h trunc a b (p.filterMap fun i => g.names[i]?) k := by
  induction hw generalizing a with
  | nil i => exact ⟨a, ha, by simpa [ha] using Walk.nil a⟩
  | cons he _ ih =>
    obtain ⟨a', b, h1, h2, h3⟩ := r.out_iff.1 he
    rw [ha] at h1; simp at h1; subst h1
    obtain ⟨c, hc, hw⟩ := ih h2
    refine ⟨c, hc, ?_⟩
    rw [List.filterMap_cons_some ha]
    exact Walk.cons h3 hw

theorem Rep.walk_iwalk (r : Rep g h) {a b : α} {p : List α} {k : Int}
    (hw : Walk h trunc a b p k) {i : Nat} (ha : g.names[i]? = some a) :
    ∃ j q, g.names[j]? = some b ∧ IWalk g i j q k := by
  induction hw generalizing i with
  | nil a => exact ⟨i, [i], ha, IWalk.nil i⟩
  | cons hs _ ih =>
    obtain ⟨k, hk, hk'⟩ := List.getElem_of_mem (r.step_mem hs).2
    have hk2 : g.names[k]? = some _ := List.getElem?_eq_some_iff.2 ⟨hk, hk'⟩
    obtain ⟨j, q, hj, hw⟩ := ih hk2
    exact ⟨j, i :: q, hj, IWalk.cons (r.out_iff.2 ⟨_, _, ha, hk2, hs⟩) hw⟩

/-! ### The queries at id level -/

theorem mem_compNames {c : List Nat} {a : α} :
    a ∈ ((List.range g.names.length).filter (· ∈ c)).filterMap (fun i => g.names[i]?) ↔
      ∃ i ∈ c, g.names[i]? = some a := by
  simp only [List.mem_filterMap, List.mem_filter, List.mem_range, decide_eq_true_eq]
  constructor
  · rintro ⟨i, ⟨_, hc⟩, hi⟩; exact ⟨i, hc, hi⟩
  · rintro ⟨i, hc, hi⟩
    exact ⟨i, ⟨(List.getElem?_eq_some_iff.1 hi).1, hc⟩, hi⟩

theorem compNames_sublist (c : List Nat) :
    (((List.range g.names.length).filter (· ∈ c)).filterMap fun i => g.names[i]?).Sublist g.names := by
  conv => rhs; rw [← range_filterMap_get g.names]
  exact List.Sublist.filterMap _ List.filter_sublist

theorem filter_range_head {n r : Nat} {c : List Nat} (hr : r < n) (hrc : r ∈ c)
    (hmin : ∀ x ∈ c, r ≤ x) :
    ∃ t, (List.range n).filter (· ∈ c) = r :: t := by
  have hs : ((List.range n).filter (· ∈ c)).Pairwise (· < ·) :=
    List.Pairwise.filter _ List.pairwise_lt_range
  have hm : r ∈ (List.range n).filter (· ∈ c) := by simp [hr, hrc]
  cases hl : (List.range n).filter (· ∈ c) with
  | nil => rw [hl] at hm; simp at hm
  | cons x t =>
    rw [hl] at hs hm
    have hxc : x ∈ c := by
      have : x ∈ (List.range n).filter (· ∈ c) := by rw [hl]; simp
      simpa using (List.mem_filter.1 this).2
    rcases List.mem_cons.1 hm with rfl | hm
    · exact ⟨t, rfl⟩
    · have := (List.pairwise_cons.1 hs).1 r hm
      have := hmin x hxc
      omega

theorem connectedComponents_spec (r : Rep g h) :
    g.connectedComponents.flatten.Perm (vertices h) ∧
    (∀ c ∈ g.connectedComponents, c ≠ [] ∧ c.Sublist (vertices h) ∧
      ∀ a ∈ c, ∀ b, b ∈ c ↔ Linked h a b) ∧
    (g.connectedComponents.map List.head?).Sublist ((vertices h).map some) := by
  obtain ⟨hall, rs, hrs1, hrs2, hF⟩ := compSets_spec r.bounded
  have hcls : ∀ c ∈ g.compSets, ∃ q, g.IsClass q c := by
    intro c hc
    obtain ⟨i, hi, rfl⟩ := List.getElem_of_mem hc
    have hl := hF.length_eq
    exact ⟨_, hF.get (hl ▸ hi) hi⟩
  have hlink : ∀ c ∈ g.compSets, ∀ i ∈ c, ∀ a, g.names[i]? = some a → ∀ b,
      (∃ j ∈ c, g.names[j]? = some b) ↔ Linked h a b := by
    intro c hc i hi a ha b
    obtain ⟨q, hq⟩ := hcls c hc
    constructor
    · rintro ⟨j, hj, hb⟩
      have hij : g.Reach i j := (Reach.symm ((hq.2.1 i).1 hi)).trans ((hq.2.1 j).1 hj)
      obtain ⟨b', hb', hl⟩ := r.reach_linked hij ha
      rw [hb] at hb'; simp at hb'; subst hb'; exact hl
    · intro hl
      obtain ⟨j, hj, hr⟩ := r.linked_reach hl ha
      exact ⟨j, (hq.2.1 j).2 (((hq.2.1 i).1 hi).trans hr), hj⟩
  have hcc : ∀ C, C ∈ g.connectedComponents ↔ ∃ c ∈ g.compSets,
      ((List.range g.names.length).filter (· ∈ c)).filterMap (fun i => g.names[i]?) = C := by
    intro C; simp [connectedComponents]
  refine ⟨?_, ?_, ?_⟩
  · rw [← r.names]
    refine (List.perm_ext_iff_of_nodup ?_ r.nodup).2 ?_
    · rw [List.nodup_flatten]
      refine ⟨?_, ?_⟩
      · intro C hC
        obtain ⟨c, _, rfl⟩ := (hcc C).1 hC
        exact r.nodup.sublist (compNames_sublist c)
      · unfold connectedComponents
        rw [List.pairwise_map]
        -- distinct classes are disjoint
        have hdisj : ∀ {ps : List Nat} {cs : List (List Nat)}, ps.Pairwise (· < ·) →
            List.Forall₂ g.IsClass ps cs → cs.Pairwise (fun c d => ∀ x ∈ c, x ∉ d) := by
          intro ps cs hp hF
          induction hF with
          | nil => exact List.Pairwise.nil
          | @cons p c ps cs hpc hF ih =>
            rw [List.pairwise_cons] at hp
            refine List.Pairwise.cons ?_ (ih hp.2)
            intro d hd x hxc hxd
            obtain ⟨i, hi, rfl⟩ := List.getElem_of_mem hd
            have hl := hF.length_eq
            have hq := hF.get (hl ▸ hi) hi
            have hlt : p < ps.get ⟨i, hl ▸ hi⟩ := hp.1 _ (List.get_mem _ _)
            have h1 : g.Reach p x := (hpc.2.1 x).1 hxc
            have h2 : g.Reach (ps.get ⟨i, hl ▸ hi⟩) x := (hq.2.1 x).1 hxd
            have := hq.2.2 p (h2.trans (Reach.symm h1))
            omega
        refine (hdisj hrs1 hF).imp ?_
        intro c d hcd a hac had
        obtain ⟨i, hi, hia⟩ := mem_compNames.1 hac
        obtain ⟨j, hj, hja⟩ := mem_compNames.1 had
        have := r.inj hia hja
        subst this
        exact hcd i hi hj
    · intro a
      rw [List.mem_flatten]
      constructor
      · rintro ⟨C, hC, haC⟩
        obtain ⟨c, _, rfl⟩ := (hcc C).1 hC
        exact (compNames_sublist c).subset haC
      · intro ha
        obtain ⟨i, hi, rfl⟩ := List.getElem_of_mem ha
        obtain ⟨c, hc, hic⟩ := (hall i).1 hi
        exact ⟨_, (hcc _).2 ⟨c, hc, rfl⟩, mem_compNames.2 ⟨i, hic, List.getElem?_eq_getElem hi⟩⟩
  · intro C hC
    obtain ⟨c, hc, rfl⟩ := (hcc C).1 hC
    obtain ⟨q, hq⟩ := hcls c hc
    refine ⟨?_, ?_, ?_⟩
    · have hq1 := hq.1
      have : g.names[q] ∈ ((List.range g.names.length).filter (· ∈ c)).filterMap
          (fun i => g.names[i]?) :=
        mem_compNames.2 ⟨q, (hq.2.1 q).2 ReflTransGen.refl, List.getElem?_eq_getElem hq.1⟩
      exact List.ne_nil_of_mem this
    · rw [← r.names]; exact compNames_sublist c
    · intro a ha b
      obtain ⟨i, hi, hia⟩ := mem_compNames.1 ha
      rw [mem_compNames]
      exact hlink c hc i hi a hia b
  · have hheads : g.connectedComponents.map List.head? = rs.map (fun q => g.names[q]?) := by
      unfold connectedComponents
      rw [List.map_map]
      clear hcc hlink hcls hall hrs1 hrs2
      generalize g.compSets = css at hF
      induction hF with
      | nil => rfl
      | @cons p c ps cs hpc hF ih =>
        simp only [List.map_cons, ih, Function.comp]
        congr 1
        obtain ⟨t, ht⟩ := filter_range_head hpc.1 ((hpc.2.1 p).2 ReflTransGen.refl)
          (fun x hx => hpc.2.2 x ((hpc.2.1 x).1 hx))
        rw [ht, List.filterMap_cons_some (List.getElem?_eq_getElem hpc.1)]
        simp [List.getElem?_eq_getElem hpc.1]
    rw [hheads, ← r.names]
    have hsub := (sublist_range hrs1 hrs2).map (fun q => g.names[q]?)
    have e : (List.range g.names.length).map (fun q => g.names[q]?) = g.names.map some := by
      apply List.ext_getElem (by simp)
      intro i h1 h2
      simp at h1
      simp [List.getElem?_eq_getElem h1]
    rw [← e]; exact hsub

theorem shortestPath_spec (r : Rep g h) (choose : DState → Nat) {a b : α}
    (ha : a ∈ vertices h) (hab : Linked h a b)
    (hw : ∀ x y w, Linked h a x → Step h x y w → 0 ≤ trunc w) :
    ∃ p k, g.shortestPathBetween choose a b = .ok p ∧
      Walk h trunc a b p k ∧ p.Nodup ∧ ∀ p' k', Walk h trunc a b p' k' → k ≤ k' := by
  rw [← r.names] at ha
  obtain ⟨i, hi, hia⟩ := List.getElem_of_mem ha
  have hia' : g.names[i]? = some a := List.getElem?_eq_some_iff.2 ⟨hi, hia⟩
  obtain ⟨j, hjb, hr⟩ := r.linked_reach hab hia'
  obtain ⟨st, hst, hinv⟩ := dijkstra_inv r.bounded hi choose (fun u hu e he => by
    obtain ⟨x, y, hx, _, hs⟩ := r.out_iff.1 he
    obtain ⟨x', hx', hl⟩ := r.reach_linked hu hia'
    rw [hx] at hx'; simp at hx'; subst hx'
    exact hw x y e.2 hl hs)
  have hjD : j ∈ st.done := (hinv.done_reach j).2 hr
  obtain ⟨l1, l2, hD⟩ := List.append_of_mem hjD
  obtain ⟨p, k, h1, h2, h3, h4, h5⟩ := walkBack_spec hinv l1 l2 j hD
  have hlen : l2.length + 1 ≤ g.names.length + 1 := by
    have := nodup_bounded_length hinv.nodupD (fun v hv => hinv.bound v (Or.inr hv))
    rw [hD] at this; simp at this; omega
  have h1' := walkBack_mono hlen h1
  refine ⟨p.reverse.filterMap (fun i => g.names[i]?), k, ?_, ?_, ?_, ?_⟩
  · unfold shortestPathBetween
    rw [(r.find a i).2 hia', (r.find b j).2 hjb]
    simp only [hst, Outcome.bind_ok, getPath, h1']
  · obtain ⟨b', hb', hwk⟩ := r.iwalk_walk h5 hia'
    rw [hjb] at hb'; simp at hb'; subst hb'; exact hwk
  · refine List.Nodup.filterMap ?_ (List.nodup_reverse.2 h3)
    intro x y c hx hy
    exact r.inj (by simpa using hx) (by simpa using hy)
  · intro p' k' hwk
    obtain ⟨j', q, hj', hq⟩ := r.walk_iwalk hwk hia'
    have := r.inj hj' hjb
    subst this
    obtain ⟨db, hdb, hle⟩ := hq.dist_le hinv ((hinv.done_reach i).2 ReflTransGen.refl) 0 hinv.src
    rw [h4] at hdb; simp at hdb; subst hdb; omega

theorem shortestPath_diverge (r : Rep g h) (choose : DState → Nat) {a b : α}
    (ha : a ∈ vertices h) (hb : b ∈ vertices h) (hab : ¬ Linked h a b)
    (hw : ∀ x y w, Linked h a x → Step h x y w → 0 ≤ trunc w) :
    g.shortestPathBetween choose a b = .diverge := by
  rw [← r.names] at ha hb
  obtain ⟨i, hi, hia⟩ := List.getElem_of_mem ha
  have hia' : g.names[i]? = some a := List.getElem?_eq_some_iff.2 ⟨hi, hia⟩
  obtain ⟨j, hj, hjb⟩ := List.getElem_of_mem hb
  have hjb' : g.names[j]? = some b := List.getElem?_eq_some_iff.2 ⟨hj, hjb⟩
  have hnr : ¬ g.Reach i j := by
    intro hr
    obtain ⟨b', hb', hl⟩ := r.reach_linked hr hia'
    rw [hjb'] at hb'; simp at hb'; subst hb'; exact hab hl
  obtain ⟨st, hst, hinv⟩ := dijkstra_inv r.bounded hi choose (fun u hu e he => by
    obtain ⟨x, y, hx, _, hs⟩ := r.out_iff.1 he
    obtain ⟨x', hx', hl⟩ := r.reach_linked hu hia'
    rw [hx] at hx'; simp at hx'; subst hx'
    exact hw x y e.2 hl hs)
  have hnone : ∀ f, walkBack st.pred i f j = none := by
    refine walkBack_self_none (hinv.unseen j ?_) ?_
    · simp only [List.not_mem_nil, false_or]; rw [hinv.done_reach]; exact hnr
    · rintro rfl; exact hnr ReflTransGen.refl
  unfold shortestPathBetween
  rw [(r.find a i).2 hia', (r.find b j).2 hjb']
  simp only [hst, Outcome.bind_ok, getPath, hnone]

theorem shortestPath_throw (r : Rep g h) (choose : DState → Nat) {a b : α}
    (ha : a ∈ vertices h) (hb : b ∈ vertices h) {x y : α} {w : Rat} (hx : Linked h a x)
    (hs : Step h x y w) (hw : trunc w < 0) :
    g.shortestPathBetween choose a b = .throw := by
  rw [← r.names] at ha hb
  obtain ⟨i, hi, hia⟩ := List.getElem_of_mem ha
  have hia' : g.names[i]? = some a := List.getElem?_eq_some_iff.2 ⟨hi, hia⟩
  obtain ⟨j, hj, hjb⟩ := List.getElem_of_mem hb
  have hjb' : g.names[j]? = some b := List.getElem?_eq_some_iff.2 ⟨hj, hjb⟩
  obtain ⟨k, hk, hr⟩ := r.linked_reach hx hia'
  obtain ⟨l, hl, hly⟩ := List.getElem_of_mem (r.step_mem hs).2
  have hl' : g.names[l]? = some y := List.getElem?_eq_some_iff.2 ⟨hl, hly⟩
  have he : (l, w) ∈ g.outEdges k := r.out_iff.2 ⟨x, y, hk, hl', hs⟩
  have hd : dijkstra g choose i = .throw := by
    rcases dijkstra_cases r.bounded hi choose with ⟨st, _, hinv⟩ | ⟨h1, _⟩
    · have := (hinv.closed k ((hinv.done_reach k).2 hr) _ he trivial).2.1
      simp at this; omega
    · exact h1
  unfold shortestPathBetween
  rw [(r.find a i).2 hia', (r.find b j).2 hjb']
  simp only [hd, Outcome.bind_throw]

end transfer

end Verif.Graph
