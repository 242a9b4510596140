import Verif.Model.Graph
import Mathlib.Logic.Relation
import Mathlib.Data.List.Basic
import Mathlib.Data.List.Nodup
import Mathlib.Data.List.Forall2
import Mathlib.Tactic.Common

/-! Index-level facts about the graph model: DFS closure, components, Dijkstra invariant. -/
set_option linter.unusedSectionVars false
namespace Verif.Graph
open Relation

variable {α : Type} [DecidableEq α]

/-! ### Out-edges -/

theorem mem_outEdges {g : Graph α} {u : Nat} {x : Nat × Rat} :
    x ∈ g.outEdges u ↔ (u, x.1, x.2) ∈ g.edges ∨ (x.1, u, x.2) ∈ g.edges := by
  obtain ⟨v, w⟩ := x
  simp only [outEdges, List.mem_flatMap, List.mem_append]
  constructor
  · rintro ⟨⟨a, b, c⟩, he, h | h⟩
    · split at h
      · rename_i hh; simp at h hh; obtain ⟨rfl, rfl⟩ := h; subst hh; exact Or.inl he
      · simp at h
    · split at h
      · rename_i hh; simp at h hh; obtain ⟨rfl, rfl⟩ := h; subst hh; exact Or.inr he
      · simp at h
  · rintro (h | h)
    · exact ⟨_, h, Or.inl (by simp)⟩
    · exact ⟨_, h, Or.inr (by simp)⟩

theorem outEdges_symm {g : Graph α} {u v : Nat} {w : Rat} :
    (v, w) ∈ g.outEdges u ↔ (u, w) ∈ g.outEdges v := by
  simp only [mem_outEdges]; exact Or.comm

/-- Edge endpoints are vertex indices. -/
def Bounded (g : Graph α) : Prop :=
  ∀ e ∈ g.edges, e.1 < g.names.length ∧ e.2.1 < g.names.length

theorem Bounded.out {g : Graph α} (hb : g.Bounded) {u v : Nat} {w : Rat}
    (h : (v, w) ∈ g.outEdges u) : u < g.names.length ∧ v < g.names.length := by
  rcases mem_outEdges.1 h with h | h
  · exact ⟨(hb _ h).1, (hb _ h).2⟩
  · exact ⟨(hb _ h).2, (hb _ h).1⟩

/-- Index-level adjacency. -/
def Adj (g : Graph α) (i j : Nat) : Prop := ∃ w, (j, w) ∈ g.outEdges i

theorem mem_nbrs {g : Graph α} {i j : Nat} : j ∈ g.nbrs i ↔ g.Adj i j := by
  simp [nbrs, Adj]

theorem Adj.symm {g : Graph α} {i j : Nat} (h : g.Adj i j) : g.Adj j i := by
  obtain ⟨w, h⟩ := h; exact ⟨w, outEdges_symm.1 h⟩

/-- Index-level reachability. -/
abbrev Reach (g : Graph α) : Nat → Nat → Prop := ReflTransGen g.Adj

theorem Reach.symm {g : Graph α} {i j : Nat} (h : g.Reach i j) : g.Reach j i := by
  induction h with
  | refl => exact ReflTransGen.refl
  | tail _ hbc ih => exact ReflTransGen.head hbc.symm ih

theorem Reach.lt {g : Graph α} (hb : g.Bounded) {i j : Nat} (h : g.Reach i j)
    (hi : i < g.names.length) : j < g.names.length := by
  induction h with
  | refl => exact hi
  | tail _ hbc _ => obtain ⟨w, h⟩ := hbc; exact (hb.out h).2

/-! ### Depth first search -/

/-- Number of uncoloured vertices below `n`. -/
def unv (n : Nat) (vis : List Nat) : Nat := ((List.range n).filter (fun v => v ∉ vis)).length

theorem unv_mono {n : Nat} {a b : List Nat} (h : a ⊆ b) : unv n b ≤ unv n a := by
  unfold unv
  rw [← List.countP_eq_length_filter, ← List.countP_eq_length_filter]
  apply List.countP_mono_left
  intro x _ hx
  simp only [decide_eq_true_eq] at hx ⊢
  exact fun h' => hx (h h')

theorem unv_cons {n v : Nat} {vis : List Nat} (hv : v < n) (h : v ∉ vis) :
    unv n (v :: vis) < unv n vis := by
  unfold unv
  rw [← List.countP_eq_length_filter, ← List.countP_eq_length_filter]
  have h1 : List.countP (fun x => decide (x ∉ vis)) (List.range n) =
      List.countP (fun x => decide (x ∉ v :: vis)) (List.range n) +
      List.countP (fun x => decide (x = v)) (List.range n) := by
    induction (List.range n) with
    | nil => rfl
    | cons a l ih =>
      simp only [List.countP_cons, ih]
      by_cases hav : a = v
      · subst hav; simp [h]; omega
      · by_cases ha : a ∈ vis <;> simp [hav, ha]; omega
  have h2 : 0 < List.countP (fun x => decide (x = v)) (List.range n) := by
    rw [List.countP_pos_iff]; exact ⟨v, by simpa using hv, by simp⟩
  omega

theorem dfs_subset (adj : Nat → List Nat) : ∀ f vis v, vis ⊆ dfs adj f vis v
  | 0, vis, v => by simp [dfs]
  | f + 1, vis, v => by
    unfold dfs
    split
    · simp
    · have key : ∀ (L vis0 : List Nat), vis0 ⊆ L.foldl (dfs adj f) vis0 := by
        intro L
        induction L with
        | nil => intro vis0; simp
        | cons a L ih => intro vis0; exact (dfs_subset adj f vis0 a).trans (ih _)
      exact (List.subset_cons_self v vis).trans (key _ _)

theorem dfs_sound (adj : Nat → List Nat) : ∀ f vis v x, x ∈ dfs adj f vis v →
    x ∈ vis ∨ ReflTransGen (fun i j => j ∈ adj i) v x
  | 0, vis, v, x => by simp only [dfs]; exact Or.inl
  | f + 1, vis, v, x => by
    unfold dfs
    split
    · exact Or.inl
    · have key : ∀ (L vis0 : List Nat), x ∈ L.foldl (dfs adj f) vis0 →
          x ∈ vis0 ∨ ∃ y ∈ L, ReflTransGen (fun i j => j ∈ adj i) y x := by
        intro L
        induction L with
        | nil => intro vis0 h; exact Or.inl h
        | cons a L ih =>
          intro vis0 h
          rcases ih _ h with h | ⟨y, hy, h⟩
          · rcases dfs_sound adj f vis0 a x h with h | h
            · exact Or.inl h
            · exact Or.inr ⟨a, by simp, h⟩
          · exact Or.inr ⟨y, by simp [hy], h⟩
      intro h
      rcases key _ _ h with h | ⟨y, hy, h⟩
      · rcases List.mem_cons.1 h with rfl | h
        · exact Or.inr ReflTransGen.refl
        · exact Or.inl h
      · exact Or.inr (ReflTransGen.head hy h)

theorem dfs_closed (adj : Nat → List Nat) (n : Nat) (hadj : ∀ x, ∀ y ∈ adj x, y < n) :
    ∀ f vis v, v < n → unv n vis ≤ f →
      v ∈ dfs adj f vis v ∧
      ∀ x ∈ dfs adj f vis v, x ∉ vis → ∀ y ∈ adj x, y ∈ dfs adj f vis v
  | 0, vis, v, hv, hf => by
    have : v ∈ vis := by
      by_contra h
      have := unv_cons hv h
      omega
    simp only [dfs]
    exact ⟨this, fun x hx hx' => absurd hx hx'⟩
  | f + 1, vis, v, hv, hf => by
    unfold dfs
    split
    · rename_i h; exact ⟨h, fun x hx hx' => absurd hx hx'⟩
    · rename_i hvis
      have key : ∀ (L vis0 : List Nat), (∀ y ∈ L, y < n) → unv n vis0 ≤ f →
          vis0 ⊆ L.foldl (dfs adj f) vis0 ∧ L ⊆ L.foldl (dfs adj f) vis0 ∧
          ∀ x ∈ L.foldl (dfs adj f) vis0, x ∉ vis0 → ∀ y ∈ adj x, y ∈ L.foldl (dfs adj f) vis0 := by
        intro L
        induction L with
        | nil => intro vis0 _ _; simp; exact fun x hx hx' => absurd hx hx'
        | cons a L ih =>
          intro vis0 hL hu
          have hsub := dfs_subset adj f vis0 a
          obtain ⟨hm, hc⟩ := dfs_closed adj n hadj f vis0 a (hL a (by simp)) hu
          obtain ⟨h1, h2, h3⟩ := ih (dfs adj f vis0 a) (fun y hy => hL y (by simp [hy]))
            (Nat.le_trans (unv_mono hsub) hu)
          simp only [List.foldl_cons]
          refine ⟨hsub.trans h1, ?_, ?_⟩
          · intro y hy
            rcases List.mem_cons.1 hy with rfl | hy
            · exact h1 hm
            · exact h2 hy
          · intro x hx hx0 y hy
            by_cases hxd : x ∈ dfs adj f vis0 a
            · exact h1 (hc x hxd hx0 y hy)
            · exact h3 x hx hxd y hy
      have hu := unv_cons hv hvis
      obtain ⟨h1, h2, h3⟩ := key (adj v) (v :: vis) (hadj v) (by omega)
      refine ⟨h1 (by simp), ?_⟩
      intro x hx hx0 y hy
      by_cases hxv : x = v
      · subst hxv; exact h2 hy
      · exact h3 x hx (by simp [hxv, hx0]) y hy

/-! ### Components -/

/-- `c` is the reachability class whose least vertex is `r`. -/
def IsClass (g : Graph α) (r : Nat) (c : List Nat) : Prop :=
  r < g.names.length ∧ (∀ x, x ∈ c ↔ g.Reach r x) ∧ ∀ x, g.Reach r x → r ≤ x

theorem compFold_inv {g : Graph α} (hb : g.Bounded) : ∀ k, k ≤ g.names.length →
    let st := (List.range k).foldl g.compStep ([], [])
    (∀ x ∈ st.1, ∀ y, g.Adj x y → y ∈ st.1) ∧ (∀ i < k, i ∈ st.1) ∧
    (∀ x, x ∈ st.1 ↔ ∃ c ∈ st.2, x ∈ c) ∧
    ∃ rs : List Nat, rs.Pairwise (· < ·) ∧ (∀ r ∈ rs, r < k) ∧ List.Forall₂ g.IsClass rs st.2
  | 0, _ => by
    simp
  | k + 1, hk => by
    obtain ⟨hcl, hall, hmem, rs, hsort, hlt, hF⟩ := compFold_inv hb k (by omega)
    rw [List.range_succ, List.foldl_append, List.foldl_cons, List.foldl_nil]
    generalize hst : (List.range k).foldl g.compStep ([], []) = st at *
    unfold compStep
    split
    · rename_i hin
      refine ⟨hcl, ?_, hmem, rs, hsort, fun r hr => Nat.lt_succ_of_lt (hlt r hr), hF⟩
      intro i hi
      rcases Nat.lt_succ_iff_lt_or_eq.1 hi with h | rfl
      · exact hall i h
      · exact hin
    · rename_i hin
      have hadj : ∀ x, ∀ y ∈ g.nbrs x, y < g.names.length := by
        intro x y hy; obtain ⟨w, h⟩ := mem_nbrs.1 hy; exact (hb.out h).2
      have hfuel : unv g.names.length st.1 ≤ g.names.length := by
        unfold unv; exact Nat.le_trans (List.length_filter_le _ _) (by simp)
      have hsub := dfs_subset g.nbrs g.names.length st.1 k
      obtain ⟨hk1, hk2⟩ := dfs_closed g.nbrs _ hadj g.names.length st.1 k (by omega) hfuel
      have hsound := dfs_sound g.nbrs g.names.length st.1 k
      have hreq : (fun i j => j ∈ g.nbrs i) = g.Adj := by
        funext i j; exact propext mem_nbrs
      rw [hreq] at hsound
      simp only []
      generalize dfs g.nbrs g.names.length st.1 k = vis' at *
      have hcl' : ∀ x ∈ vis', ∀ y, g.Adj x y → y ∈ vis' := by
        intro x hx y hy
        by_cases hxs : x ∈ st.1
        · exact hsub (hcl x hxs y hy)
        · exact hk2 x hx hxs y (mem_nbrs.2 hy)
      have hclR : ∀ x ∈ st.1, ∀ y, g.Reach x y → y ∈ st.1 := by
        intro x hx y hy
        induction hy with
        | refl => exact hx
        | tail _ h ih => exact hcl _ ih _ h
      have hclR' : ∀ x ∈ vis', ∀ y, g.Reach x y → y ∈ vis' := by
        intro x hx y hy
        induction hy with
        | refl => exact hx
        | tail _ h ih => exact hcl' _ ih _ h
      have hclass : ∀ x, x ∈ vis'.filter (fun v => v ∉ st.1) ↔ g.Reach k x := by
        intro x
        simp only [List.mem_filter, decide_eq_true_eq]
        constructor
        · rintro ⟨hx, hxn⟩
          exact (hsound x hx).resolve_left hxn
        · intro hx
          exact ⟨hclR' k hk1 x hx, fun hxs => hin (hclR x hxs k (Reach.symm hx))⟩
      refine ⟨hcl', ?_, ?_, rs ++ [k], ?_, ?_, ?_⟩
      · intro i hi
        rcases Nat.lt_succ_iff_lt_or_eq.1 hi with h | rfl
        · exact hsub (hall i h)
        · exact hk1
      · intro x
        simp only [List.mem_append, List.mem_singleton]
        constructor
        · intro hx
          by_cases hxs : x ∈ st.1
          · obtain ⟨c, hc, hxc⟩ := (hmem x).1 hxs; exact ⟨c, Or.inl hc, hxc⟩
          · exact ⟨_, Or.inr rfl, by simp [hx, hxs]⟩
        · rintro ⟨c, hc | rfl, hxc⟩
          · exact hsub ((hmem x).2 ⟨c, hc, hxc⟩)
          · exact (List.mem_filter.1 hxc).1
      · rw [List.pairwise_append]
        exact ⟨hsort, by simp, fun a ha b hb => by simp at hb; subst hb; exact hlt a ha⟩
      · intro r hr
        rcases List.mem_append.1 hr with h | h
        · have := hlt r h; omega
        · simp at h; omega
      · refine List.rel_append hF ?_
        refine List.Forall₂.cons ⟨by omega, hclass, ?_⟩ List.Forall₂.nil
        intro x hx
        by_contra hlt'
        exact hin (hclR x (hall x (by omega)) k (Reach.symm hx))

theorem compSets_spec {g : Graph α} (hb : g.Bounded) :
    (∀ x, x < g.names.length ↔ ∃ c ∈ g.compSets, x ∈ c) ∧
    ∃ rs : List Nat, rs.Pairwise (· < ·) ∧ (∀ r ∈ rs, r < g.names.length) ∧
      List.Forall₂ g.IsClass rs g.compSets := by
  obtain ⟨_, hall, hmem, rs, h1, h2, h3⟩ := compFold_inv hb g.names.length (Nat.le_refl _)
  refine ⟨fun x => ⟨fun hx => (hmem x).1 (hall x hx), ?_⟩, rs, h1, h2, h3⟩
  rintro ⟨c, hc, hx⟩
  obtain ⟨r, _, hr⟩ : ∃ r ∈ rs, g.IsClass r c := by
    unfold compSets at hc
    obtain ⟨i, hi, rfl⟩ := List.getElem_of_mem hc
    have hl := h3.length_eq
    exact ⟨rs[i]'(hl ▸ hi), List.getElem_mem _, h3.get (hl ▸ hi) hi⟩
  exact Reach.lt hb ((hr.2.1 x).1 hx) hr.1

end Verif.Graph
