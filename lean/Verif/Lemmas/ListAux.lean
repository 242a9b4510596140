import Mathlib.Data.List.Basic
import Mathlib.Data.List.Nodup
import Mathlib.Data.List.Induction
import Mathlib.Data.List.Perm.Basic
import Mathlib.Data.List.Perm.Subperm
import Mathlib.Tactic.Common

/-! List facts used by several modules. -/
namespace Verif

theorem range_filterMap_get {α} (l : List α) :
    ((List.range l.length).filterMap fun i => l[i]?) = l := by
  induction l using List.reverseRecOn with
  | nil => rfl
  | append_singleton l a ih =>
    rw [List.length_append, List.length_singleton, List.range_succ, List.filterMap_append]
    congr 1
    · conv => rhs; rw [← ih]
      apply List.filterMap_congr
      intro i hi
      rw [List.getElem?_append_left (by simpa using hi)]
    · simp

/-- A strictly increasing list of numbers below `n` is a sublist of `range n`. -/
theorem sublist_range {n : Nat} : ∀ {l : List Nat}, l.Pairwise (· < ·) → (∀ x ∈ l, x < n) →
    l.Sublist (List.range n) := by
  induction n with
  | zero =>
    intro l _ h
    cases l with
    | nil => exact List.Sublist.refl _
    | cons a l => exact absurd (h a (by simp)) (by omega)
  | succ n ih =>
    intro l hp hb
    rw [List.range_succ]
    rcases List.eq_nil_or_concat l with rfl | ⟨l', x, rfl⟩
    · exact List.nil_sublist _
    · rw [List.concat_eq_append] at hp hb ⊢
      rw [List.pairwise_append] at hp
      by_cases hx : x = n
      · subst hx
        refine List.Sublist.append (ih hp.1 ?_) (List.Sublist.refl _)
        intro y hy; exact hp.2.2 y hy x (by simp)
      · have hxn : x < n := by have := hb x (by simp); omega
        refine List.Sublist.trans (ih ?_ ?_) (List.sublist_append_left _ _)
        · exact List.pairwise_append.2 hp
        · intro y hy
          rcases List.mem_append.1 hy with hy | hy
          · exact Nat.lt_trans (hp.2.2 y hy x (by simp)) hxn
          · simp at hy; subst hy; exact hxn

end Verif
