import Verif.Core.Outcome
import Mathlib.Data.List.Basic

/-! Loops that append one value per element. -/
namespace Verif.Lemmas.Collect
open Verif

variable {σ α β : Type}

/-- A loop whose steps all succeed. -/
theorem foldlM_steps {f : σ → α → Outcome σ} {g : σ → α → σ} {l : List α}
    (h : ∀ s, ∀ x ∈ l, f s x = .ok (g s x)) (s : σ) : Outcome.foldlM f s l = .ok (l.foldl g s) := by
  induction l generalizing s with
  | nil => rfl
  | cons x l ih =>
    rw [Outcome.foldlM_cons, h s x (by simp), Outcome.bind_ok, List.foldl_cons]
    exact ih (fun s y hy => h s y (by simp [hy])) _

/-- A loop that appends the values of its elements. -/
theorem foldlM_append_ok {f : List β → α → Outcome (List β)} {v : α → β} {l : List α}
    (h : ∀ acc, ∀ x ∈ l, f acc x = .ok (acc ++ [v x])) (acc : List β) :
    Outcome.foldlM f acc l = .ok (acc ++ l.map v) := by
  rw [foldlM_steps h]
  congr 1
  clear h
  induction l generalizing acc with
  | nil => simp
  | cons x l ih => rw [List.foldl_cons, ih]; simp

/-- The result of a loop that appends values, in general. -/
theorem foldlM_append_inv {f : List β → α → Outcome (List β)} {v : α → Outcome β}
    (hf : ∀ acc x, f acc x = v x >>= fun y => .ok (acc ++ [y])) {l : List α} {acc r : List β}
    (h : Outcome.foldlM f acc l = .ok r) :
    ∃ ys, r = acc ++ ys ∧ List.Forall₂ (fun x y => v x = .ok y) l ys := by
  induction l generalizing acc with
  | nil =>
    simp only [Outcome.foldlM_nil, Outcome.ok.injEq] at h
    exact ⟨[], by simp [h], List.Forall₂.nil⟩
  | cons x l ih =>
    rw [Outcome.foldlM_cons, hf] at h
    obtain ⟨s, h1, h2⟩ := Outcome.bind_eq_ok.1 h
    obtain ⟨y, h3, h4⟩ := Outcome.bind_eq_ok.1 h1
    simp only [Outcome.ok.injEq] at h4
    subst h4
    obtain ⟨ys, h5, h6⟩ := ih h2
    exact ⟨y :: ys, by rw [h5]; simp, List.Forall₂.cons h3 h6⟩

/-- A loop stops with undefined behaviour if some step has it and no earlier step fails otherwise. -/
theorem foldlM_append_ub {f : List β → α → Outcome (List β)} {v : α → Outcome β}
    (hf : ∀ acc x, f acc x = v x >>= fun y => .ok (acc ++ [y])) {l : List α}
    (hv : ∀ x ∈ l, (∃ y, v x = .ok y) ∨ v x = .ub) (hub : ∃ x ∈ l, v x = .ub) (acc : List β) :
    Outcome.foldlM f acc l = .ub := by
  induction l generalizing acc with
  | nil => obtain ⟨x, hx, _⟩ := hub; simp at hx
  | cons x l ih =>
    rw [Outcome.foldlM_cons, hf]
    rcases hv x (by simp) with ⟨y, hy⟩ | hy
    · rw [hy, Outcome.bind_ok, Outcome.bind_ok]
      refine ih (fun z hz => hv z (by simp [hz])) ?_ _
      obtain ⟨z, hz, hz'⟩ := hub
      rcases List.mem_cons.1 hz with rfl | hz
      · rw [hy] at hz'; cases hz'
      · exact ⟨z, hz, hz'⟩
    · rw [hy]; rfl

end Verif.Lemmas.Collect
