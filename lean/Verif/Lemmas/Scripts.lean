import Verif.Model.Scripts
import Verif.Lemmas.Collect

/-! Loops of the scripts. -/
namespace Verif.Lemmas.Scripts
open Verif Verif.Scripts

theorem each_ok {α β : Type} (f : α → Outcome β) (v : α → β) (l : List α) (h : ∀ a ∈ l, f a = .ok (v a)) :
    each f l = .ok (l.map v) := by
  unfold each
  rw [Lemmas.Collect.foldlM_append_ok (v := v)]
  · rfl
  · intro acc a ha
    unfold collect
    rw [h a ha]; rfl

theorem each_throw {α β : Type} (f : α → Outcome β) (l : List α)
    (h : ∀ a ∈ l, f a = .throw ∨ ∃ b, f a = .ok b) (ht : ∃ a ∈ l, f a = .throw) : each f l = .throw := by
  unfold each
  generalize ([] : List β) = acc
  induction l generalizing acc with
  | nil => simp at ht
  | cons a l ih =>
    rw [Outcome.foldlM_cons]
    rcases h a (by simp) with ha | ⟨b, ha⟩
    · unfold collect; rw [ha]; rfl
    · have : collect f acc a = .ok (acc ++ [b]) := by unfold collect; rw [ha]; rfl
      rw [this, Outcome.bind_ok]
      apply ih (fun x hx => h x (by simp [hx]))
      obtain ⟨x, hx, hx'⟩ := ht
      rcases List.mem_cons.1 hx with rfl | hx
      · rw [ha] at hx'; cases hx'
      · exact ⟨x, hx, hx'⟩

theorem each_inv {α β : Type} {f : α → Outcome β} {l : List α} {bs : List β} (h : each f l = .ok bs) :
    ∀ a ∈ l, ∃ b ∈ bs, f a = .ok b := by
  unfold each at h
  have key : ∀ (l : List α) (acc bs : List β), Outcome.foldlM (collect f) acc l = .ok bs →
      (∀ b ∈ acc, b ∈ bs) ∧ ∀ a ∈ l, ∃ b ∈ bs, f a = .ok b := by
    intro l
    induction l with
    | nil => intro acc bs h; cases h; exact ⟨fun _ h => h, by simp⟩
    | cons a l ih =>
      intro acc bs h
      rw [Outcome.foldlM_cons] at h
      obtain ⟨acc', h1, h⟩ := Outcome.bind_eq_ok.1 h
      obtain ⟨b, h2, h1⟩ := Outcome.bind_eq_ok.1 h1
      cases h1
      obtain ⟨k1, k2⟩ := ih _ _ h
      refine ⟨fun b hb => k1 b (by simp [hb]), fun x hx => ?_⟩
      rcases List.mem_cons.1 hx with rfl | hx
      · exact ⟨b, k1 b (by simp), h2⟩
      · exact k2 x hx
  exact (key l [] bs h).2

end Verif.Lemmas.Scripts
