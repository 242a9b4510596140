import Verif.Lemmas.Keypoints
import Mathlib.Algebra.Order.BigOperators.Group.List

set_option linter.unusedSectionVars false
namespace Verif.Detection
open Spec.Store Store Keypoints

/-! ### Interleavings -/

/-- An interleaving is a permutation of all the actions. -/
theorem Interleave.perm {α : Type} {ts : List (List α)} {l : List α} (h : Interleave ts l) :
    l.Perm ts.flatten := by
  induction h with
  | @nil ts h =>
    have : ts.flatten = [] := by simpa using h
    rw [this]
  | @step ts i a t l hi _ ih =>
    have hlt : i < ts.length := by
      by_contra hh
      rw [List.getElem?_eq_none (by omega)] at hi
      cases hi
    have e : ts = ts.take i ++ (a :: t) :: ts.drop (i + 1) := by
      conv_lhs => rw [← List.take_append_drop i ts]
      congr 1
      rw [List.drop_eq_getElem_cons hlt]
      congr 1
      rw [List.getElem?_eq_getElem hlt] at hi
      exact Option.some.inj hi
    have e2 : ts.set i t = ts.take i ++ t :: ts.drop (i + 1) := by
      rw [List.set_eq_take_append_cons_drop, if_pos hlt]
    rw [e2] at ih
    rw [e]
    simp only [List.flatten_append, List.flatten_cons, List.cons_append] at ih ⊢
    exact (ih.cons a).trans List.perm_middle.symm

/-- The actions recognised by `p`, if they all belong to task `i`, occur in the order of that task. -/
theorem Interleave.filter {α : Type} {ts : List (List α)} {l : List α} (h : Interleave ts l)
    (p : α → Bool) (i : Nat) (hp : ∀ j t, ts[j]? = some t → j ≠ i → ∀ a ∈ t, p a = false) :
    l.filter p = ((ts[i]?).getD []).filter p := by
  induction h with
  | @nil ts h =>
    cases hi : ts[i]? with
    | none => rfl
    | some t => rw [Option.getD_some, h t (List.mem_of_getElem? hi)]
  | @step ts j a t l hj _ ih =>
    have hlt : j < ts.length := by
      by_contra hh
      rw [List.getElem?_eq_none (by omega)] at hj
      cases hj
    have hset : ∀ k t', (ts.set j t)[k]? = some t' → k ≠ i → ∀ b ∈ t', p b = false := by
      intro k t' hk hki b hb
      by_cases hkj : k = j
      · subst hkj
        rw [List.getElem?_set_self hlt] at hk
        cases hk
        exact hp k _ hj hki b (by simp [hb])
      · rw [List.getElem?_set_ne (Ne.symm hkj)] at hk
        exact hp k t' hk hki b hb
    have ih := ih hset
    by_cases hji : j = i
    · subst hji
      rw [List.getElem?_set_self hlt, Option.getD_some] at ih
      rw [hj, Option.getD_some, List.filter_cons, List.filter_cons, ih]
    · rw [List.getElem?_set_ne hji] at ih
      rw [List.filter_cons, hp j _ hj hji a (by simp), ih]
      rfl

/-- Every set of tasks has its sequential schedule. -/
theorem Interleave.sequential {α : Type} (ts : List (List α)) : Interleave ts ts.flatten := by
  suffices H : ∀ (n : Nat) (ts : List (List α)), ts.flatten.length = n → Interleave ts ts.flatten from
    H _ ts rfl
  intro n
  induction n with
  | zero =>
    intro ts h
    have h0 : ts.flatten = [] := List.length_eq_zero_iff.1 h
    rw [h0]
    exact .nil (by simpa using h0)
  | succ n ih =>
    intro ts h
    -- the first non-empty task
    have : ∀ ts : List (List α), ts.flatten ≠ [] → ∃ (i : Nat) (a : α) (t : List α), ts[i]? = some (a :: t) ∧
        ts.flatten = a :: (ts.set i t).flatten := by
      intro ts
      induction ts with
      | nil => intro h; exact absurd rfl h
      | cons t ts iht =>
        intro hne
        cases t with
        | nil =>
          obtain ⟨i, a, t, h1, h2⟩ := iht (by simpa using hne)
          exact ⟨i + 1, a, t, by simpa using h1, by simpa using h2⟩
        | cons a t => exact ⟨0, a, t, rfl, by simp⟩
    obtain ⟨i, a, t, h1, h2⟩ := this ts (by intro e; rw [e] at h; cases h)
    rw [h2]
    refine .step h1 (ih _ ?_)
    rw [h2] at h
    simpa using h

theorem Schedule.perm {α : Type} {tasks : List (List (List α))} {l : List α} (h : Schedule tasks l) :
    l.Perm (tasks.flatMap List.flatten) := by
  obtain ⟨ls, hf, rfl⟩ := h
  induction hf with
  | nil => exact List.Perm.nil
  | cons h _ ih =>
    rw [List.flatten_cons, List.flatMap_cons]
    exact h.perm.append ih

theorem Schedule.sequential {α : Type} (tasks : List (List (List α))) :
    Schedule tasks (tasks.map List.flatten).flatten := by
  refine ⟨tasks.map List.flatten, ?_, rfl⟩
  induction tasks with
  | nil => exact .nil
  | cons t ts ih => exact .cons (Interleave.sequential t) ih

/-- The actions recognised by `p`, if they all belong to task `i` of camera `c`. -/
theorem Schedule.filter {α : Type} {tasks : List (List (List α))} {l : List α} (h : Schedule tasks l)
    (p : α → Bool) (c i : Nat)
    (hp : ∀ d ts j t, tasks[d]? = some ts → ts[j]? = some t → (d, j) ≠ (c, i) → ∀ a ∈ t, p a = false) :
    l.filter p = ((((tasks[c]?).getD [])[i]?).getD []).filter p := by
  obtain ⟨ls, hf, rfl⟩ := h
  induction hf generalizing c with
  | nil => rfl
  | @cons ts l' tasks ls' h1 h2 ih =>
    rw [List.flatten_cons, List.filter_append]
    cases c with
    | zero =>
      rw [h1.filter p i (fun j t hj hne => hp 0 ts j t rfl hj (by simpa using hne))]
      have : ls'.flatten.filter p = [] := by
        rw [List.filter_eq_nil_iff]
        intro a ha
        have ha' := (Schedule.perm ⟨ls', h2, rfl⟩).mem_iff.1 ha
        obtain ⟨ts', h3, h4⟩ := List.mem_flatMap.1 ha'
        obtain ⟨t, h5, h6⟩ := List.mem_flatten.1 h4
        obtain ⟨d, hd⟩ := List.mem_iff_getElem?.1 h3
        obtain ⟨j, hj⟩ := List.mem_iff_getElem?.1 h5
        simp [hp (d + 1) ts' j t (by simpa using hd) hj (by simp) a h6]
      rw [this]
      simp
    | succ c =>
      have : l'.filter p = [] := by
        rw [List.filter_eq_nil_iff]
        intro a ha
        obtain ⟨t, h5, h6⟩ := List.mem_flatten.1 (h1.perm.mem_iff.1 ha)
        obtain ⟨j, hj⟩ := List.mem_iff_getElem?.1 h5
        simp [hp 0 ts j t rfl hj (by simp) a h6]
      rw [this, List.nil_append]
      have := ih c (fun d ts' j t hd hj hne => hp (d + 1) ts' j t (by simpa using hd) hj (by
        intro e; apply hne; simp only [Prod.mk.injEq, Nat.add_right_cancel_iff] at e ⊢; exact e))
      rw [this]
      simp

/-- Like `Schedule.filter` for actions that belong to one camera `c` only, up to order. -/
theorem Schedule.filter_cam {α : Type} {tasks : List (List (List α))} {l l' : List α}
    (h : Schedule tasks l) (h' : Schedule tasks l') (p : α → Bool) :
    (l.filter p).Perm (l'.filter p) :=
  (h.perm.trans h'.perm.symm).filter p

/-! ### Detection of one image -/

variable {K P Path : Type} [Field K] [LinearOrder K]

theorem foldlM_collect {α β : Type} (F : List α → β → Outcome (List α)) (res : β → Option α)
    (l : List β) (h : ∀ acc, ∀ b ∈ l, F acc b = .ok (acc ++ (res b).toList)) (acc : List α) :
    Outcome.foldlM F acc l = .ok (acc ++ l.filterMap res) := by
  induction l generalizing acc with
  | nil => simp
  | cons b l ih =>
    rw [Outcome.foldlM_cons, h acc b (by simp), Outcome.bind_ok, ih fun acc b hb => h acc b (by simp [hb])]
    cases hr : res b <;> simp [hr]

theorem detectImage_mem {fitLine : List (K × K) → K × K × K × K} {cfg : Cfg}
    {geoms : List (Geom K)} {cam frame : Nat} {path : Path} {raw : Option (Nat → Raw P)}
    {l : List (Insertion P Path)} (h : detectImage fitLine cfg geoms cam frame path raw = .ok l) :
    (∀ a ∈ l, a.obs.cam = cam ∧ a.obs.frame = frame ∧ a.path = path ∧ a.obs.board < geoms.length) := by
  cases raw with
  | none => simp [detectImage] at h; subst h; simp
  | some raw =>
    unfold detectImage at h
    refine Outcome.foldlM_inv (fun l : List (Insertion P Path) => ∀ a ∈ l, a.obs.cam = cam ∧
      a.obs.frame = frame ∧ a.path = path ∧ a.obs.board < geoms.length) ?_ (by simp) h
    intro s t gi hgi hs ht
    rw [Outcome.bind_eq_ok] at ht
    obtain ⟨o, _, ht⟩ := ht
    have hlt : gi.2 < geoms.length := by
      have := List.mem_zipIdx (x := gi.1) (i := gi.2) hgi
      omega
    cases o with
    | none => simp at ht; subst ht; exact hs
    | some x =>
      simp at ht
      subst ht
      intro a ha
      rcases List.mem_append.1 ha with ha | ha
      · exact hs a ha
      · simp only [List.mem_singleton] at ha
        subst ha
        exact ⟨rfl, rfl, rfl, hlt⟩

end Verif.Detection
