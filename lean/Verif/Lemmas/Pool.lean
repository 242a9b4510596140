import Verif.Model.Pool
import Verif.Lemmas.Detection

/-! Facts about the thread pool. -/
namespace Verif.Lemmas.Pool
open Verif Verif.Pool Verif.Detection

variable {α : Type}

/-! ### Interleavings, up to the order of the tasks and tasks without insertion -/

theorem interleave_perm {ts ts' : List (List α)} {l : List α} (h : Interleave ts l) (hp : ts.Perm ts') : Interleave ts' l := by
  induction h generalizing ts' with
  | nil h => exact .nil fun t ht => h t (hp.mem_iff.2 ht)
  | @step ts i a t l hi _ ih =>
    obtain ⟨hlt, hx⟩ := List.getElem?_eq_some_iff.1 hi
    obtain ⟨j, hj⟩ := List.getElem?_of_mem (hp.mem_iff.1 (List.mem_of_getElem? hi))
    obtain ⟨hlt', hx'⟩ := List.getElem?_eq_some_iff.1 hj
    refine .step hj (ih ?_)
    have e1 := List.getElem_cons_eraseIdx_perm hlt
    have e2 := List.getElem_cons_eraseIdx_perm hlt'
    rw [hx] at e1
    rw [hx'] at e2
    have e3 := (List.perm_cons _).1 ((e1.trans hp).trans e2.symm)
    exact ((List.set_perm_cons_eraseIdx hlt t).trans (e3.cons t)).trans (List.set_perm_cons_eraseIdx hlt' t).symm

theorem interleave_cons {ts : List (List α)} {l : List α} (h : Interleave ([] :: ts) l) : Interleave ts l := by
  generalize hx : [] :: ts = ts' at h
  induction h generalizing ts with
  | nil h =>
    subst hx
    exact .nil fun t ht => h t (by simp [ht])
  | @step ts' i a t l hi _ ih =>
    subst hx
    cases i with
    | zero => simp at hi
    | succ i =>
      simp only [List.getElem?_cons_succ] at hi
      exact .step hi (ih (by simp))

theorem cons_interleave {ts : List (List α)} {l : List α} (h : Interleave ts l) : Interleave ([] :: ts) l := by
  induction h with
  | nil h => exact .nil (by simpa using h)
  | @step ts i a t l hi _ ih => exact .step (i := i + 1) (by simpa using hi) (by simpa using ih)

/-! ### What is left to do -/

/-- The insertions in a list of actions. -/
def inserts : List (Act α) → List α
  | [] => []
  | .insert a :: r => a :: inserts r
  | .lock :: r => inserts r
  | .unlock :: r => inserts r

theorem inserts_task (t : List α) : inserts (taskActs t) = t := by
  induction t with
  | nil => rfl
  | cons a t ih =>
    show inserts (.lock :: .insert a :: .unlock :: taskActs t) = _
    simp [inserts, ih]

/-- The insertions a worker has still to do for its task. -/
def left : Worker α → List α
  | .busy r => inserts r
  | _ => []

def remaining (s : State α) : List (List α) := s.workers.map left ++ (s.queue ++ s.pending)

theorem set_map {β : Type} (f : Worker α → β) {l : List (Worker α)} {w : Nat} {x y : Worker α} (h : l[w]? = some x)
    (hf : f x = f y) : (l.set w y).map f = l.map f := by
  rw [List.map_set, ← hf]
  apply List.ext_getElem?
  intro i
  rw [List.getElem?_set]
  split
  · next e =>
    subst e
    rw [List.getElem?_map, h]
    obtain ⟨hlt, _⟩ := List.getElem?_eq_some_iff.1 h
    simp [hlt]
  · rfl

/-- Whatever remains can be added to what was done. -/
theorem step_left {s s' : State α} (h : Step s s') :
    ∃ d, s'.log = s.log ++ d ∧ ∀ l, Interleave (remaining s') l → Interleave (remaining s) (d ++ l) := by
  cases h with
  | @post t ps hp =>
    refine ⟨[], by simp, fun l hl => ?_⟩
    have : remaining s = s.workers.map left ++ (s.queue ++ [t] ++ ps) := by
      unfold remaining; rw [hp]; simp
    rw [List.nil_append, this]
    exact hl
  | @take w t q hw hq =>
    refine ⟨[], by simp, fun l hl => ?_⟩
    obtain ⟨hlt, hx⟩ := List.getElem?_eq_some_iff.1 hw
    have hlt' : w < (s.workers.map left).length := by simpa using hlt
    have e1 := List.getElem_cons_eraseIdx_perm hlt'
    rw [List.getElem_map, hx] at e1
    have e2 := List.set_perm_cons_eraseIdx hlt' t
    refine interleave_perm (cons_interleave hl) ?_
    unfold remaining
    simp only [List.map_set, left, inserts_task, hq, List.cons_append] at e1 e2 ⊢
    refine ((e2.append_right (q ++ s.pending)).cons _).trans (List.Perm.trans ?_ (e1.append_right (t :: (q ++ s.pending))))
    exact List.Perm.cons _ List.perm_middle.symm
  | @lock w r hw hh =>
    refine ⟨[], by simp, fun l hl => ?_⟩
    have : remaining s = remaining { s with workers := s.workers.set w (.busy r), holder := some w } := by
      unfold remaining
      rw [set_map left hw (by simp [left, inserts])]
    rw [this]; exact hl
  | @insert w a r hw =>
    refine ⟨[a], rfl, fun l hl => ?_⟩
    obtain ⟨hlt, hx⟩ := List.getElem?_eq_some_iff.1 hw
    refine .step (i := w) (t := inserts r) ?_ ?_
    · unfold remaining
      rw [List.getElem?_append_left (by simpa using hlt), List.getElem?_map, hw]
      rfl
    · unfold remaining at hl ⊢
      rw [List.set_append_left _ _ (by simpa using hlt)]
      simpa [List.map_set, left] using hl
  | @unlock w r hw hh =>
    refine ⟨[], by simp, fun l hl => ?_⟩
    have : remaining s = remaining { s with workers := s.workers.set w (.busy r), holder := none } := by
      unfold remaining
      rw [set_map left hw (by simp [left, inserts])]
    rw [this]; exact hl
  | @finish w hw =>
    refine ⟨[], by simp, fun l hl => ?_⟩
    have : remaining s = remaining { s with workers := s.workers.set w .idle } := by
      unfold remaining
      rw [set_map left hw (by simp [left, inserts])]
    rw [this]; exact hl
  | @exit w hw hp hq =>
    refine ⟨[], by simp, fun l hl => ?_⟩
    have : remaining s = remaining { s with workers := s.workers.set w .done } := by
      unfold remaining
      rw [set_map left hw (by simp [left])]
    rw [this]; exact hl

theorem steps_left {k : Nat} {s s' : State α} (h : Steps k s s') :
    ∃ d, s'.log = s.log ++ d ∧ ∀ l, Interleave (remaining s') l → Interleave (remaining s) (d ++ l) := by
  induction h with
  | refl => exact ⟨[], by simp, fun l h => h⟩
  | step _ h2 ih =>
    obtain ⟨d, e1, f1⟩ := ih
    obtain ⟨d', e2, f2⟩ := step_left h2
    exact ⟨d ++ d', by rw [e2, e1, List.append_assoc], fun l h => by rw [List.append_assoc]; exact f1 _ (f2 l h)⟩

theorem replicate_interleave {n : Nat} {ts : List (List α)} {l : List α} (h : Interleave (List.replicate n [] ++ ts) l) :
    Interleave ts l := by
  induction n with
  | zero => exact h
  | succ n ih => exact ih (interleave_cons (by rwa [List.replicate_succ, List.cons_append] at h))

theorem remaining_start (n : Nat) (tasks : List (List α)) : remaining (start n tasks) = List.replicate n [] ++ tasks := by
  simp [remaining, start, left]

/-! ### How much is left to do -/

def weight : Worker α → Nat
  | .idle => 1
  | .busy r => r.length + 2
  | .done => 0

def total (s : State α) : Nat :=
  (s.workers.map weight).sum + ((s.queue.map fun t => 3 * t.length + 2).sum + (s.pending.map fun t => 3 * t.length + 3).sum)

theorem length_task (t : List α) : (taskActs t).length = 3 * t.length := by
  induction t with
  | nil => rfl
  | cons a t ih =>
    show (Act.lock :: Act.insert a :: Act.unlock :: taskActs t).length = _
    simp only [List.length_cons, ih]
    omega

theorem sum_set {l : List (Worker α)} {w : Nat} {x y : Worker α} (h : l[w]? = some x) :
    ((l.set w y).map weight).sum + weight x = (l.map weight).sum + weight y := by
  induction l generalizing w with
  | nil => simp at h
  | cons z l ih =>
    cases w with
    | zero =>
      simp only [List.getElem?_cons_zero, Option.some.injEq] at h
      subst h
      simp only [List.set_cons_zero, List.map_cons, List.sum_cons]
      omega
    | succ w =>
      simp only [List.getElem?_cons_succ] at h
      have := ih h
      simp only [List.set_cons_succ, List.map_cons, List.sum_cons]
      omega

theorem step_total {s s' : State α} (h : Step s s') : total s = total s' + 1 := by
  cases h with
  | post hp =>
    unfold total
    simp only [hp, List.map_append, List.map_cons, List.map_nil, List.sum_append, List.sum_cons, List.sum_nil]
    omega
  | @take w t q hw hq =>
    have := sum_set (y := .busy (taskActs t)) hw
    unfold total
    simp only [weight, length_task, hq, List.map_cons, List.sum_cons] at this ⊢
    omega
  | @lock w r hw hh =>
    have := sum_set (y := .busy r) hw
    unfold total
    simp only [weight, List.length_cons] at this ⊢
    omega
  | @insert w a r hw =>
    have := sum_set (y := .busy r) hw
    unfold total
    simp only [weight, List.length_cons] at this ⊢
    omega
  | @unlock w r hw hh =>
    have := sum_set (y := .busy r) hw
    unfold total
    simp only [weight, List.length_cons] at this ⊢
    omega
  | @finish w hw =>
    have := sum_set (y := .idle) hw
    unfold total
    simp only [weight, List.length_nil] at this ⊢
    omega
  | @exit w hw hp hq =>
    have := sum_set (y := .done) hw
    unfold total
    simp only [weight] at this ⊢
    omega

theorem steps_total {k : Nat} {s s' : State α} (h : Steps k s s') : total s = total s' + k := by
  induction h with
  | refl => rfl
  | step _ h2 ih => rw [ih, step_total h2]; omega

/-! ### The mutex -/

/-- Every worker is in the middle of an insertion iff it holds the mutex; and nobody leaves as long as there is work. -/
structure Inv (s : State α) : Prop where
  busy : ∀ (w : Nat) r, s.workers[w]? = some (.busy r) →
    (s.holder = some w ∧ ∃ t, r = .unlock :: taskActs t ∨ ∃ a, r = .insert a :: .unlock :: taskActs t) ∨
    (s.holder ≠ some w ∧ ∃ t, r = taskActs t)
  held : ∀ w : Nat, s.holder = some w → ∃ r, s.workers[w]? = some (.busy r)
  ended : .done ∈ s.workers → s.pending = [] ∧ s.queue = []

theorem inv_start (n : Nat) (tasks : List (List α)) : Inv (start n tasks) where
  busy w r h := by
    have := List.mem_of_getElem? h
    simp [start] at this
  held w h := by simp [start] at h
  ended h := by simp [start] at h

theorem cons_task {x : Act α} {r : List (Act α)} {t : List α} (h : x :: r = taskActs t) :
    x = .lock ∧ ∃ a t', r = .insert a :: .unlock :: taskActs t' := by
  cases t with
  | nil => cases h
  | cons a t =>
    have : x :: r = .lock :: .insert a :: .unlock :: taskActs t := h
    simp only [List.cons.injEq] at this
    exact ⟨this.1, a, t, this.2⟩

theorem get_set {l : List (Worker α)} {w v : Nat} {x y : Worker α} (h : (l.set w x)[v]? = some y) :
    (v = w ∧ y = x) ∨ (v ≠ w ∧ l[v]? = some y) := by
  rw [List.getElem?_set] at h
  split at h
  · next e =>
    split at h
    · exact .inl ⟨e.symm, by simpa using h.symm⟩
    · cases h
  · next e => exact .inr ⟨fun e' => e e'.symm, h⟩

theorem set_get {l : List (Worker α)} {w : Nat} {x y : Worker α} (h : l[w]? = some x) : (l.set w y)[w]? = some y := by
  obtain ⟨hlt, _⟩ := List.getElem?_eq_some_iff.1 h
  simp [hlt]

theorem inv_step {s s' : State α} (hi : Inv s) (h : Step s s') : Inv s' := by
  cases h with
  | post hp =>
    refine ⟨hi.busy, hi.held, fun h => ?_⟩
    have := (hi.ended h).1
    rw [hp] at this
    cases this
  | @take w t q hw hq =>
    have hnh : s.holder ≠ some w := fun h => by
      obtain ⟨r, hr⟩ := hi.held w h
      rw [hw] at hr
      cases hr
    refine ⟨fun v r hv => ?_, fun v hv => ?_, fun h => ?_⟩
    · rcases get_set hv with ⟨rfl, e⟩ | ⟨_, hv⟩
      · simp only [Worker.busy.injEq] at e
        exact .inr ⟨hnh, t, e⟩
      · exact hi.busy v r hv
    · obtain ⟨r, hr⟩ := hi.held v hv
      have hne : w ≠ v := fun e => hnh (e ▸ hv)
      exact ⟨r, by rw [List.getElem?_set_ne hne]; exact hr⟩
    · rcases List.mem_or_eq_of_mem_set h with h | h
      · have := (hi.ended h).2
        rw [hq] at this
        cases this
      · cases h
  | @lock w r hw hh =>
    refine ⟨fun v r' hv => ?_, fun v hv => ?_, fun h => ?_⟩
    · rcases get_set hv with ⟨rfl, e⟩ | ⟨hne, hv⟩
      · simp only [Worker.busy.injEq] at e
        subst e
        rcases hi.busy _ _ hw with ⟨h1, _⟩ | ⟨_, t, h2⟩
        · rw [hh] at h1; cases h1
        · obtain ⟨_, a, t', h3⟩ := cons_task h2
          exact .inl ⟨rfl, t', .inr ⟨a, h3⟩⟩
      · rcases hi.busy v r' hv with ⟨h1, _⟩ | ⟨_, h2⟩
        · rw [hh] at h1; cases h1
        · exact .inr ⟨fun e => hne (by simpa using e.symm), h2⟩
    · simp only [Option.some.injEq] at hv
      subst hv
      exact ⟨r, set_get hw⟩
    · rcases List.mem_or_eq_of_mem_set h with h | h
      · exact hi.ended h
      · cases h
  | @insert w a r hw =>
    have hwh : s.holder = some w ∧ ∃ t, r = .unlock :: taskActs t := by
      rcases hi.busy _ _ hw with ⟨h1, t, h2 | ⟨b, h2⟩⟩ | ⟨_, t, h2⟩
      · cases h2
      · simp only [List.cons.injEq] at h2
        exact ⟨h1, t, h2.2⟩
      · have := (cons_task h2).1
        cases this
    refine ⟨fun v r' hv => ?_, fun v hv => ?_, fun h => ?_⟩
    · rcases get_set hv with ⟨rfl, e⟩ | ⟨hne, hv⟩
      · simp only [Worker.busy.injEq] at e
        subst e
        obtain ⟨h1, t, h2⟩ := hwh
        exact .inl ⟨h1, t, .inl h2⟩
      · exact hi.busy v r' hv
    · have : w = v := by
        have := hwh.1.symm.trans hv
        simpa using this
      subst this
      exact ⟨r, set_get hw⟩
    · rcases List.mem_or_eq_of_mem_set h with h | h
      · exact hi.ended h
      · cases h
  | @unlock w r hw hh =>
    have hr : ∃ t, r = taskActs t := by
      rcases hi.busy _ _ hw with ⟨_, t, h2 | ⟨b, h2⟩⟩ | ⟨h1, _⟩
      · simp only [List.cons.injEq, true_and] at h2
        exact ⟨t, h2⟩
      · simp at h2
      · exact absurd hh h1
    refine ⟨fun v r' hv => ?_, fun v hv => (nomatch hv), fun h => ?_⟩
    · rcases get_set hv with ⟨rfl, e⟩ | ⟨hne, hv⟩
      · simp only [Worker.busy.injEq] at e
        subst e
        exact .inr ⟨(fun h => nomatch h), hr⟩
      · rcases hi.busy v r' hv with ⟨h1, _⟩ | ⟨_, h2⟩
        · rw [hh] at h1
          simp only [Option.some.injEq] at h1
          exact absurd h1.symm hne
        · exact .inr ⟨(fun h => nomatch h), h2⟩
    · rcases List.mem_or_eq_of_mem_set h with h | h
      · exact hi.ended h
      · cases h
  | @finish w hw =>
    have hnh : s.holder ≠ some w := by
      rcases hi.busy _ _ hw with ⟨_, t, h2 | ⟨b, h2⟩⟩ | ⟨h1, _⟩
      · cases h2
      · cases h2
      · exact h1
    refine ⟨fun v r' hv => ?_, fun v hv => ?_, fun h => ?_⟩
    · rcases get_set hv with ⟨rfl, e⟩ | ⟨hne, hv⟩
      · cases e
      · exact hi.busy v r' hv
    · obtain ⟨r, hr⟩ := hi.held v hv
      have hne : w ≠ v := fun e => hnh (e ▸ hv)
      exact ⟨r, by rw [List.getElem?_set_ne hne]; exact hr⟩
    · rcases List.mem_or_eq_of_mem_set h with h | h
      · exact hi.ended h
      · cases h
  | @exit w hw hp hq =>
    have hnh : s.holder ≠ some w := fun h => by
      obtain ⟨r, hr⟩ := hi.held w h
      rw [hw] at hr
      cases hr
    refine ⟨fun v r' hv => ?_, fun v hv => ?_, fun h => ⟨hp, hq⟩⟩
    · rcases get_set hv with ⟨rfl, e⟩ | ⟨hne, hv⟩
      · cases e
      · exact hi.busy v r' hv
    · obtain ⟨r, hr⟩ := hi.held v hv
      have hne : w ≠ v := fun e => hnh (e ▸ hv)
      exact ⟨r, by rw [List.getElem?_set_ne hne]; exact hr⟩

theorem inv_steps {k : Nat} {s s' : State α} (hi : Inv s) (h : Steps k s s') : Inv s' := by
  induction h with
  | refl => exact hi
  | step _ h2 ih => exact inv_step (ih hi) h2

theorem step_length {s s' : State α} (h : Step s s') : s'.workers.length = s.workers.length := by
  cases h <;> simp

theorem steps_length {k : Nat} {s s' : State α} (h : Steps k s s') : s'.workers.length = s.workers.length := by
  induction h with
  | refl => rfl
  | step _ h2 ih => rw [step_length h2, ih]

/-- Somebody can go on, until all have ended. -/
theorem progress {s : State α} (hi : Inv s) : Joined s ∨ ∃ s', Step s s' := by
  cases hp : s.pending with
  | cons t ps => exact .inr ⟨_, .post hp⟩
  | nil =>
    cases hh : s.holder with
    | some w =>
      obtain ⟨r, hr⟩ := hi.held w hh
      rcases hi.busy w r hr with ⟨_, t, rfl | ⟨a, rfl⟩⟩ | ⟨h1, _⟩
      · exact .inr ⟨_, .unlock hr hh⟩
      · exact .inr ⟨_, .insert hr⟩
      · exact absurd hh h1
    | none =>
      by_cases hall : ∀ x ∈ s.workers, x = .done
      · exact .inl ⟨hp, hall⟩
      · push Not at hall
        obtain ⟨x, hx, hd⟩ := hall
        obtain ⟨w, hw⟩ := List.getElem?_of_mem hx
        right
        cases x with
        | done => exact absurd rfl hd
        | idle =>
          cases hq : s.queue with
          | nil => exact ⟨_, .exit hw hp hq⟩
          | cons t q => exact ⟨_, .take hw hq⟩
        | busy r =>
          rcases hi.busy w r hw with ⟨h1, _⟩ | ⟨_, t, h2⟩
          · rw [hh] at h1; cases h1
          · cases r with
            | nil => exact ⟨_, .finish hw⟩
            | cons x r =>
              obtain ⟨rfl, _⟩ := cons_task h2
              exact ⟨_, .lock hw hh⟩

theorem steps_trans {j k : Nat} {s t u : State α} (h : Steps j s t) (h' : Steps k t u) : Steps (j + k) s u := by
  induction h' with
  | refl => exact h
  | step _ h2 ih => exact .step (ih h) h2

/-- The pool comes to its end. -/
theorem finishes {s : State α} (hi : Inv s) (hn : s.workers ≠ []) : ∃ k s', Steps k s s' ∧ Joined s' := by
  induction hx : total s using Nat.strong_induction_on generalizing s with
  | _ x ih =>
    rcases progress hi with h | ⟨s', h⟩
    · exact ⟨0, s, .refl s, h⟩
    · have h1 := step_total h
      have h2 := step_length h
      obtain ⟨k, s'', h3, h4⟩ := ih (total s') (by omega) (inv_step hi h)
        (by intro e; rw [e] at h2; exact hn (List.length_eq_zero_iff.1 h2.symm)) rfl
      exact ⟨_, s'', steps_trans (.step (.refl s) h) h3, h4⟩

theorem joined_total {s : State α} (hi : Inv s) (hn : s.workers ≠ []) (h : Joined s) :
    total s = 0 ∧ remaining s = List.replicate s.workers.length [] := by
  obtain ⟨x, hx⟩ := List.exists_mem_of_ne_nil _ hn
  have hd := h.2 x hx
  subst hd
  obtain ⟨e1, e2⟩ := hi.ended hx
  have e3 : s.workers = List.replicate s.workers.length .done := List.eq_replicate_iff.2 ⟨rfl, h.2⟩
  constructor
  · unfold total
    rw [e1, e2, e3]
    simp [weight]
  · unfold remaining
    rw [e1, e2]
    conv_lhs => rw [e3]
    simp [left]

end Verif.Lemmas.Pool
