import Verif.Lemmas.Pool

/-!
C98: the detection of the boards ends, whatever the threads do, and inserts every detection once.
-/
namespace Verif.Props.Pool
open Verif Verif.Pool Verif.Detection Verif.Lemmas.Pool

variable {α : Type}

/-- The number of steps of a detection: three per image (posted, taken, finished), three per insertion (mutex taken,
insertion, mutex released), one per worker. -/
def length (n : Nat) (tasks : List (List α)) : Nat := 3 * tasks.length + 3 * tasks.flatten.length + n

theorem total_start (n : Nat) (tasks : List (List α)) : total (start n tasks) = length n tasks := by
  have h : ∀ l : List (List α), (l.map fun t => 3 * t.length + 3).sum = 3 * l.length + 3 * l.flatten.length := by
    intro l
    induction l with
    | nil => rfl
    | cons t l ih =>
      simp only [List.map_cons, List.sum_cons, ih, List.length_cons, List.flatten_cons, List.length_append]
      omega
  simp only [total, start, length, List.map_replicate, weight, List.sum_replicate, List.map_nil, List.sum_nil, h]
  simp
  omega

variable (n : Nat) (tasks : List (List α))

/-- C98, no deadlock: as long as the pool is not joined, the main thread or some worker can do its next step. -/
theorem C98_no_deadlock (k : Nat) (s : State α) (h : Steps k (start n tasks) s) : Joined s ∨ ∃ s', Step s s' :=
  progress (inv_steps (inv_start n tasks) h)

/-- C98, termination: no execution has more steps than `length`, and, if there is a worker, those that are over have
exactly as many. -/
theorem C98_terminates (k : Nat) (s : State α) (h : Steps k (start n tasks) s) :
    k ≤ length n tasks ∧ (0 < n → (Joined s ↔ k = length n tasks)) := by
  have h1 := steps_total h
  rw [total_start] at h1
  refine ⟨by omega, fun hn => ⟨fun hj => ?_, fun hk => ?_⟩⟩
  · have hne : s.workers ≠ [] := by
      intro e
      have := steps_length h
      rw [e] at this
      simp [start] at this
      omega
    rw [(joined_total (inv_steps (inv_start n tasks) h) hne hj).1] at h1
    omega
  · rcases C98_no_deadlock n tasks k s h with hj | ⟨s', h2⟩
    · exact hj
    · have := step_total h2
      omega

/-- C98, termination: there is no endless execution. -/
theorem C98_no_endless (f : Nat → State α) (h0 : f 0 = start n tasks) : ¬ ∀ i, Step (f i) (f (i + 1)) := by
  intro h
  have h1 : ∀ i, Steps i (f 0) (f i) := by
    intro i
    induction i with
    | zero => exact .refl _
    | succ i ih => exact .step ih (h i)
  have h2 := h1 (length n tasks + 1)
  rw [h0] at h2
  have := (C98_terminates n tasks _ _ h2).1
  omega

/-- C98, mutual exclusion: a worker inserts only while it holds the mutex, so never two at a time. -/
theorem C98_exclusive (k : Nat) (s : State α) (h : Steps k (start n tasks) s) (w v : Nat) (a b : α) (r r' : List (Act α))
    (hw : s.workers[w]? = some (.busy (.insert a :: r))) (hv : s.workers[v]? = some (.busy (.insert b :: r'))) : w = v := by
  have hi := inv_steps (inv_start n tasks) h
  have key : ∀ (w : Nat) a r, s.workers[w]? = some (.busy (.insert a :: r)) → s.holder = some w := by
    intro w a r hw
    rcases hi.busy _ _ hw with ⟨h1, _⟩ | ⟨_, t, h2⟩
    · exact h1
    · have := (cons_task h2).1
      cases this
  have := (key w a r hw).symm.trans (key v b r' hv)
  simpa using this

/-- C98: when the pool is joined, the insertions done are an interleaving of the insertions of the images: each is done
once, and those of an image in their order. -/
theorem C98_complete (hn : 0 < n) (k : Nat) (s : State α) (h : Steps k (start n tasks) s) (hj : Joined s) :
    Interleave tasks s.log := by
  obtain ⟨d, h1, h2⟩ := steps_left h
  have hne : s.workers ≠ [] := by
    intro e
    have := steps_length h
    rw [e] at this
    simp [start] at this
    omega
  have h3 := h2 [] (by
    rw [(joined_total (inv_steps (inv_start n tasks) h) hne hj).2]
    exact .nil fun t ht => (List.mem_replicate.1 ht).2)
  rw [remaining_start, List.append_nil] at h3
  rw [h1]
  exact replicate_interleave h3

/-- C98: one worker inserts everything in the order of the images. -/
theorem C98_one_worker (k : Nat) (s : State α) (h : Steps k (start 1 tasks) s) (hj : Joined s) : s.log = tasks.flatten := by
  have key : s.log ++ ((s.workers.map left).flatten ++ (s.queue ++ s.pending).flatten) = tasks.flatten := by
    clear hj
    generalize hs : start 1 tasks = s0 at h
    have hl := steps_length h
    induction h with
    | refl => subst hs; simp [start, left]
    | @step k s0 s s' h1 h2 ih =>
      have ih := ih hs (steps_length h1)
      have hlen : s.workers.length = 1 := by rw [steps_length h1, ← hs]; simp [start]
      obtain ⟨x, hx⟩ := List.length_eq_one_iff.1 hlen
      have hget : ∀ {w : Nat} {y : Worker α}, s.workers[w]? = some y → w = 0 ∧ y = x := by
        intro w y hw
        rw [hx] at hw
        cases w with
        | zero => exact ⟨rfl, by simpa using hw.symm⟩
        | succ w => simp at hw
      cases h2 with
      | post hp => rw [hp] at ih; simpa using ih
      | take hw hq =>
        obtain ⟨rfl, rfl⟩ := hget hw
        rw [hx, hq] at ih
        simpa [hx, left, inserts_task] using ih
      | lock hw hh =>
        obtain ⟨rfl, rfl⟩ := hget hw
        rw [hx] at ih
        simpa [hx, left, inserts] using ih
      | insert hw =>
        obtain ⟨rfl, rfl⟩ := hget hw
        rw [hx] at ih
        simpa [hx, left, inserts] using ih
      | unlock hw hh =>
        obtain ⟨rfl, rfl⟩ := hget hw
        rw [hx] at ih
        simpa [hx, left, inserts] using ih
      | finish hw =>
        obtain ⟨rfl, rfl⟩ := hget hw
        rw [hx] at ih
        simpa [hx, left, inserts] using ih
      | exit hw hp hq =>
        obtain ⟨rfl, rfl⟩ := hget hw
        rw [hx] at ih
        simpa [hx, left, inserts] using ih
  have hne : s.workers ≠ [] := by
    intro e
    have := steps_length h
    rw [e] at this
    simp [start] at this
  have e := (joined_total (inv_steps (inv_start 1 tasks) h) hne hj).2
  have e' : (remaining s).flatten = [] := by rw [e]; simp
  rw [remaining, List.flatten_append] at e'
  rw [e', List.append_nil] at key
  exact key

/-- C98, needed: a pool without workers is joined as soon as everything is posted, and inserts nothing. -/
theorem C98_no_worker : (∃ k s, Steps k (start 0 tasks) s ∧ Joined s) ∧
    ∀ k s, Steps k (start 0 tasks) s → s.log = [] := by
  have hw : ∀ k s, Steps k (start 0 tasks) s → s.workers = [] := by
    intro k s h
    have := steps_length h
    simpa [start] using this
  constructor
  · have h : ∀ (ps : List (List α)) (q : List (List α)),
        ∃ k s, Steps k (⟨ps, q, [], none, []⟩ : State α) s ∧ Joined s := by
      intro ps
      induction ps with
      | nil => exact fun q => ⟨0, _, .refl _, rfl, (fun w hw => nomatch hw)⟩
      | cons t ps ih =>
        intro q
        obtain ⟨k, s, h1, h2⟩ := ih (q ++ [t])
        exact ⟨_, s, steps_trans (.step (.refl _) (.post rfl)) h1, h2⟩
    exact h tasks []
  · intro k s h
    generalize hs : start 0 tasks = s0 at h
    induction h with
    | refl => subst hs; rfl
    | @step k s0 s s' h1 h2 ih =>
      have hn := hw k s (hs ▸ h1)
      have ih := ih hs
      cases h2 <;> first
        | exact ih
        | (next h => rw [hn] at h; simp at h)
        | (next h _ => rw [hn] at h; simp at h)
        | (next h _ _ => rw [hn] at h; simp at h)

/-- All images are posted, and taken by as many workers. -/
private theorem distribute (m : Nat) : ∀ (ts : List (List α)) (ws : List (Worker α)),
    ∃ k, Steps k (⟨ts, [], ws ++ List.replicate (ts.length + m) Worker.idle, none, []⟩ : State α)
      ⟨[], [], ws ++ (ts.map (fun t => .busy (taskActs t)) ++ List.replicate m .idle), none, []⟩ := by
  intro ts
  induction ts with
  | nil => intro ws; exact ⟨0, by simpa using .refl _⟩
  | cons t ts ih =>
    intro ws
    obtain ⟨k, h⟩ := ih (ws ++ [.busy (taskActs t)])
    have e : ws ++ List.replicate ((t :: ts).length + m) Worker.idle = ws ++ Worker.idle :: List.replicate (ts.length + m) Worker.idle := by
      rw [List.length_cons, show ts.length + 1 + m = (ts.length + m) + 1 by omega, List.replicate_succ]
    have e2 : (ws ++ Worker.idle :: List.replicate (ts.length + m) Worker.idle).set ws.length (.busy (taskActs t)) =
        ws ++ [.busy (taskActs t)] ++ List.replicate (ts.length + m) Worker.idle := by
      rw [List.set_append_right _ _ (Nat.le_refl _)]
      simp
    have h1 : Step (⟨t :: ts, [], ws ++ Worker.idle :: List.replicate (ts.length + m) Worker.idle, none, []⟩ : State α)
      ⟨ts, [t], ws ++ Worker.idle :: List.replicate (ts.length + m) Worker.idle, none, []⟩ := .post rfl
    have h2 : Step (⟨ts, [t], ws ++ Worker.idle :: List.replicate (ts.length + m) Worker.idle, none, []⟩ : State α)
        ⟨ts, [], ws ++ [.busy (taskActs t)] ++ List.replicate (ts.length + m) Worker.idle, none, []⟩ := by
      rw [← e2]
      exact .take (s := ⟨ts, [t], ws ++ Worker.idle :: List.replicate (ts.length + m) Worker.idle, none, []⟩)
        (w := ws.length) (by simp) rfl
    refine ⟨_, steps_trans (.step (.step (.refl _) (by rw [e]; exact h1)) h2) (k := k) ?_⟩
    simpa using h

/-- Workers that have taken all images can insert in any order. -/
private theorem insertAll {ts : List (List α)} {l : List α} (h : Interleave ts l) : ∀ (ws : List (Worker α)) (log : List α),
    ∃ k, ∃ ts' : List (List α), Steps k (⟨[], [], ts.map (fun t => .busy (taskActs t)) ++ ws, none, log⟩ : State α)
      ⟨[], [], ts'.map (fun t => .busy (taskActs t)) ++ ws, none, log ++ l⟩ ∧ ∀ t ∈ ts', t = [] := by
  induction h with
  | nil h => exact fun ws log => ⟨0, _, by simpa using .refl _, h⟩
  | @step ts i a t l hi _ ih =>
    intro ws log
    obtain ⟨k, ts', h1, h2⟩ := ih ws (log ++ [a])
    obtain ⟨hlt, _⟩ := List.getElem?_eq_some_iff.1 hi
    have hget : (ts.map (fun t => Worker.busy (taskActs t)) ++ ws)[i]? =
        some (.busy (.lock :: .insert a :: .unlock :: taskActs t)) := by
      rw [List.getElem?_append_left (by simpa using hlt), List.getElem?_map, hi]
      rfl
    have s1 : Step (⟨[], [], ts.map (fun t => .busy (taskActs t)) ++ ws, none, log⟩ : State α) _ := .lock hget rfl
    have s2 : Step _ _ := .insert (s := ⟨[], [], (ts.map (fun t => Worker.busy (taskActs t)) ++ ws).set i
      (.busy (.insert a :: .unlock :: taskActs t)), some i, log⟩) (set_get hget)
    have s3 : Step _ _ := .unlock (s := ⟨[], [], ((ts.map (fun t => Worker.busy (taskActs t)) ++ ws).set i
      (.busy (.insert a :: .unlock :: taskActs t))).set i (.busy (.unlock :: taskActs t)), some i, log ++ [a]⟩)
      (set_get (set_get hget)) rfl
    refine ⟨_, ts', steps_trans (.step (.step (.step (.refl _) s1) s2) s3) (k := k) ?_, h2⟩
    simp only [List.set_set]
    rw [List.set_append_left _ _ (by simpa using hlt), ← List.map_set (f := fun t => Worker.busy (taskActs t))]
    simpa using h1

/-- C98, conversely: with as many workers as images, every interleaving is the outcome of some execution. -/
theorem C98_every_order (hn : tasks.length ≤ n) (h0 : 0 < n) (l : List α) (hl : Interleave tasks l) :
    ∃ k s, Steps k (start n tasks) s ∧ Joined s ∧ s.log = l := by
  obtain ⟨m, rfl⟩ := Nat.exists_eq_add_of_le hn
  obtain ⟨k1, h1⟩ := distribute m tasks []
  obtain ⟨k2, ts', h2, h3⟩ := insertAll hl (List.replicate m .idle) []
  have h4 : Steps (k1 + k2) (start (tasks.length + m) tasks) _ := steps_trans h1 h2
  have hlen := steps_length h4
  obtain ⟨k3, s, h5, h6⟩ := finishes (inv_steps (inv_start _ _) h4) (by
    intro e
    rw [e] at hlen
    simp [start] at hlen
    omega)
  refine ⟨_, s, steps_trans h4 h5, h6, ?_⟩
  have hc := (C98_complete _ _ h0 _ s (steps_trans h4 h5) h6).perm.length_eq
  have hl' := hl.perm.length_eq
  obtain ⟨d, e, _⟩ := steps_left h5
  rw [e] at hc ⊢
  simp only [List.nil_append, List.length_append] at hc
  have : d = [] := List.length_eq_zero_iff.1 (by omega)
  simp [this]

/-- What the detection in the images of all cameras can insert: a pool per camera, one after the other
(McCalib.cpp:140-170). `ns` gives the numbers of workers. -/
def Detects (ns : List Nat) (ts : List (List (List α))) (l : List α) : Prop :=
  ∃ ls : List (List α), l = ls.flatten ∧ ns.length = ts.length ∧ ls.length = ts.length ∧ ∀ (c n : Nat) tasks l', ns[c]? = some n → ts[c]? = some tasks →
    ls[c]? = some l' → ∃ k s, Steps k (start n tasks) s ∧ Joined s ∧ s.log = l'

/-- C98: the detections in all cameras come in one of the orders for which the rest of the model is proved, whatever the
number of workers; and in every of these orders, if there are enough workers. -/
theorem C98_schedules (ts : List (List (List α))) (l : List α) :
    (∀ ns, (∀ n ∈ ns, 0 < n) → Detects ns ts l → Schedule ts l) ∧
    (Schedule ts l → Detects (ts.map fun tasks => tasks.length + 1) ts l) := by
  constructor
  · rintro ns hns ⟨ls, rfl, h1, h2, h3⟩
    refine ⟨ls, List.forall₂_iff_get.2 ⟨h2.symm, fun c hc hc' => ?_⟩, rfl⟩
    have e : ns[c]? = some ns[c] := List.getElem?_eq_getElem (by omega)
    obtain ⟨k, s, h4, h5, h6⟩ := h3 c _ _ _ e (List.getElem?_eq_getElem hc) (List.getElem?_eq_getElem hc')
    have := C98_complete _ _ (hns _ (List.mem_of_getElem? e)) k s h4 h5
    rw [h6] at this
    exact this
  · rintro ⟨ls, h1, rfl⟩
    have h1 := List.forall₂_iff_get.1 h1
    refine ⟨ls, rfl, by simp, h1.1.symm, fun c n tasks l' e1 e2 e3 => ?_⟩
    obtain ⟨k2, rfl⟩ := List.getElem?_eq_some_iff.1 e2
    obtain ⟨k3, rfl⟩ := List.getElem?_eq_some_iff.1 e3
    rw [List.getElem?_map, e2] at e1
    simp only [Option.map_some, Option.some.injEq] at e1
    subst e1
    exact C98_every_order _ _ (by omega) (by omega) _ (h1.2 c k2 k3)

/-- C98, a case: two workers, three images with two, none and one boards; the board of the third image may come between
those of the first, and the detection then has 9 + 9 + 2 steps. -/
theorem C98_example : ∃ s, Steps 20 (start 2 [[1, 2], [], [3]]) s ∧ Joined s ∧ s.log = [1, 3, 2] := by
  refine ⟨⟨[], [], [.done, .done], none, [1, 3, 2]⟩, ?_, ⟨rfl, by simp⟩, rfl⟩
  have h := Steps.refl (start 2 [[1, 2], [], [3]])
  have h := h.step (.post rfl)
  have h := h.step (.take (w := 0) rfl rfl)
  have h := h.step (.post rfl)
  have h := h.step (.lock (w := 0) rfl rfl)
  have h := h.step (.take (w := 1) rfl rfl)
  have h := h.step (.insert (w := 0) rfl)
  have h := h.step (.finish (w := 1) rfl)
  have h := h.step (.post rfl)
  have h := h.step (.take (w := 1) rfl rfl)
  have h := h.step (.unlock (w := 0) rfl rfl)
  have h := h.step (.lock (w := 1) rfl rfl)
  have h := h.step (.insert (w := 1) rfl)
  have h := h.step (.unlock (w := 1) rfl rfl)
  have h := h.step (.lock (w := 0) rfl rfl)
  have h := h.step (.insert (w := 0) rfl)
  have h := h.step (.unlock (w := 0) rfl rfl)
  have h := h.step (.finish (w := 1) rfl)
  have h := h.step (.exit (w := 1) rfl rfl rfl)
  have h := h.step (.finish (w := 0) rfl)
  exact h.step (.exit (w := 0) rfl rfl rfl)

end Verif.Props.Pool
