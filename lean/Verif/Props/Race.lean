import Verif.Model.Race

/-!
C69: data races between detection tasks.
-/
namespace Verif.Props.Race
open Verif.Race

private theorem before_lt {tr : Trace} {i j : Nat} (h : Before tr i j) : i < j := by
  induction h with
  | order h _ _ => exact h
  | sync h _ _ => exact h
  | trans _ _ h1 h2 => omega

private theorem holder_append (m : Mutex) (tr : Trace) (e : Nat × Act) :
    holder m (tr ++ [e]) = if e.2 = .lock m then some e.1 else if e.2 = .unlock m then none else holder m tr := by
  simp [holder]

private theorem holder_succ (m : Mutex) (tr : Trace) (i : Nat) (e : Nat × Act) (h : tr[i]? = some e) :
    holder m (tr.take (i + 1)) =
      if e.2 = .lock m then some e.1 else if e.2 = .unlock m then none else holder m (tr.take i) := by
  obtain ⟨hi, rfl⟩ := List.getElem?_eq_some_iff.1 h
  rw [List.take_succ_eq_append_getElem hi, holder_append]

/-- Between a moment when `w` holds a mutex and one when it does not, it releases it, and nobody holds it then. -/
private theorem release {prog : Nat → List Act} {tr : Trace} (hv : Valid prog tr) {m : Mutex} {w i : Nat} :
    ∀ j, i ≤ j → j ≤ tr.length → holder m (tr.take i) = some w → holder m (tr.take j) ≠ some w →
      ∃ k, i ≤ k ∧ k < j ∧ tr[k]? = some (w, .unlock m) ∧ holder m (tr.take (k + 1)) = none := by
  intro j hij
  induction hij with
  | refl => intro _ h1 h2; exact absurd h1 h2
  | @step j hij ih =>
    have hij : i ≤ j := hij
    intro hj h1 h2
    by_cases hh : holder m (tr.take j) = some w
    · have he : tr[j]? = some tr[j] := List.getElem?_eq_getElem (by omega)
      rw [holder_succ m tr j _ he] at h2
      by_cases hl : tr[j].2 = .lock m
      · have : tr[j]? = some (tr[j].1, .lock m) := by rw [he, ← hl]
        rw [hv.lock j _ m this] at hh
        cases hh
      · rw [if_neg hl] at h2
        by_cases hu : tr[j].2 = .unlock m
        · have e1 : tr[j]? = some (tr[j].1, .unlock m) := by rw [he, ← hu]
          have e2 := hv.unlock j _ m e1
          rw [hh] at e2
          simp only [Option.some.injEq] at e2
          refine ⟨j, hij, by omega, by rw [e2]; exact e1, ?_⟩
          rw [holder_succ m tr j _ he, if_neg hl, if_pos hu]
        · rw [if_neg hu] at h2
          exact absurd hh h2
    · obtain ⟨k, a, b, c⟩ := ih (by omega) h1 hh
      exact ⟨k, a, by omega, c⟩

/-- Between a moment when `w` does not hold a mutex and one when it does, it takes it. -/
private theorem acquire {tr : Trace} {m : Mutex} {w i : Nat} :
    ∀ j, i ≤ j → j ≤ tr.length → holder m (tr.take i) ≠ some w → holder m (tr.take j) = some w →
      ∃ k, i ≤ k ∧ k < j ∧ tr[k]? = some (w, .lock m) := by
  intro j hij
  induction hij with
  | refl => intro _ h1 h2; exact absurd h2 h1
  | @step j hij ih =>
    have hij : i ≤ j := hij
    intro hj h1 h2
    by_cases hh : holder m (tr.take j) = some w
    · obtain ⟨k, a, b, c⟩ := ih (by omega) h1 hh
      exact ⟨k, a, by omega, c⟩
    · have he : tr[j]? = some tr[j] := List.getElem?_eq_getElem (by omega)
      rw [holder_succ m tr j _ he] at h2
      by_cases hl : tr[j].2 = .lock m
      · rw [if_pos hl] at h2
        simp only [Option.some.injEq] at h2
        exact ⟨j, hij, by omega, by rw [he, ← hl, ← h2]⟩
      · rw [if_neg hl] at h2
        by_cases hu : tr[j].2 = .unlock m
        · rw [if_pos hu] at h2; cases h2
        · rw [if_neg hu] at h2; exact absurd h2 hh

/-- Whether a worker that has done these actions is between taking and releasing a mutex. -/
def inside (m : Mutex) (l : List Act) : Bool :=
  l.foldl (fun b a => if a = .lock m then true else if a = .unlock m then false else b) false

private theorem inside_append (m : Mutex) (l : List Act) (a : Act) :
    inside m (l ++ [a]) = if a = .lock m then true else if a = .unlock m then false else inside m l := by
  simp [inside]

/-- The actions of a worker before moment `i`. -/
private def past (tr : Trace) (w i : Nat) : List Act := ((tr.take i).filter fun e => e.1 = w).map (·.2)

private theorem past_succ (tr : Trace) (w i : Nat) (e : Nat × Act) (h : tr[i]? = some e) :
    past tr w (i + 1) = if e.1 = w then past tr w i ++ [e.2] else past tr w i := by
  obtain ⟨hi, rfl⟩ := List.getElem?_eq_some_iff.1 h
  unfold past
  rw [List.take_succ_eq_append_getElem hi, List.filter_append, List.map_append]
  by_cases hw : tr[i].1 = w <;> simp [hw]

/-- A worker is between taking and releasing a mutex iff it holds it. -/
private theorem inside_iff {prog : Nat → List Act} {tr : Trace} (hv : Valid prog tr) (m : Mutex) (w : Nat) :
    ∀ i ≤ tr.length, inside m (past tr w i) = true ↔ holder m (tr.take i) = some w := by
  intro i
  induction i with
  | zero => intro _; simp [past, inside, holder]
  | succ i ih =>
    intro hi
    have he : tr[i]? = some tr[i] := List.getElem?_eq_getElem (by omega)
    have ih := ih (by omega)
    rw [past_succ tr w i _ he, holder_succ m tr i _ he]
    by_cases hl : tr[i].2 = .lock m
    · have e1 : tr[i]? = some (tr[i].1, .lock m) := by rw [he, ← hl]
      have e2 := hv.lock i _ m e1
      rw [if_pos hl]
      by_cases hw : tr[i].1 = w
      · rw [if_pos hw, inside_append, if_pos hl, hw]; simp
      · rw [if_neg hw, ih, e2]; simp [hw]
    · rw [if_neg hl]
      by_cases hu : tr[i].2 = .unlock m
      · have e1 : tr[i]? = some (tr[i].1, .unlock m) := by rw [he, ← hu]
        have e2 := hv.unlock i _ m e1
        rw [if_pos hu]
        by_cases hw : tr[i].1 = w
        · rw [if_pos hw, inside_append, if_neg hl, if_pos hu]; simp
        · rw [if_neg hw, ih, e2]; simp [hw]
      · rw [if_neg hu]
        by_cases hw : tr[i].1 = w
        · rw [if_pos hw, inside_append, if_neg hl, if_neg hu]; exact ih
        · rw [if_neg hw]; exact ih

/-- A program that accesses the tables only between taking and releasing the mutex for insertions. -/
def Guarded (l : List Act) : Prop :=
  ∀ p a, (a = Act.read .tables ∨ a = Act.write .tables) → p ++ [a] <+: l → inside .insert p = true

/-- Two accesses to the tables by different workers are ordered. -/
private theorem ordered {prog : Nat → List Act} {tr : Trace} (hv : Valid prog tr) (hg : ∀ w, Guarded (prog w))
    {i j w w' : Nat} {a b : Act} (hij : i < j) (hi : tr[i]? = some (w, a)) (hj : tr[j]? = some (w', b)) (hw : w ≠ w')
    (ha : a = .read .tables ∨ a = .write .tables) (hb : b = .read .tables ∨ b = .write .tables) : Before tr i j := by
  have hlen : j < tr.length := (List.getElem?_eq_some_iff.1 hj).1
  have holds : ∀ {i w a}, tr[i]? = some (w, a) → (a = .read .tables ∨ a = .write .tables) →
      holder .insert (tr.take i) = some w := by
    intro i w a hi ha
    have hilt : i < tr.length := (List.getElem?_eq_some_iff.1 hi).1
    rw [← inside_iff hv .insert w i (by omega)]
    refine hg w (past tr w i) a ha ?_
    have h1 : past tr w (i + 1) = past tr w i ++ [a] := by
      rw [past_succ tr w i _ hi, if_pos rfl]
    rw [← h1]
    refine List.IsPrefix.trans ?_ (hv.program w)
    exact ((List.take_prefix _ _).filter _).map _
  have h1 := holds hi ha
  have h2 := holds hj hb
  obtain ⟨k, k1, k2, k3, k4⟩ := release hv j (by omega) (by omega) h1 (by rw [h2]; simp [Ne.symm hw])
  obtain ⟨l, l1, l2, l3⟩ := acquire (i := k + 1) j (by omega) (by omega) (by rw [k4]; simp) h2
  have hik : i ≠ k := by
    rintro rfl
    rw [hi] at k3
    simp only [Option.some.injEq, Prod.mk.injEq, true_and] at k3
    rcases ha with rfl | rfl <;> cases k3
  exact .trans (.order (by omega) hi k3) (.trans (.sync (by omega) k3 l3) (.order l2 l3 hj))

private theorem inside_foldl (m : Mutex) (b : Bool) (l : List Act) (h : ∀ a ∈ l, a ≠ .lock m ∧ a ≠ .unlock m) :
    l.foldl (fun b a => if a = .lock m then true else if a = .unlock m then false else b) b = b := by
  induction l generalizing b with
  | nil => rfl
  | cons a l ih =>
    obtain ⟨h1, h2⟩ := h a (by simp)
    rw [List.foldl_cons, if_neg h1, if_neg h2]
    exact ih b fun x hx => h x (by simp [hx])

/-- Appending a guarded program that ends outside. -/
private theorem guarded_append {l l' : List Act} (h : Guarded l) (hout : inside .insert l = false)
    (h' : Guarded l') : Guarded (l ++ l') := by
  intro p a ha hp
  have split : p ++ [a] <+: l ∨ ∃ q, p ++ [a] = l ++ q ∧ q <+: l' := by
    rcases List.prefix_or_prefix_of_prefix hp (List.prefix_append l l') with h1 | ⟨q, h1⟩
    · exact .inl h1
    · refine .inr ⟨q, h1.symm, ?_⟩
      rw [← h1] at hp
      exact (List.prefix_append_right_inj l).1 hp
  rcases split with h1 | ⟨q, h1, h2⟩
  · exact h p a ha h1
  · rcases List.eq_nil_or_concat q with rfl | ⟨q', x, rfl⟩
    · rw [List.append_nil] at h1
      exact h p a ha (by rw [h1]; exact List.prefix_refl l)
    · rw [List.concat_eq_append, ← List.append_assoc] at h1
      obtain ⟨h3, h4⟩ := List.append_inj' h1 rfl
      simp only [List.cons.injEq, and_true] at h4
      subst h4
      rw [List.concat_eq_append] at h2
      have h5 := h' q' a ha h2
      rw [h3]
      unfold inside at h5 hout ⊢
      rw [List.foldl_append, hout]
      exact h5

private theorem inside_append_false {l l' : List Act} (h : inside .insert l = false) (h' : inside .insert l' = false) :
    inside .insert (l ++ l') = false := by
  unfold inside at *
  rw [List.foldl_append, h, h']

private theorem guarded_nil : Guarded [] := by
  intro p a _ h
  have := List.prefix_nil.1 h
  simp at this

private theorem guarded_flatMap {α : Type} (f : α → List Act) (h : ∀ x, Guarded (f x) ∧ inside .insert (f x) = false) :
    ∀ l : List α, Guarded (l.flatMap f) ∧ inside .insert (l.flatMap f) = false
  | [] => ⟨guarded_nil, rfl⟩
  | x :: l => by
    obtain ⟨h1, h2⟩ := guarded_flatMap f h l
    rw [List.flatMap_cons]
    exact ⟨guarded_append (h x).1 (h x).2 h1, inside_append_false (h x).2 h2⟩

private theorem guarded_few (l : List Act) (h : ∀ a ∈ l, a ≠ .read .tables ∧ a ≠ .write .tables) : Guarded l := by
  intro p a ha hp
  have := hp.subset (List.mem_append_right p List.mem_cons_self)
  obtain ⟨h1, h2⟩ := h a this
  rcases ha with rfl | rfl
  · exact absurd rfl h1
  · exact absurd rfl h2

private theorem guarded_board (b : Bool) : Guarded (boardActs b) ∧ inside .insert (boardActs b) = false := by
  refine ⟨?_, by cases b <;> decide⟩
  cases b
  · exact guarded_few _ (by decide)
  · intro p a ha hp
    have hle : p.length < 5 := by
      have := hp.length_le
      simp [boardActs] at this
      omega
    have hpe : p ++ [a] = (boardActs true).take (p.length + 1) := by
      have := List.prefix_iff_eq_take.1 hp
      simpa using this
    have e1 : p = (boardActs true).take p.length := by
      have := congrArg (List.take p.length) hpe
      rw [List.take_left, List.take_take] at this
      rw [this]
      simp
    have e2 : (boardActs true)[p.length]? = some a := by
      have := congrArg (fun l => l[p.length]?) hpe
      simp only [List.getElem?_concat_length] at this
      rw [this, List.getElem?_take_of_lt (by omega)]
    generalize p.length = n at e1 e2 hle
    subst e1
    rcases (by omega : n = 0 ∨ n = 1 ∨ n = 2 ∨ n = 3 ∨ n = 4) with rfl | rfl | rfl | rfl | rfl
    · simp [boardActs] at e2; subst e2; simp at ha
    · simp [boardActs] at e2; subst e2; simp at ha
    · decide
    · decide
    · simp [boardActs] at e2; subst e2; simp at ha

private theorem guarded_worker (images : List (Option (List Bool))) : Guarded (workerActs images) := by
  refine (guarded_flatMap taskActs (fun im => ?_) images).1
  have himg : Guarded (imageActs im) ∧ inside .insert (imageActs im) = false := by
    cases im with
    | none => exact ⟨guarded_nil, rfl⟩
    | some bs =>
      obtain ⟨h1, h2⟩ := guarded_flatMap boardActs guarded_board bs
      exact ⟨guarded_append (l := [.write .params]) (guarded_few _ (by decide)) (by decide) h1,
        inside_append_false (l := [.write .params]) (by decide) h2⟩
  exact ⟨guarded_append (guarded_few _ (by decide)) (by decide) himg.1, inside_append_false (by decide) himg.2⟩

/-- C69: in every execution, by any number of workers, of any detection tasks, the accesses to the tables of
observations are free of data races. -/
theorem C69_tables (images : Nat → List (Option (List Bool))) (tr : Trace)
    (hv : Valid (fun w => workerActs (images w)) tr) : ¬ RaceOn .tables tr := by
  rintro ⟨i, j, w, w', a, b, hij, hi, hj, hw, hc, hn, -⟩
  refine hn (ordered hv (fun w => guarded_worker (images w)) hij hi hj hw ?_ ?_)
  · rcases hc with ⟨rfl, -⟩ | ⟨rfl, -⟩ <;> simp
  · rcases hc with ⟨-, h⟩ | ⟨-, rfl⟩
    · exact h.symm
    · simp

/-- C69: but two workers that each take a readable image as their first task have an execution with a data race on the
parameters of the detector, whatever the boards in the images and the later tasks. -/
theorem C69_params (images : Nat → List (Option (List Bool))) (w w' : Nat) (hw : w ≠ w') (bs bs' : List Bool)
    (rest rest' : List (Option (List Bool))) (h : images w = some bs :: rest) (h' : images w' = some bs' :: rest') :
    ∃ tr, Valid (fun w => workerActs (images w)) tr ∧ RaceOn .params tr := by
  refine ⟨[(w, .lock .queue), (w, .unlock .queue), (w', .lock .queue), (w', .unlock .queue), (w, .write .params),
    (w', .write .params)], ⟨?_, ?_, ?_⟩, ?_⟩
  · intro v
    by_cases h1 : w = v
    · subst h1
      simp only [h, workerActs, List.flatMap_cons, taskActs, imageActs]
      simp [Ne.symm hw]
    · by_cases h2 : w' = v
      · subst h2
        simp only [h', workerActs, List.flatMap_cons, taskActs, imageActs]
        simp [hw]
      · simp [h1, h2]
  · intro i v m hi
    rcases (by
      have := (List.getElem?_eq_some_iff.1 hi).1
      simp at this
      omega : i = 0 ∨ i = 1 ∨ i = 2 ∨ i = 3 ∨ i = 4 ∨ i = 5) with rfl | rfl | rfl | rfl | rfl | rfl <;> simp at hi
    · rfl
    · obtain ⟨rfl, rfl⟩ := hi
      simp [holder]
  · intro i v m hi
    rcases (by
      have := (List.getElem?_eq_some_iff.1 hi).1
      simp at this
      omega : i = 0 ∨ i = 1 ∨ i = 2 ∨ i = 3 ∨ i = 4 ∨ i = 5) with rfl | rfl | rfl | rfl | rfl | rfl <;> simp at hi
    · obtain ⟨rfl, rfl⟩ := hi
      simp [holder]
    · obtain ⟨rfl, rfl⟩ := hi
      simp [holder]
  · refine ⟨4, 5, w, w', _, _, by omega, rfl, rfl, hw, .inl ⟨rfl, .inl rfl⟩, ?_, fun hh => absurd (before_lt hh) (by omega)⟩
    intro hh
    have key : ∀ {i j : Nat}, Before [(w, .lock .queue), (w, .unlock .queue), (w', .lock .queue), (w', .unlock .queue),
        (w, .write .params), (w', .write .params)] i j → i ≠ 4 := by
      intro i j hb
      induction hb with
      | @order i j v a b hlt h1 h2 =>
        rintro rfl
        have : j < 6 := by simpa using (List.getElem?_eq_some_iff.1 h2).1
        obtain rfl : j = 5 := by omega
        simp at h1 h2
        exact hw (h1.1.trans h2.1.symm)
      | @sync i j v v' m hlt h1 h2 =>
        rintro rfl
        simp at h1
      | trans _ _ ih _ => exact ih
    exact key hh rfl

/-- C69: the write of line 296 is the only cause: executions of the same tasks without it have no data race. -/
theorem C69_only (prog : Nat → List Act) (hp : ∀ w, Act.write .params ∉ prog w) (hg : ∀ w, Guarded (prog w)) (tr : Trace)
    (hv : Valid prog tr) (x : Loc) : ¬ RaceOn x tr := by
  rintro ⟨i, j, w, w', a, b, hij, hi, hj, hw, hc, hn, -⟩
  have nowrite : ∀ {i v : Nat}, tr[i]? ≠ some (v, Act.write .params) := by
    intro i v h
    refine hp v ((hv.program v).subset ?_)
    rw [List.mem_map]
    exact ⟨_, List.mem_filter.2 ⟨List.mem_of_getElem? h, by simp⟩, rfl⟩
  cases x with
  | params =>
    rcases hc with ⟨rfl, -⟩ | ⟨-, rfl⟩
    · exact nowrite hi
    · exact nowrite hj
  | tables =>
    refine hn (ordered hv hg hij hi hj hw ?_ ?_)
    · rcases hc with ⟨rfl, -⟩ | ⟨rfl, -⟩ <;> simp
    · rcases hc with ⟨-, h⟩ | ⟨-, rfl⟩
      · exact h.symm
      · simp

/-- The tasks without the write meet the hypotheses of `C69_only`. -/
theorem C69_only_tasks (images : List (List Bool)) :
    Act.write .params ∉ images.flatMap (fun bs => bs.flatMap boardActs) ∧
      Guarded (images.flatMap fun bs => bs.flatMap boardActs) := by
  refine ⟨?_, (guarded_flatMap _ (fun bs => guarded_flatMap boardActs guarded_board bs) images).1⟩
  simp only [List.mem_flatMap, not_exists, not_and]
  intro bs _ b _
  cases b <;> decide

end Verif.Props.Race
