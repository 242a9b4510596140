/-!
Outcome of a modelled C++ function call.  Undefined behaviour, an uncaught exception (or a failed
`assert`/`std::map::at`) and non-termination are distinct outcomes, so that no theorem about the
result of a call can hide them.
-/
namespace Verif

/-- What a call can do: return a value, run into undefined behaviour (out of range access, null
dereference, read of an uninitialised variable), throw an exception / abort, or never return. -/
inductive Outcome (α : Type _) where
  | ok (a : α)
  | ub
  | throw
  | diverge
  deriving DecidableEq, Repr

namespace Outcome

/-- Sequencing: any outcome other than `ok` stops the computation. -/
def bind {α β} : Outcome α → (α → Outcome β) → Outcome β
  | ok a, f => f a
  | ub, _ => ub
  | throw, _ => throw
  | diverge, _ => diverge

instance : Monad Outcome where
  pure := ok
  bind := bind

@[simp] theorem bind_ok {α β} (a : α) (f : α → Outcome β) : (Outcome.ok a >>= f) = f a := rfl
@[simp] theorem bind_ub {α β} (f : α → Outcome β) : (Outcome.ub >>= f) = Outcome.ub := rfl
@[simp] theorem bind_throw {α β} (f : α → Outcome β) : (Outcome.throw >>= f) = Outcome.throw := rfl
@[simp] theorem bind_diverge {α β} (f : α → Outcome β) : (Outcome.diverge >>= f) = Outcome.diverge := rfl
@[simp] theorem pure_eq {α} (a : α) : (pure a : Outcome α) = Outcome.ok a := rfl

theorem bind_eq_ok {α β} {x : Outcome α} {f : α → Outcome β} {b : β} :
    (x >>= f) = .ok b ↔ ∃ a, x = .ok a ∧ f a = .ok b := by
  cases x <;> simp

/-- Sequential `for` loop whose body may fail: `for (x : l) s = f(s, x)`. -/
def foldlM {σ α} (f : σ → α → Outcome σ) : σ → List α → Outcome σ
  | s, [] => .ok s
  | s, x :: xs => (f s x).bind fun s' => foldlM f s' xs

@[simp] theorem foldlM_nil {σ α} (f : σ → α → Outcome σ) (s : σ) : foldlM f s [] = .ok s := rfl
@[simp] theorem foldlM_cons {σ α} (f : σ → α → Outcome σ) (s : σ) (x : α) (xs : List α) :
    foldlM f s (x :: xs) = (f s x >>= fun s' => foldlM f s' xs) := rfl

theorem foldlM_append {σ α} (f : σ → α → Outcome σ) (s : σ) (xs ys : List α) :
    foldlM f s (xs ++ ys) = (foldlM f s xs >>= fun s' => foldlM f s' ys) := by
  induction xs generalizing s with
  | nil => rfl
  | cons x xs ih =>
    simp only [List.cons_append, foldlM_cons]
    cases h : f s x <;> simp [ih]

/-- Invariant rule for successful loops. -/
theorem foldlM_inv {σ α} {f : σ → α → Outcome σ} (I : σ → Prop) :
    ∀ {l : List α} {s t : σ}, (∀ s t x, x ∈ l → I s → f s x = .ok t → I t) →
      I s → foldlM f s l = .ok t → I t
  | [], s, t, _, hs, h => by simp at h; exact h ▸ hs
  | x :: xs, s, t, hstep, hs, h => by
    rw [foldlM_cons, bind_eq_ok] at h
    obtain ⟨u, hu, h⟩ := h
    exact foldlM_inv I (l := xs) (fun s t y hy => hstep s t y (List.mem_cons_of_mem _ hy))
      (hstep s u x List.mem_cons_self hs hu) h

/-- A pure loop is a loop. -/
theorem foldlM_ok {σ α} (f : σ → α → σ) (s : σ) (l : List α) :
    foldlM (fun s x => .ok (f s x)) s l = .ok (l.foldl f s) := by
  induction l generalizing s with
  | nil => rfl
  | cons x xs ih => simp [ih]

/-- A vector element access `v[i]` without bound check: undefined behaviour out of range. -/
def idx {α} (l : List α) (i : Nat) : Outcome α :=
  match l[i]? with
  | some a => .ok a
  | none => .ub

/-- A checked access `v.at(i)`: throws out of range. -/
def at! {α} (l : List α) (i : Nat) : Outcome α :=
  match l[i]? with
  | some a => .ok a
  | none => .throw

/-- A read through a smart pointer or an empty optional is undefined behaviour. -/
def deref {α} : Option α → Outcome α
  | some a => .ok a
  | none => .ub

@[simp] theorem deref_some {α} (a : α) : deref (some a) = .ok a := rfl
@[simp] theorem deref_none {α} : deref (none : Option α) = .ub := rfl
theorem idx_of_getElem? {α} {l : List α} {i : Nat} {a : α} (h : l[i]? = some a) :
    idx l i = .ok a := by simp [idx, h]
theorem idx_ok_iff {α} {l : List α} {i : Nat} {a : α} : idx l i = .ok a ↔ l[i]? = some a := by
  unfold idx; cases h : l[i]? <;> simp
theorem idx_ub_iff {α} {l : List α} {i : Nat} : idx l i = .ub ↔ l.length ≤ i := by
  unfold idx
  cases h : l[i]? with
  | none => simpa using h
  | some a =>
    simp only [reduceCtorEq, false_iff]
    intro hle
    rw [List.getElem?_eq_none hle] at h
    cases h

end Outcome
end Verif
