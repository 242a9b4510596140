import Mathlib.Data.List.Basic
import Mathlib.Tactic.Common

/-!
`std::map` as an association list kept strictly sorted by key.  Keys are `int` (modelled by `Nat`)
or `std::pair<int,int>` ordered lexicographically.
-/
set_option linter.unusedSectionVars false
namespace Verif

/-- The ordering `std::less` of a key type. -/
class Key (K : Type) where
  lt : K → K → Bool
  irrefl : ∀ a, lt a a = false
  trans : ∀ {a b c}, lt a b = true → lt b c = true → lt a c = true
  tri : ∀ a b, a ≠ b → lt a b = true ∨ lt b a = true

instance : Key Nat where
  lt a b := decide (a < b)
  irrefl a := by simp
  trans := by intro a b c; simp; omega
  tri a b h := by simp; omega

instance {A B : Type} [DecidableEq A] [Key A] [Key B] : Key (A × B) where
  lt a b := Key.lt a.1 b.1 || (decide (a.1 = b.1) && Key.lt a.2 b.2)
  irrefl a := by simp [Key.irrefl]
  trans := by
    rintro ⟨a1, a2⟩ ⟨b1, b2⟩ ⟨c1, c2⟩
    simp only [Bool.or_eq_true, Bool.and_eq_true, decide_eq_true_eq]
    rintro (h | ⟨rfl, h⟩) (h' | ⟨rfl, h'⟩)
    · exact Or.inl (Key.trans h h')
    · exact Or.inl h
    · exact Or.inl h'
    · exact Or.inr ⟨rfl, Key.trans h h'⟩
  tri := by
    rintro ⟨a1, a2⟩ ⟨b1, b2⟩ h
    simp only [Bool.or_eq_true, Bool.and_eq_true, decide_eq_true_eq]
    by_cases h1 : a1 = b1
    · subst h1
      have h2 : a2 ≠ b2 := fun e => h (by rw [e])
      rcases Key.tri a2 b2 h2 with h | h
      · exact Or.inl (Or.inr ⟨rfl, h⟩)
      · exact Or.inr (Or.inr ⟨rfl, h⟩)
    · rcases Key.tri a1 b1 h1 with h | h
      · exact Or.inl (Or.inl h)
      · exact Or.inr (Or.inl h)

/-- `std::map<K, V>` (entries in key order). -/
abbrev OMap (K V : Type) := List (K × V)

namespace OMap
variable {K V : Type} [DecidableEq K] [Key K]

/-- `m.find(k)` / read of `m[k]` when present. -/
def get? : OMap K V → K → Option V
  | [], _ => none
  | (k', v) :: m, k => if k = k' then some v else get? m k

/-- `m[k] = v`: overwrite or insert in key order. -/
def set : OMap K V → K → V → OMap K V
  | [], k, v => [(k, v)]
  | (k', v') :: m, k, v =>
    if Key.lt k k' then (k, v) :: (k', v') :: m
    else if k = k' then (k, v) :: m
    else (k', v') :: set m k v

/-- `f(m[k])` in place, where a missing entry is first default-constructed to `d`. -/
def modify (m : OMap K V) (k : K) (d : V) (f : V → V) : OMap K V :=
  set m k (f ((get? m k).getD d))

/-- The keys in order. -/
def keys (m : OMap K V) : List K := m.map (·.1)

/-- The entries are strictly sorted by key (what `std::map` guarantees). -/
def Sorted (m : OMap K V) : Prop := m.Pairwise fun a b => Key.lt a.1 b.1 = true

@[simp] theorem get?_nil (k : K) : get? ([] : OMap K V) k = none := rfl

theorem lt_ne {a b : K} (h : Key.lt a b = true) : a ≠ b := by
  rintro rfl; rw [Key.irrefl] at h; cases h

theorem lt_asymm {a b : K} (h : Key.lt a b = true) : Key.lt b a = false := by
  cases h' : Key.lt b a with
  | false => rfl
  | true => have := Key.trans h h'; rw [Key.irrefl] at this; cases this

theorem get?_set (m : OMap K V) (k : K) (v : V) (q : K) (hs : Sorted m) :
    get? (set m k v) q = if q = k then some v else get? m q := by
  induction m with
  | nil => simp [set, get?]
  | cons p m ih =>
    obtain ⟨k', v'⟩ := p
    unfold Sorted at hs
    rw [List.pairwise_cons] at hs
    have ih' := ih hs.2
    simp only [set]
    split
    · by_cases h : q = k <;> simp [get?, h]
    · split
      · rename_i h1 h2; subst h2
        by_cases h : q = k <;> simp [get?, h]
      · rename_i h1 h2
        simp only [get?, ih']
        by_cases h : q = k
        · subst h; simp [h2]
        · simp [h]

theorem get?_set_self (m : OMap K V) (k : K) (v : V) (hs : Sorted m) :
    get? (set m k v) k = some v := by rw [get?_set m k v k hs]; simp

theorem mem_set {m : OMap K V} {k : K} {v : V} {x : K × V} (h : x ∈ set m k v) :
    x = (k, v) ∨ x ∈ m := by
  induction m with
  | nil => simp [set] at h; exact Or.inl h
  | cons p m ih =>
    obtain ⟨k', v'⟩ := p
    simp only [set] at h
    split at h
    · rcases List.mem_cons.1 h with h | h
      · exact Or.inl h
      · exact Or.inr h
    · split at h
      · rcases List.mem_cons.1 h with h | h
        · exact Or.inl h
        · exact Or.inr (List.mem_cons_of_mem _ h)
      · rcases List.mem_cons.1 h with h | h
        · exact Or.inr (by rw [h]; exact List.mem_cons_self)
        · rcases ih h with h | h
          · exact Or.inl h
          · exact Or.inr (List.mem_cons_of_mem _ h)

theorem sorted_set (m : OMap K V) (k : K) (v : V) (hs : Sorted m) : Sorted (set m k v) := by
  induction m with
  | nil => simp [set, Sorted]
  | cons p m ih =>
    obtain ⟨k', v'⟩ := p
    have hs0 := hs
    unfold Sorted at hs
    rw [List.pairwise_cons] at hs
    simp only [set]
    split
    · rename_i h
      unfold Sorted
      rw [List.pairwise_cons]
      refine ⟨?_, hs0⟩
      intro x hx
      rcases List.mem_cons.1 hx with rfl | hx
      · exact h
      · exact Key.trans h (hs.1 x hx)
    · split
      · rename_i h1 h2
        subst h2
        exact List.pairwise_cons.2 ⟨hs.1, hs.2⟩
      · rename_i h1 h2
        refine List.pairwise_cons.2 ⟨?_, ih hs.2⟩
        intro x hx
        rcases mem_set hx with rfl | hx
        · rcases Key.tri k k' h2 with h | h
          · exact absurd h h1
          · exact h
        · exact hs.1 x hx

theorem get?_eq_some {m : OMap K V} (hs : Sorted m) {k : K} {v : V} :
    get? m k = some v ↔ (k, v) ∈ m := by
  induction m with
  | nil => simp
  | cons p m ih =>
    obtain ⟨k', v'⟩ := p
    unfold Sorted at hs
    rw [List.pairwise_cons] at hs
    simp only [get?, List.mem_cons, Prod.mk.injEq]
    split
    · rename_i h; subst h
      simp only [Option.some.injEq, true_and]
      constructor
      · intro h; exact Or.inl h.symm
      · rintro (h | h)
        · exact h.symm
        · have := hs.1 _ h; exact absurd rfl (lt_ne this)
    · rename_i h
      rw [ih hs.2]
      simp [h]

theorem get?_isSome {m : OMap K V} {k : K} : (get? m k).isSome = true ↔ k ∈ keys m := by
  induction m with
  | nil => simp [keys]
  | cons p m ih =>
    obtain ⟨k', v'⟩ := p
    simp only [get?, keys, List.map_cons, List.mem_cons]
    split
    · rename_i h; simp [h]
    · rename_i h; rw [ih]; simp [h, keys]

theorem get?_eq_none {m : OMap K V} {k : K} : get? m k = none ↔ k ∉ keys m := by
  rw [← get?_isSome]; cases get? m k <;> simp

theorem mem_keys {m : OMap K V} {k : K} : k ∈ keys m ↔ ∃ v, get? m k = some v := by
  rw [← get?_isSome, Option.isSome_iff_exists]

theorem mem_keys_set {m : OMap K V} (hs : Sorted m) {k q : K} {v : V} :
    q ∈ keys (set m k v) ↔ q = k ∨ q ∈ keys m := by
  rw [← get?_isSome, get?_set m k v q hs, ← get?_isSome]
  by_cases h : q = k <;> simp [h]

theorem keys_sorted {m : OMap K V} (hs : Sorted m) :
    (keys m).Pairwise fun a b => Key.lt a b = true := by
  unfold keys; rw [List.pairwise_map]; exact hs

theorem keys_nodup {m : OMap K V} (hs : Sorted m) : (keys m).Nodup :=
  (keys_sorted hs).imp fun h => lt_ne h

/-- Two sorted key lists with the same members are equal. -/
theorem sorted_keys_ext {l l' : List K} (h : l.Pairwise fun a b => Key.lt a b = true)
    (h' : l'.Pairwise fun a b => Key.lt a b = true) (he : ∀ k, k ∈ l ↔ k ∈ l') : l = l' := by
  induction l generalizing l' with
  | nil =>
    cases l' with
    | nil => rfl
    | cons a l' => exact absurd ((he a).2 List.mem_cons_self) (by simp)
  | cons a l ih =>
    cases l' with
    | nil => exact absurd ((he a).1 List.mem_cons_self) (by simp)
    | cons b l' =>
      rw [List.pairwise_cons] at h h'
      have hab : a = b := by
        by_contra hne
        have h1 : a ∈ l' := by
          rcases List.mem_cons.1 ((he a).1 List.mem_cons_self) with e | e
          · exact absurd e hne
          · exact e
        have h2 : b ∈ l := by
          rcases List.mem_cons.1 ((he b).2 List.mem_cons_self) with e | e
          · exact absurd e.symm hne
          · exact e
        have := Key.trans (h.1 b h2) (h'.1 a h1)
        rw [Key.irrefl] at this; cases this
      subst hab
      congr 1
      refine ih h.2 h'.2 ?_
      intro k
      have hk := he k
      simp only [List.mem_cons] at hk
      by_cases hka : k = a
      · subst hka
        constructor
        · intro hm; exact absurd rfl (lt_ne (h.1 k hm))
        · intro hm; exact absurd rfl (lt_ne (h'.1 k hm))
      · simpa [hka] using hk

/-- Extensionality: a sorted map is determined by its lookups. -/
theorem ext {m m' : OMap K V} (h : Sorted m) (h' : Sorted m')
    (he : ∀ k, get? m k = get? m' k) : m = m' := by
  induction m generalizing m' with
  | nil =>
    cases m' with
    | nil => rfl
    | cons p m' =>
      obtain ⟨k, v⟩ := p
      have := he k
      simp [get?] at this
  | cons p m ih =>
    obtain ⟨k, v⟩ := p
    cases m' with
    | nil => have := he k; simp [get?] at this
    | cons p' m' =>
      obtain ⟨k', v'⟩ := p'
      have h0 := h
      have h0' := h'
      unfold Sorted at h h'
      rw [List.pairwise_cons] at h h'
      have hkk : k = k' := by
        by_contra hne
        have e1 : (k, v) ∈ ((k', v') :: m') := by
          rw [← get?_eq_some h0', ← he]; simp [get?]
        have e2 : (k', v') ∈ ((k, v) :: m) := by
          rw [← get?_eq_some h0, he]; simp [get?]
        have h1 : (k, v) ∈ m' := by
          rcases List.mem_cons.1 e1 with e | e
          · exact absurd (congrArg Prod.fst e) hne
          · exact e
        have h2 : (k', v') ∈ m := by
          rcases List.mem_cons.1 e2 with e | e
          · exact absurd (congrArg Prod.fst e).symm hne
          · exact e
        have := Key.trans (h.1 _ h2) (h'.1 _ h1)
        simp only [Key.irrefl] at this; cases this
      subst hkk
      have hv : v = v' := by have := he k; simpa [get?] using this
      subst hv
      congr 1
      refine ih h.2 h'.2 ?_
      intro q
      by_cases hq : q = k
      · subst hq
        have e1 : get? m q = none := by
          rw [get?_eq_none]; intro hm
          obtain ⟨⟨a, b⟩, hab, rfl⟩ := List.mem_map.1 hm
          exact absurd rfl (lt_ne (h.1 (a, b) hab))
        have e2 : get? m' q = none := by
          rw [get?_eq_none]; intro hm
          obtain ⟨⟨a, b⟩, hab, rfl⟩ := List.mem_map.1 hm
          exact absurd rfl (lt_ne (h'.1 (a, b) hab))
        rw [e1, e2]
      · have := he q; simpa [get?, hq] using this

end OMap
end Verif
