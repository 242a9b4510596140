import Verif.Model.Average
import Mathlib.Tactic.Ring
import Mathlib.Tactic.Linarith
import Mathlib.Tactic.FieldSimp

set_option linter.unusedSectionVars false

namespace Verif.Lemmas.Average
open Verif Verif.Average

variable {K : Type} [Field K] [LinearOrder K]

/-- Both middle elements of the sorted list. -/
theorem medianO_eq (v : List K) (hv : v ≠ []) :
    ∃ a b, (v.insertionSort (· ≤ ·))[(v.length - 1) / 2]? = some a ∧
      (v.insertionSort (· ≤ ·))[v.length / 2]? = some b ∧
      medianO v = .ok (if v.length % 2 = 0 then (b + a) / 2 else b) ∧ (v.length % 2 = 1 → a = b) := by
  have hlen : 0 < v.length := List.length_pos_iff.2 hv
  have hs : (v.insertionSort (· ≤ ·)).length = v.length := List.length_insertionSort _ _
  have h1 : (v.length - 1) / 2 < (v.insertionSort (· ≤ ·)).length := by omega
  have h2 : v.length / 2 < (v.insertionSort (· ≤ ·)).length := by omega
  refine ⟨_, _, List.getElem?_eq_getElem h1, List.getElem?_eq_getElem h2, ?_, ?_⟩
  · unfold medianO
    rw [if_neg (by omega)]
    dsimp only
    split
    · rw [Outcome.idx_of_getElem? (List.getElem?_eq_getElem h2), Outcome.bind_ok]
      have h3 : v.length / 2 - 1 = (v.length - 1) / 2 := by omega
      rw [h3, Outcome.idx_of_getElem? (List.getElem?_eq_getElem h1), Outcome.bind_ok]
      rfl
    · rw [Outcome.idx_of_getElem? (List.getElem?_eq_getElem h2)]
  · intro h
    have h3 : (v.length - 1) / 2 = v.length / 2 := by omega
    simp only [h3]

theorem medianO_ok (v : List K) : medianO v = .ok (median v) := by
  have : ∃ x, medianO v = .ok x := by
    by_cases hv : v = []
    · subst hv; exact ⟨0, rfl⟩
    · obtain ⟨a, b, _, _, h, _⟩ := medianO_eq v hv
      exact ⟨_, h⟩
  obtain ⟨x, hx⟩ := this
  unfold median
  rw [hx]

section
variable [IsStrictOrderedRing K]

/-- The median is the midpoint of the two middle elements. -/
theorem median_mid (v : List K) (hv : v ≠ []) :
    ∃ a b, (v.insertionSort (· ≤ ·))[(v.length - 1) / 2]? = some a ∧
      (v.insertionSort (· ≤ ·))[v.length / 2]? = some b ∧ median v = (a + b) / 2 := by
  obtain ⟨a, b, h1, h2, h3, h4⟩ := medianO_eq v hv
  refine ⟨a, b, h1, h2, ?_⟩
  unfold median
  rw [h3]
  dsimp only
  split
  · rw [add_comm]
  · rw [h4 (by omega)]; ring

theorem sorted_le {s : List K} (hs : s.Pairwise (· ≤ ·)) {i j : Nat} {a b : K} (hi : s[i]? = some a)
    (hj : s[j]? = some b) (hij : i ≤ j) : a ≤ b := by
  obtain ⟨hi', rfl⟩ := List.getElem?_eq_some_iff.1 hi
  obtain ⟨hj', rfl⟩ := List.getElem?_eq_some_iff.1 hj
  rcases Nat.lt_or_eq_of_le hij with h | rfl
  · exact List.pairwise_iff_getElem.1 hs i j hi' hj' h
  · exact le_refl _

theorem sort_pairwise (v : List K) : (v.insertionSort (· ≤ ·)).Pairwise (· ≤ ·) :=
  List.pairwise_insertionSort _ v

theorem median_perm {v w : List K} (h : v.Perm w) : median v = median w := by
  have hs : v.insertionSort (· ≤ ·) = w.insertionSort (· ≤ ·) :=
    List.Perm.eq_of_pairwise' (sort_pairwise v) (sort_pairwise w)
      (((List.perm_insertionSort _ v).trans h).trans (List.perm_insertionSort _ w).symm)
  unfold median medianO
  rw [hs, h.length_eq]

theorem median_between (v : List K) (lo hi : K) (hv : v ≠ []) (h : ∀ x ∈ v, lo ≤ x ∧ x ≤ hi) :
    lo ≤ median v ∧ median v ≤ hi := by
  obtain ⟨a, b, h1, h2, h3⟩ := median_mid v hv
  have ha := h a ((List.mem_insertionSort _).1 (List.mem_of_getElem? h1))
  have hb := h b ((List.mem_insertionSort _).1 (List.mem_of_getElem? h2))
  rw [h3]
  constructor <;> linarith [ha.1, ha.2, hb.1, hb.2]

theorem filter_take_length {p : K → Bool} {s : List K} {n : Nat} (hn : n ≤ s.length)
    (h : ∀ (i : Nat) a, i < n → s[i]? = some a → p a = true) : n ≤ (s.filter p).length := by
  have h1 : (s.take n).filter p = s.take n := by
    rw [List.filter_eq_self]
    intro a ha
    obtain ⟨i, hi, rfl⟩ := List.mem_take_iff_getElem.1 ha
    exact h i _ (by omega) (List.getElem?_eq_getElem (by omega))
  have h2 : ((s.take n).filter p).length ≤ (s.filter p).length :=
    ((List.take_sublist n s).filter p).length_le
  rw [h1, List.length_take] at h2
  omega

theorem median_half_le (v : List K) :
    v.length ≤ 2 * (v.filter fun x => decide (x ≤ median v)).length := by
  by_cases hv : v = []
  · subst hv; simp
  obtain ⟨a, b, h1, h2, h3⟩ := median_mid v hv
  have hab : a ≤ b := sorted_le (sort_pairwise v) h1 h2 (by omega)
  have hp := ((List.perm_insertionSort (· ≤ ·) v).filter fun x => decide (x ≤ median v)).length_eq
  rw [← hp]
  have hlen : 0 < v.length := List.length_pos_iff.2 hv
  have hs : (v.insertionSort (· ≤ ·)).length = v.length := List.length_insertionSort _ _
  have := filter_take_length (p := fun x => decide (x ≤ median v)) (s := v.insertionSort (· ≤ ·))
    (n := (v.length - 1) / 2 + 1) (by omega) (by
      intro i c hi hc
      have : c ≤ a := sorted_le (sort_pairwise v) hc h1 (by omega)
      simp only [decide_eq_true_eq, h3]
      linarith)
  omega

theorem filter_drop_length {p : K → Bool} {s : List K} {n : Nat}
    (h : ∀ (i : Nat) a, n ≤ i → s[i]? = some a → p a = true) : s.length - n ≤ (s.filter p).length := by
  have h1 : (s.drop n).filter p = s.drop n := by
    rw [List.filter_eq_self]
    intro a ha
    obtain ⟨i, hi, rfl⟩ := List.mem_drop_iff_getElem.1 ha
    exact h (n + i) _ (by omega) (List.getElem?_eq_getElem (by omega))
  have h2 : ((s.drop n).filter p).length ≤ (s.filter p).length :=
    ((List.drop_sublist n s).filter p).length_le
  rw [h1, List.length_drop] at h2
  omega

theorem median_half_ge (v : List K) :
    v.length ≤ 2 * (v.filter fun x => decide (median v ≤ x)).length := by
  by_cases hv : v = []
  · subst hv; simp
  obtain ⟨a, b, h1, h2, h3⟩ := median_mid v hv
  have hab : a ≤ b := sorted_le (sort_pairwise v) h1 h2 (by omega)
  have hp := ((List.perm_insertionSort (· ≤ ·) v).filter fun x => decide (median v ≤ x)).length_eq
  rw [← hp]
  have hs : (v.insertionSort (· ≤ ·)).length = v.length := List.length_insertionSort _ _
  have := filter_drop_length (p := fun x => decide (median v ≤ x)) (s := v.insertionSort (· ≤ ·))
    (n := v.length / 2) (by
      intro i c hi hc
      have : b ≤ c := sorted_le (sort_pairwise v) h2 hc hi
      simp only [decide_eq_true_eq, h3]
      linarith)
  omega

/-- Applying an increasing affine map. -/
theorem median_map (v : List K) (hv : v ≠ []) (f : K → K) (hf : StrictMono f)
    (hmid : ∀ a b, f ((a + b) / 2) = (f a + f b) / 2) : median (v.map f) = f (median v) := by
  obtain ⟨a, b, h1, h2, h3⟩ := median_mid v hv
  obtain ⟨a', b', h1', h2', h3'⟩ := median_mid (v.map f) (by simpa using hv)
  have hs : (v.map f).insertionSort (· ≤ ·) = (v.insertionSort (· ≤ ·)).map f :=
    (List.map_insertionSort _ _ f v fun a _ b _ => hf.le_iff_le.symm).symm
  rw [hs, List.length_map, List.getElem?_map] at h1' h2'
  rw [h1] at h1'
  rw [h2] at h2'
  simp only [Option.map_some, Option.some.injEq] at h1' h2'
  rw [h3', h3, hmid, h1', h2']

/-- Reversing the order of the values mirrors the median. -/
theorem median_neg (v : List K) : median (v.map fun x => -x) = -median v := by
  by_cases hv : v = []
  · subst hv; simp [median, medianO]
  obtain ⟨a, b, h1, h2, h3⟩ := median_mid v hv
  obtain ⟨a', b', h1', h2', h3'⟩ := median_mid (v.map fun x => -x) (by simpa using hv)
  have hs : (v.map fun x => -x).insertionSort (· ≤ ·) =
      ((v.insertionSort (· ≤ ·)).map fun x => -x).reverse := by
    apply List.Perm.eq_of_pairwise' (sort_pairwise _)
    · rw [List.pairwise_reverse, List.pairwise_map]
      exact (sort_pairwise v).imp fun h => neg_le_neg h
    · exact (List.perm_insertionSort _ _).trans
        (((List.perm_insertionSort _ v).map _).symm.trans (List.reverse_perm _).symm)
  have hlen : 0 < v.length := List.length_pos_iff.2 hv
  have hsl : (v.insertionSort (· ≤ ·)).length = v.length := List.length_insertionSort _ _
  rw [hs, List.length_map] at h1' h2'
  rw [List.getElem?_reverse (by rw [List.length_map]; omega), List.length_map, hsl,
    List.getElem?_map] at h1' h2'
  have e1 : v.length - 1 - (v.length - 1) / 2 = v.length / 2 := by omega
  have e2 : v.length - 1 - v.length / 2 = (v.length - 1) / 2 := by omega
  rw [e1, h2] at h1'
  rw [e2, h1] at h2'
  simp only [Option.map_some, Option.some.injEq] at h1' h2'
  rw [h3', h3, ← h1', ← h2']
  ring

theorem median_const (v : List K) (x : K) (hv : v ≠ []) (h : ∀ y ∈ v, y = x) : median v = x := by
  obtain ⟨h1, h2⟩ := median_between v x x hv fun y hy => by rw [h y hy]; exact ⟨le_refl _, le_refl _⟩
  exact le_antisymm h2 h1

/-- Every element repeated `k` times in place. -/
theorem getElem?_flatMap_replicate (s : List K) (k i : Nat) (hk : 0 < k) :
    (s.flatMap fun x => List.replicate k x)[i]? = s[i / k]? := by
  induction s generalizing i with
  | nil => simp
  | cons x s ih =>
    rw [List.flatMap_cons]
    by_cases hi : i < k
    · rw [List.getElem?_append_left (by simpa using hi), Nat.div_eq_of_lt hi]
      simp [hi]
    · rw [List.getElem?_append_right (by simpa using Nat.le_of_not_lt hi), List.length_replicate, ih]
      have : i / k = (i - k) / k + 1 := by
        have h := Nat.sub_add_cancel (Nat.le_of_not_lt hi)
        conv_lhs => rw [← h]
        rw [Nat.add_div_right _ hk]
      rw [this, List.getElem?_cons_succ]

theorem flatMap_replicate_perm (v : List K) (k : Nat) :
    (v.flatMap fun x => List.replicate k x).Perm (List.replicate k v).flatten := by
  rw [List.perm_iff_count]
  intro a
  rw [List.count_flatten, List.map_replicate, List.sum_replicate, List.count_flatMap]
  induction v with
  | nil => simp
  | cons x v ih =>
    simp only [List.map_cons, List.sum_cons, Function.comp_def] at ih ⊢
    rw [ih, List.count_replicate, List.count_cons]
    by_cases h : x = a
    · subst h; simp; ring
    · simp [h]

theorem flatMap_replicate_length (v : List K) (k : Nat) :
    (v.flatMap fun x => List.replicate k x).length = k * v.length := by
  induction v with
  | nil => simp
  | cons x v ih => rw [List.flatMap_cons, List.length_append, ih]; simp; ring

theorem flatMap_replicate_sorted (s : List K) (k : Nat) (hs : s.Pairwise (· ≤ ·)) :
    (s.flatMap fun x => List.replicate k x).Pairwise (· ≤ ·) := by
  induction s with
  | nil => exact List.Pairwise.nil
  | cons x s ih =>
    rw [List.flatMap_cons, List.pairwise_append]
    rw [List.pairwise_cons] at hs
    refine ⟨?_, ih hs.2, ?_⟩
    · rw [List.pairwise_replicate]; exact Or.inr (le_refl _)
    · intro a ha b hb
      obtain ⟨c, hc, hb⟩ := List.mem_flatMap.1 hb
      rw [List.eq_of_mem_replicate ha, List.eq_of_mem_replicate hb]
      exact hs.1 c hc

theorem median_repeat (v : List K) (k : Nat) (hk : 0 < k) :
    median (List.replicate k v).flatten = median v := by
  by_cases hv : v = []
  · subst hv; simp
  have hlen : 0 < v.length := List.length_pos_iff.2 hv
  have hp : (List.replicate k v).flatten.Perm
      ((v.insertionSort (· ≤ ·)).flatMap fun x => List.replicate k x) :=
    (flatMap_replicate_perm v k).symm.trans
      ((List.perm_insertionSort (· ≤ ·) v).symm.flatMap_right _)
  rw [median_perm hp]
  have hl2 : ((v.insertionSort (· ≤ ·)).flatMap fun x => List.replicate k x).length = k * v.length := by
    rw [flatMap_replicate_length, List.length_insertionSort]
  have hne : ((v.insertionSort (· ≤ ·)).flatMap fun x => List.replicate k x) ≠ [] := by
    rw [← List.length_pos_iff, hl2]; exact Nat.mul_pos hk hlen
  obtain ⟨a, b, h1, h2, h3⟩ := median_mid v hv
  obtain ⟨a', b', h1', h2', h3'⟩ := median_mid _ hne
  rw [(flatMap_replicate_sorted _ k (sort_pairwise v)).insertionSort_eq, hl2,
    getElem?_flatMap_replicate _ _ _ hk] at h1' h2'
  have e1 : (k * v.length - 1) / 2 / k = (v.length - 1) / 2 := by
    rw [Nat.div_div_eq_div_mul, Nat.mul_comm 2 k, ← Nat.div_div_eq_div_mul]
    congr 1
    have : k * v.length - 1 = (k - 1) + k * (v.length - 1) := by
      obtain ⟨m, hm⟩ := Nat.exists_eq_add_of_lt hlen
      rw [hm]
      simp only [Nat.zero_add, Nat.add_sub_cancel, Nat.mul_add, Nat.mul_one]
      omega
    rw [this, Nat.add_mul_div_left _ _ hk, Nat.div_eq_of_lt (by omega), Nat.zero_add]
  have e2 : k * v.length / 2 / k = v.length / 2 := by
    rw [Nat.div_div_eq_div_mul, Nat.mul_comm 2 k, ← Nat.div_div_eq_div_mul,
      Nat.mul_div_cancel_left _ hk]
  rw [e1, h1] at h1'
  rw [e2, h2] at h2'
  simp only [Option.some.injEq] at h1' h2'
  rw [h3', h3, h1', h2']

end

theorem foldl_add_eq_sum (l : List K) : l.foldl (· + ·) 0 = l.sum := by
  rw [List.sum_eq_foldl]

end Verif.Lemmas.Average
