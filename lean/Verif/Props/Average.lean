import Verif.Lemmas.Average
import Verif.Props.Objects

/-!
C31 (median) and the averages built from it.  `median l` is the value returned by the C++ function
(`C31_total`), over any linearly ordered field.
-/
namespace Verif.Props.Average
open Verif Verif.Average Verif.Lemmas.Average
open Verif.Props.Objects (Averages)

variable {K : Type} [Field K] [LinearOrder K]

/-- C31: the call returns, reading only elements of the sorted list. -/
theorem C31_total (v : List K) : medianO v = .ok (median v) := medianO_ok v

/-- C31: 0 for the empty list. -/
theorem C31_empty : median ([] : List K) = 0 := rfl

variable [IsStrictOrderedRing K]

/-- C31: independent of the order. -/
theorem C31_order {v w : List K} (h : v.Perm w) : median v = median w := median_perm h

/-- C31: between any bounds of the values. -/
theorem C31_bounds (v : List K) (hv : v ≠ []) (lo hi : K) (h : ∀ x ∈ v, lo ≤ x ∧ x ≤ hi) :
    lo ≤ median v ∧ median v ≤ hi := median_between v lo hi hv h

/-- C31: at least half of the values are on either side. -/
theorem C31_half (v : List K) :
    v.length ≤ 2 * (v.filter fun x => decide (x ≤ median v)).length ∧
    v.length ≤ 2 * (v.filter fun x => decide (median v ≤ x)).length :=
  ⟨median_half_le v, median_half_ge v⟩

/-- C31: for an odd number of values it is one of them, for an even number the midpoint of two. -/
theorem C31_value (v : List K) (hv : v ≠ []) :
    (v.length % 2 = 1 → median v ∈ v) ∧ ∃ a ∈ v, ∃ b ∈ v, median v = (a + b) / 2 := by
  obtain ⟨a, b, h1, h2, h3, h4⟩ := medianO_eq v hv
  have ha := (List.mem_insertionSort _).1 (List.mem_of_getElem? h1)
  have hb := (List.mem_insertionSort _).1 (List.mem_of_getElem? h2)
  rw [C31_total, Outcome.ok.injEq] at h3
  refine ⟨fun ho => by rw [h3, if_neg (by omega)]; exact hb, a, ha, b, hb, ?_⟩
  obtain ⟨a', b', h1', h2', h3'⟩ := median_mid v hv
  rw [h1] at h1'; rw [h2] at h2'
  simp only [Option.some.injEq] at h1' h2'
  rw [h3', h1', h2']

/-- C31: commutes with shifts. -/
theorem C31_shift (v : List K) (hv : v ≠ []) (c : K) : median (v.map (· + c)) = median v + c :=
  median_map v hv (· + c) (fun a b h => by simpa using h) (fun a b => by ring)

/-- C31: commutes with positive scaling. -/
theorem C31_scale (v : List K) (c : K) (hc : 0 < c) : median (v.map (c * ·)) = c * median v := by
  by_cases hv : v = []
  · subst hv; simp [C31_empty]
  · exact median_map v hv (c * ·) (fun a b h => mul_lt_mul_of_pos_left h hc) (fun a b => by ring)

/-- C31: commutes with negation (hence with every scaling). -/
theorem C31_neg (v : List K) : median (v.map fun x => -x) = -median v := median_neg v

/-- C31: the common value of a constant list. -/
theorem C31_constant (v : List K) (x : K) (hv : v ≠ []) (h : ∀ y ∈ v, y = x) : median v = x :=
  median_const v x hv h

/-- C31: repeating the whole list changes nothing. -/
theorem C31_repeat (v : List K) (k : Nat) (hk : 0 < k) :
    median (List.replicate k v).flatten = median v := median_repeat v k hk

/-- C31: the median is monotone: raising values does not lower it. -/
theorem C31_monotone (v : List K) (f g : K → K) (hfg : ∀ x ∈ v, f x ≤ g x) :
    median (v.map f) ≤ median (v.map g) := by
  by_contra hlt
  rw [not_le] at hlt
  by_cases hv : v = []
  · subst hv; simp at hlt
  -- more than half of the values `g x` are below `median (map f)`, or enough values `f x` above
  obtain ⟨a, b, h1, h2, h3⟩ := median_mid (v.map f) (by simpa using hv)
  obtain ⟨a', b', h1', h2', h3'⟩ := median_mid (v.map g) (by simpa using hv)
  have key : ∀ (i : Nat) c c', ((v.map f).insertionSort (· ≤ ·))[i]? = some c →
      ((v.map g).insertionSort (· ≤ ·))[i]? = some c' → c ≤ c' := by
    intro i c c' hc hc'
    by_contra hcc
    rw [not_le] at hcc
    -- elements of sorted g up to i are ≤ c' < c; so at least i+1 values g x are < c
    have n1 : i + 1 ≤ ((v.map g).filter fun x => decide (x ≤ c')).length := by
      rw [← ((List.perm_insertionSort (· ≤ ·) (v.map g)).filter fun x => decide (x ≤ c')).length_eq]
      apply filter_take_length
      · have := (List.getElem?_eq_some_iff.1 hc').1; omega
      · intro j d hj hd
        exact decide_eq_true (sorted_le (sort_pairwise _) hd hc' (by omega))
    -- at most i values f x are < c
    have n2 : ((v.map f).filter fun x => decide (x < c)).length ≤ i := by
      rw [← ((List.perm_insertionSort (· ≤ ·) (v.map f)).filter fun x => decide (x < c)).length_eq]
      have hlen := (List.getElem?_eq_some_iff.1 hc).1
      have hge := filter_drop_length (p := fun x => decide (c ≤ x)) (n := i)
        (s := (v.map f).insertionSort (· ≤ ·)) (by
          intro j d hj hd
          exact decide_eq_true (sorted_le (sort_pairwise _) hc hd hj))
      have hsum := List.length_eq_length_filter_add (l := (v.map f).insertionSort (· ≤ ·))
        (fun x => decide (c ≤ x))
      have hneg : (((v.map f).insertionSort (· ≤ ·)).filter fun x => !decide (c ≤ x)) =
          ((v.map f).insertionSort (· ≤ ·)).filter fun x => decide (x < c) := by
        apply List.filter_congr
        intro x _
        simp [← not_le]
      rw [hneg] at hsum
      omega
    have n3 : ((v.map g).filter fun x => decide (x ≤ c')).length ≤
        ((v.map f).filter fun x => decide (x < c)).length := by
      rw [List.filter_map, List.filter_map, List.length_map, List.length_map]
      apply List.Sublist.length_le
      have : (v.filter ((fun x => decide (x ≤ c')) ∘ g)) =
          (v.filter ((fun x => decide (x < c)) ∘ f)).filter ((fun x => decide (x ≤ c')) ∘ g) := by
        rw [List.filter_filter]
        apply List.filter_congr
        intro x hx
        rw [Bool.eq_iff_iff]
        simp only [Function.comp_apply, Bool.and_eq_true, decide_eq_true_eq]
        exact ⟨fun h => ⟨h, lt_of_le_of_lt (hfg x hx) (lt_of_le_of_lt h hcc)⟩, fun h => h.1⟩
      rw [this]
      exact List.filter_sublist
    omega
  have e1 : (v.map f).length = (v.map g).length := by simp
  rw [← e1] at h1' h2'
  have ka := key _ _ _ h1 h1'
  have kb := key _ _ _ h2 h2'
  rw [h3, h3'] at hlt
  linarith

/-- The average of relative poses (`initInterTransform`) of equal poses is that pose, whenever the
conversions to six numbers and back are inverse to each other. -/
theorem interAverage_averages {G : Type} (toVec : G → Vec6 K) (ofVec : Vec6 K → G)
    (h : ∀ g, ofVec (toVec g) = g) : Averages (interAverage toVec ofVec) := by
  intro zs x hne hz
  unfold interAverage
  have : medianPose (zs.map toVec) = toVec x := by
    unfold medianPose
    have hm : ∀ f : Vec6 K → K, median ((zs.map toVec).map f) = f (toVec x) := by
      intro f
      apply C31_constant
      · simpa using hne
      · intro y hy
        simp only [List.map_map, List.mem_map, Function.comp_apply] at hy
        obtain ⟨z, hz', rfl⟩ := hy
        rw [hz z hz']
    simp only [hm]
  rw [this, h]

/-- The mean of equal numbers. -/
private theorem mean_const (l : List (Vec6 K)) (f : Vec6 K → K) (c : K) (hne : l ≠ [])
    (h : ∀ p ∈ l, f p = c) : (l.map f).foldl (· + ·) 0 / (l.length : K) = c := by
  have : l.map f = List.replicate l.length c := by
    rw [List.eq_replicate_iff]
    refine ⟨by simp, fun x hx => ?_⟩
    obtain ⟨p, hp, rfl⟩ := List.mem_map.1 hx
    exact h p hp
  have hl : (l.length : K) ≠ 0 := Nat.cast_ne_zero.2 (by simpa using hne)
  rw [this, foldl_add_eq_sum, List.sum_replicate, nsmul_eq_mul, mul_comm, mul_div_assoc, div_self hl,
    mul_one]

/-- The average of the poses of an object in a group (`computeObjectsPose`) of equal poses is that
pose. -/
theorem groupAverage_averages : Averages (groupAverageVec (K := K)) := by
  intro ps x hne h
  unfold groupAverageVec
  have hm : ∀ f : Vec6 K → K, median (ps.map f) = f x := by
    intro f
    apply C31_constant
    · simpa using hne
    · intro y hy
      obtain ⟨p, hp, rfl⟩ := List.mem_map.1 hy
      rw [h p hp]
  have ht : ∀ f : Vec6 K → K, (ps.map f).foldl (· + ·) 0 / (ps.length : K) = f x := fun f =>
    mean_const ps f (f x) hne fun p hp => by rw [h p hp]
  simp only [hm, ht]

/-- It is unchanged when the whole list is repeated. -/
theorem groupAverage_repeat (ps : List (Vec6 K)) (k : Nat) (hk : 0 < k) :
    groupAverageVec (List.replicate k ps).flatten = groupAverageVec ps := by
  unfold groupAverageVec
  have hmap : ∀ f : Vec6 K → K, (List.replicate k ps).flatten.map f =
      (List.replicate k (ps.map f)).flatten := by
    intro f; rw [List.map_flatten, List.map_replicate]
  have hk' : (k : K) ≠ 0 := Nat.cast_ne_zero.2 (by omega)
  have hsum : ∀ f : Vec6 K → K, ((List.replicate k ps).flatten.map f).foldl (· + ·) 0 /
      ((List.replicate k ps).flatten.length : K) = (ps.map f).foldl (· + ·) 0 / (ps.length : K) := by
    intro f
    rw [hmap, foldl_add_eq_sum, foldl_add_eq_sum, List.sum_flatten, List.map_replicate,
      List.sum_replicate, List.length_flatten, List.map_replicate, List.sum_replicate, nsmul_eq_mul,
      smul_eq_mul, Nat.cast_mul, mul_div_mul_left _ _ hk']
  simp only [hsum]
  simp only [hmap, C31_repeat _ k hk]

/-- Concrete values. -/
example : median [(5 : Rat), 1, 3] = 3 ∧ median [(4 : Rat), 1, 3, 2] = 5 / 2 := by decide +kernel

example : groupAverageVec [(⟨1, 2, 3, 4, 5, 6⟩ : Vec6 Rat), ⟨3, 2, 1, 0, 1, 2⟩, ⟨2, 9, 1, 2, 0, 1⟩] =
    ⟨2, 2, 1, 2, 2, 3⟩ := by decide +kernel

end Verif.Props.Average
