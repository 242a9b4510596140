import Verif.Props.Saddle
import Mathlib.Algebra.BigOperators.Group.List.Basic
import Mathlib.Algebra.Order.BigOperators.Group.List

/-! C49: the smoothing kernel, its count of positive weights and the matrices built from it. -/
namespace Verif.Props.SaddleKernel
open Verif Verif.Saddle Verif.Spec.Saddle Verif.Lemmas.Saddle Verif.Props.Saddle

/-- The weight of an offset: a cone of height and radius `w + 1`, cut off at 0. -/
noncomputable def weight (w : Nat) (o : Int × Int) : ℝ := max 0 ((w : ℝ) + 1 - Real.sqrt ((o.1 : ℝ) ^ 2 + (o.2 : ℝ) ^ 2))

/-- The sum of the weights of the window. -/
noncomputable def total (w : Nat) : ℝ := ((window w).map (weight w)).sum

theorem weight_cone (w : Nat) (o : Int × Int) : weight w o = max 0 (cone w o) := by
  unfold weight cone
  push_cast
  ring_nf

theorem cone_pos (w : Nat) (o : Int × Int) : 0 < cone w o ↔ Disk w o := by
  unfold cone Disk
  rw [sub_pos, Real.sqrt_lt' (by positivity), ← Int.cast_lt (R := ℝ)]
  push_cast
  ring_nf

theorem weight_pos (w : Nat) (o : Int × Int) : 0 < weight w o ↔ Disk w o := by
  rw [weight_cone, lt_max_iff, cone_pos]
  simp

theorem weight_nonneg (w : Nat) (o : Int × Int) : 0 ≤ weight w o := le_max_left _ _

theorem cone_fold (w : Nat) (l : List (Int × Int)) (ws : List ℝ) (g : Int) (s : ℝ) :
    l.foldl (coneStep w) (ws, g, s) =
      (ws ++ l.map (weight w), g + (l.countP fun o => Disk w o : Nat), s + (l.map (weight w)).sum) := by
  induction l generalizing ws g s with
  | nil => simp
  | cons o l ih =>
    rw [List.foldl_cons]
    by_cases h : Disk w o
    · have hc := (cone_pos w o).2 h
      have hw : weight w o = cone w o := by rw [weight_cone, max_eq_right hc.le]
      rw [show coneStep w (ws, g, s) o = (ws ++ [weight w o], g + 1, s + weight w o) by
        rw [hw]; exact if_pos hc, ih]
      simp only [List.append_assoc, List.singleton_append, List.map_cons, List.sum_cons, h, decide_true,
        List.countP_cons_of_pos, Prod.mk.injEq, true_and]
      constructor
      · push_cast; ring
      · ring
    · have hc : ¬ 0 < cone w o := fun hc => h ((cone_pos w o).1 hc)
      have hw : weight w o = 0 := by rw [weight_cone, max_eq_left (not_lt.1 hc)]
      rw [show coneStep w (ws, g, s) o = (ws ++ [weight w o], g, s + weight w o) by
        rw [hw]; exact if_neg hc, ih]
      simp only [List.append_assoc, List.singleton_append, List.map_cons, List.sum_cons, h, decide_false,
        Bool.false_eq_true, not_false_eq_true, List.countP_cons_of_neg, Prod.mk.injEq, true_and]
      ring

/-- The number of offsets with a positive weight. -/
def positive (w : Nat) : Nat := (window w).countP fun o => Disk w o

/-- C49: the kernel is the cone divided by its sum; the counter ends with its previous value plus the number
of positive weights. -/
theorem C49_kernel (w : Nat) (g : Int) :
    initKernel w g = ((window w).map fun o => weight w o / total w, g + positive w) := by
  unfold initKernel
  rw [cone_fold]
  simp only [List.nil_append, List.map_map, zero_add]
  rfl

theorem zero_mem (w : Nat) : ((0, 0) : Int × Int) ∈ window w := by
  rw [mem_window]
  simp

theorem total_pos (w : Nat) : 0 < total w := by
  unfold total
  have h : weight w (0, 0) ∈ (window w).map (weight w) := List.mem_map_of_mem (zero_mem w)
  have h0 : 0 < weight w (0, 0) := (weight_pos w _).2 (by unfold Disk; simp)
  refine lt_of_lt_of_le h0 (List.single_le_sum ?_ _ h)
  intro x hx
  obtain ⟨o, _, rfl⟩ := List.mem_map.1 hx
  exact weight_nonneg w o

/-- C49: the kernel sums to 1, its weights are not negative, and positive exactly strictly inside the circle
of radius `w + 1`. -/
theorem C49_normalised (w : Nat) (g : Int) :
    (initKernel w g).1.sum = 1 ∧ (initKernel w g).1.length = (window w).length ∧
    ∀ (i : Nat) (o : Int × Int), (window w)[i]? = some o → ∃ v, (initKernel w g).1[i]? = some v ∧ 0 ≤ v ∧
      (0 < v ↔ Disk w o) := by
  rw [C49_kernel]
  refine ⟨?_, by simp, fun i o h => ⟨weight w o / total w, by simp [h], ?_, ?_⟩⟩
  · simp only [div_eq_mul_inv]
    rw [List.sum_map_mul_right]
    exact mul_inv_cancel₀ (total_pos w).ne'
  · exact div_nonneg (weight_nonneg w o) (total_pos w).le
  · rw [div_pos_iff_of_pos_right (total_pos w), weight_pos]

/-- C49: every weight of the window is positive iff the half size is at most 2 (the code uses 5). -/
theorem C49_all_positive (w : Nat) : (∀ o ∈ window w, Disk w o) ↔ w ≤ 2 := by
  constructor
  · intro h
    have := h ((w : Int), (w : Int)) (mem_window.2 (by simp))
    unfold Disk at this
    simp only at this
    by_contra hw
    have h3 : (3 : Int) ≤ w := by omega
    nlinarith
  · intro hw o ho
    obtain ⟨⟨a, b⟩, c, d⟩ := mem_window.1 ho
    have ho1 : o.1 ^ 2 ≤ (w : Int) ^ 2 := by nlinarith
    have ho2 : o.2 ^ 2 ≤ (w : Int) ^ 2 := by nlinarith
    unfold Disk
    have : (w : Int) ≤ 2 := by exact_mod_cast hw
    have : (0 : Int) ≤ w := by omega
    nlinarith

/-! ### The matrix of the fit -/

/-- The mask of the positive weights. -/
def diskMask (w : Nat) : List Bool := (window w).map fun o => decide (Disk w o)

theorem taps_disk (w : Nat) : taps w (diskMask w) = (window w).filter fun o => decide (Disk w o) := by
  unfold taps diskMask
  generalize window w = l
  induction l with
  | nil => rfl
  | cons o l ih =>
    by_cases h : Disk w o
    · simpa [h] using ih
    · simpa [h] using ih

theorem length_taps_disk (w : Nat) : (taps w (diskMask w)).length = positive w := by
  rw [taps_disk, positive, List.countP_eq_length_filter]

theorem fit_loop (L : List ((Int × Int) × ℝ)) : ∀ st : FitState ℝ,
    st.a + (L.filter fun ow => 0 < ow.2).length ≤ st.A.length →
      Outcome.foldlM fitStep st L = .ok ⟨over st.A st.a ((L.filter fun ow => 0 < ow.2).map fun ow => row ow.1),
        st.a + (L.filter fun ow => 0 < ow.2).length, st.mask ++ L.map fun ow => decide (0 < ow.2)⟩ := by
  induction L with
  | nil => intro st _; simp [over_nil]
  | cons ow L ih =>
    intro st h
    rw [Outcome.foldlM_cons]
    by_cases hp : 0 < ow.2
    · simp only [hp, decide_true, List.filter_cons_of_pos, List.length_cons] at h
      have hlt : st.a < st.A.length := by omega
      have : fitStep st ow = .ok ⟨st.A.set st.a (row ow.1), st.a + 1, st.mask ++ [true]⟩ := by
        unfold fitStep fitOn write
        rw [if_pos hp, if_pos hlt]
        rfl
      rw [this, Outcome.bind_ok, ih _ (by simp only [List.length_set]; omega)]
      simp only [over_cons _ _ _ _ hlt, hp, decide_true, List.filter_cons_of_pos, List.map_cons, List.length_cons,
        List.append_assoc, List.singleton_append]
      congr 2
      omega
    · have : fitStep st ow = .ok ⟨st.A, st.a, st.mask ++ [false]⟩ := if_neg hp
      rw [this, Outcome.bind_ok, ih _ (by simpa [hp] using h)]
      simp [hp]

theorem fit_loop_ub (L : List ((Int × Int) × ℝ)) : ∀ st : FitState ℝ, st.a ≤ st.A.length →
    st.A.length < st.a + (L.filter fun ow => 0 < ow.2).length → Outcome.foldlM fitStep st L = .ub := by
  induction L with
  | nil => intro st h0 h; simp at h; omega
  | cons ow L ih =>
    intro st h0 h
    rw [Outcome.foldlM_cons]
    by_cases hp : 0 < ow.2
    · simp only [hp, decide_true, List.filter_cons_of_pos, List.length_cons] at h
      by_cases hlt : st.a < st.A.length
      · have : fitStep st ow = .ok ⟨st.A.set st.a (row ow.1), st.a + 1, st.mask ++ [true]⟩ := by
          unfold fitStep fitOn write
          rw [if_pos hp, if_pos hlt]
          rfl
        rw [this, Outcome.bind_ok]
        exact ih _ (by simp only [List.length_set]; omega) (by simp only [List.length_set]; omega)
      · have : fitStep st ow = .ub := by
          unfold fitStep fitOn write
          rw [if_pos hp, if_neg hlt]
          rfl
        rw [this]
        rfl
    · have : fitStep st ow = .ok ⟨st.A, st.a, st.mask ++ [false]⟩ := if_neg hp
      rw [this, Outcome.bind_ok]
      exact ih _ h0 (by simpa [hp] using h)

theorem zip_kernel (w : Nat) (l : List (Int × Int)) (t : ℝ) (ht : 0 < t) :
    ((l.zip (l.map fun o => weight w o / t)).filter fun ow => 0 < ow.2).map (fun ow => (row ow.1 : Fin 6 → ℝ)) =
      (l.filter fun o => decide (Disk w o)).map row ∧
    (l.zip (l.map fun o => weight w o / t)).map (fun ow => decide (0 < ow.2)) = l.map fun o => decide (Disk w o) := by
  induction l with
  | nil => simp
  | cons o l ih =>
    have hd : 0 < weight w o / t ↔ Disk w o := by rw [div_pos_iff_of_pos_right ht, weight_pos]
    by_cases h : Disk w o
    · simp only [List.map_cons, List.zip_cons_cons, hd, h, decide_true, List.filter_cons_of_pos, ih.1, ih.2]
      exact ⟨trivial, trivial⟩
    · simp only [List.map_cons, List.zip_cons_cons, hd, h, decide_false, ih.2, and_true, Bool.false_eq_true,
        not_false_eq_true, List.filter_cons_of_neg]
      exact ih.1

/-- The rows of `A`: one per offset of the mask. -/
noncomputable def rows (w : Nat) : List (Fin 6 → ℝ) := (taps w (diskMask w)).map row

/-- C49: what the fit is built from, for every value `g` the counter happened to have: with 0 the rows of the
positive offsets; with a larger value `g` more rows of uninitialised memory; with a negative value the rows are
written outside the matrix, or its size is negative and an exception is thrown. -/
theorem C49_fitting (inv : Matrix (Fin 6) (Fin 6) ℝ → Matrix (Fin 6) (Fin 6) ℝ) (garbage : Nat → Fin 6 → ℝ) (w : Nat)
    (g : Int) :
    initFitting inv garbage w (initKernel w g).2 (initKernel w g).1 =
      if g < -(positive w : Int) then .throw
      else if g < 0 then .ub
      else .ok (diskMask w, pseudo inv (rows w ++
        (List.range g.toNat).map fun i => garbage (positive w + i))) := by
  rw [C49_kernel]
  unfold initFitting
  simp only []
  by_cases h1 : g < -(positive w : Int)
  · rw [if_pos h1, if_pos (by omega)]
  rw [if_neg h1, if_neg (by omega)]
  obtain ⟨hz1, hz2⟩ := zip_kernel w (window w) (total w) (total_pos w)
  have hlen : (((window w).zip ((window w).map fun o => weight w o / total w)).filter fun ow => 0 < ow.2).length =
      positive w := by
    have := congrArg List.length hz1
    rw [List.length_map, List.length_map] at this
    rw [this, positive, List.countP_eq_length_filter]
  by_cases h2 : g < 0
  · rw [if_pos h2, fit_loop_ub _ _ (Nat.zero_le _) (by
      rw [hlen]; simp only [List.length_map, List.length_range]; omega)]
    rfl
  · rw [if_neg h2, fit_loop _ _ (by rw [hlen]; simp only [List.length_map, List.length_range]; omega),
      Outcome.bind_ok, Outcome.pure_eq]
    simp only [hz1, hz2, List.nil_append]
    congr 3
    unfold over
    simp only [List.take_zero, List.nil_append, Nat.zero_add]
    congr 1
    · rw [rows, taps_disk]
    · rw [List.length_map]
      have : ((window w).filter fun o => decide (Disk w o)).length = positive w := by
        rw [positive, List.countP_eq_length_filter]
      rw [this]
      refine List.ext_getElem (by simp; omega) fun i h1 h2 => by simp

/-- What the refinement works with if the counter happens to be 0. -/
noncomputable def intended (E : Env) (w : Nat) (im : Image ℝ) : Setup ℝ :=
  ⟨E.lim, w, E.filter w ((window w).map fun o => weight w o / total w) im, diskMask w, pseudo E.inv (rows w), 1, 1 / 1000⟩

theorem intended_ready (E : Env) (w : Nat) (im : Image ℝ) : Ready (intended E w im) := by
  simp [Ready, intended, pseudo, rows]

/-- C49: if the counter happens to be 0, the refinement works with the positive weights only. -/
theorem C49_zero (E : Env) (h : E.nnz = 0) (w iters : Nat) (im : Image ℝ) (pts : List (ℝ × ℝ)) :
    refine E w iters im pts = refineAll (intended E w im) iters E.garbageB pts := by
  unfold refine
  simp only []
  rw [C49_fitting, h]
  simp only [Left.neg_pos_iff, Int.toNat_zero, List.range_zero, List.map_nil, List.append_nil]
  rw [if_neg (by omega), if_neg (by omega), Outcome.bind_ok, C49_kernel]
  rfl

/-- C49: if it happens to be negative, the refinement of any corners of any image is undefined or throws. -/
theorem C49_negative (E : Env) (h : E.nnz < 0) (w iters : Nat) (im : Image ℝ) (pts : List (ℝ × ℝ)) :
    refine E w iters im pts = .ub ∨ refine E w iters im pts = .throw := by
  unfold refine
  simp only []
  rw [C49_fitting]
  by_cases h1 : E.nnz < -(positive w : Int)
  · right
    rw [if_pos h1]
    rfl
  · left
    rw [if_neg h1, if_pos h]
    rfl

/-- C49: if it happens to be positive, the refinement works with rows of uninitialised memory and a buffer
larger than the mask, part of which is never written. -/
theorem C49_positive (E : Env) (h : 0 < E.nnz) (w iters : Nat) (im : Image ℝ) (pts : List (ℝ × ℝ)) :
    ∃ S : Setup ℝ, refine E w iters im pts = refineAll S iters E.garbageB pts ∧
      S.P = pseudo E.inv (rows w ++ (List.range E.nnz.toNat).map fun i => E.garbageA (positive w + i)) ∧
      (taps S.w S.mask).length < S.P.length := by
  refine ⟨⟨E.lim, w, E.filter w ((window w).map fun o => weight w o / total w) im, diskMask w, pseudo E.inv (rows w ++
    (List.range E.nnz.toNat).map fun i => E.garbageA (positive w + i)), 1, 1 / 1000⟩, ?_, rfl, ?_⟩
  · unfold refine
    simp only []
    rw [C49_fitting, if_neg (by omega), if_neg (by omega), Outcome.bind_ok, C49_kernel]
  · simp [pseudo, rows, h]

/-- C48 for the function the detection calls, if the counter happens to be 0: one result per corner, in order,
infinite or less than 1.001 pixel away in each coordinate. -/
theorem C48_refine (E : Env) (h : E.nnz = 0) (w iters : Nat) (im : Image ℝ) :
    ∃ f : ℝ × ℝ → Ext ℝ × Ext ℝ, (∀ pts, refine E w iters im pts = .ok (pts.map f)) ∧
      ∀ p, f p = (.inf, .inf) ∨ ∃ q : ℝ × ℝ, f p = (.fin q.1, .fin q.2) ∧ |q.1 - p.1| < 1.001 ∧ |q.2 - p.2| < 1.001 := by
  obtain ⟨f, h1, h2⟩ := C48_outcome (intended E w im) (intended_ready E w im) (by simp [intended]) iters
  refine ⟨f, fun pts => ?_, fun p => ?_⟩
  · rw [C49_zero E h]
    exact h2 _ pts
  · rcases h1 p with hp | ⟨q, hq, hr⟩
    · exact Or.inl hp
    · have := C48_drift _ p q hr
      refine Or.inr ⟨q, hq, ?_, ?_⟩
      · refine lt_of_lt_of_eq this.1 ?_
        simp only [intended]
        norm_num
      · refine lt_of_lt_of_eq this.2 ?_
        simp only [intended]
        norm_num

/-- The count for the half size the code uses. -/
theorem C49_example : positive 5 = 109 ∧ positive 2 = 25 ∧ (window 5).length = 121 := by decide +kernel

end Verif.Props.SaddleKernel
