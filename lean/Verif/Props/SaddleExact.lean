import Verif.Props.SaddleKernel
import Mathlib.LinearAlgebra.Matrix.NonsingularInverse
import Mathlib.LinearAlgebra.Matrix.ToLinearEquiv
import Mathlib.Data.List.Perm.Basic

/-! C59: the fit is the least squares fit, and a corner on an exact saddle is refined to it exactly. -/
namespace Verif.Props.SaddleExact
open Verif Verif.Saddle Verif.Spec.Saddle Verif.Lemmas.Saddle Verif.Props.Saddle Verif.Props.SaddleKernel
open Matrix hiding row det

/-- Contract of `cv::invert`: it inverts an invertible matrix. -/
def Inverts (inv : Matrix (Fin 6) (Fin 6) ℝ → Matrix (Fin 6) (Fin 6) ℝ) : Prop :=
  ∀ N : Matrix (Fin 6) (Fin 6) ℝ, IsUnit N.det → inv N * N = 1

/-- The matrix inverse meets the contract. -/
theorem inverts_inv : Inverts fun N => N⁻¹ := fun _ h => Matrix.nonsing_inv_mul _ h

theorem normal_cons (r : Fin 6 → ℝ) (A : List (Fin 6 → ℝ)) : normal (r :: A) = vecMulVec r r + normal A := rfl

theorem normal_mulVec (A : List (Fin 6 → ℝ)) (v : Fin 6 → ℝ) :
    (normal A).mulVec v = (A.map fun r => (r ⬝ᵥ v) • r).sum := by
  induction A with
  | nil => simp [normal]
  | cons r A ih =>
    rw [normal_cons, Matrix.add_mulVec, ih, List.map_cons, List.sum_cons, Matrix.vecMulVec_mulVec]
    simp

theorem dot_sum (v : Fin 6 → ℝ) (L : List (Fin 6 → ℝ)) : v ⬝ᵥ L.sum = (L.map fun r => v ⬝ᵥ r).sum := by
  induction L with
  | nil => simp
  | cons r L ih => rw [List.sum_cons, dotProduct_add, ih, List.map_cons, List.sum_cons]

theorem dot_row (r : Fin 6 → ℝ) (o : Int × Int) : r ⬝ᵥ row o = quadric r o.1 o.2 := by
  simp [dotProduct, Fin.sum_univ_six, row, quadric]
  ring

theorem near_mem (w : Nat) (hw : 1 ≤ w) (o : Int × Int) (h1 : -1 ≤ o.1 ∧ o.1 ≤ 1) (h2 : -1 ≤ o.2 ∧ o.2 ≤ 1) :
    o ∈ taps w (diskMask w) := by
  rw [taps_disk, List.mem_filter, mem_window]
  refine ⟨⟨⟨by omega, by omega⟩, by omega, by omega⟩, ?_⟩
  rw [decide_eq_true_eq]
  unfold Disk
  have : (1 : Int) ≤ w := by exact_mod_cast hw
  nlinarith

/-- A quadratic surface that vanishes at the offsets of the mask is zero. -/
theorem quadric_zero (w : Nat) (hw : 1 ≤ w) (r : Fin 6 → ℝ)
    (h : ∀ o ∈ taps w (diskMask w), quadric r (o.1 : ℝ) (o.2 : ℝ) = 0) : r = 0 := by
  have a := h (0, 0) (near_mem w hw _ (by simp) (by simp))
  have b := h (1, 0) (near_mem w hw _ (by simp) (by simp))
  have c := h (-1, 0) (near_mem w hw _ (by simp) (by simp))
  have d := h (0, 1) (near_mem w hw _ (by simp) (by simp))
  have e := h (0, -1) (near_mem w hw _ (by simp) (by simp))
  have f := h (1, 1) (near_mem w hw _ (by simp) (by simp))
  simp only [quadric] at a b c d e f
  push_cast at a b c d e f
  funext i
  fin_cases i <;> simp only [Pi.zero_apply, Fin.zero_eta, Fin.mk_one, Fin.reduceFinMk] <;> linarith

theorem normal_unit (w : Nat) (hw : 1 ≤ w) : IsUnit (normal (rows w)).det := by
  rw [isUnit_iff_ne_zero]
  intro h
  obtain ⟨v, hv, h0⟩ := Matrix.exists_mulVec_eq_zero_iff.2 h
  apply hv
  apply quadric_zero w hw
  have h1 : v ⬝ᵥ (normal (rows w)).mulVec v = 0 := by rw [h0]; simp
  rw [normal_mulVec, dot_sum, List.map_map] at h1
  have h2 : ((rows w).map fun r => (v ⬝ᵥ r) ^ 2).sum = 0 := by
    rw [← h1]
    congr 1
    apply List.map_congr_left
    intro r _
    simp only [Function.comp_apply, dotProduct_smul, smul_eq_mul, dotProduct_comm r v]
    ring
  intro o ho
  rw [← dot_row]
  have hm : (v ⬝ᵥ row o) ^ 2 ∈ (rows w).map fun r => (v ⬝ᵥ r) ^ 2 :=
    List.mem_map_of_mem (f := fun r => (v ⬝ᵥ r) ^ 2) (List.mem_map_of_mem ho)
  have hle := List.single_le_sum (l := (rows w).map fun r => (v ⬝ᵥ r) ^ 2) (by
    intro x hx
    obtain ⟨r, _, rfl⟩ := List.mem_map.1 hx
    positivity) _ hm
  rw [h2] at hle
  exact pow_eq_zero_iff (two_ne_zero) |>.1 (le_antisymm hle (by positivity))

/-- `Aᵀ b`. -/
noncomputable def moment (A : List (Fin 6 → ℝ)) (b : List ℝ) : Fin 6 → ℝ := (List.zipWith (fun v r => v • r) b A).sum

theorem fit_pseudo (M : Matrix (Fin 6) (Fin 6) ℝ) (A : List (Fin 6 → ℝ)) (b : List ℝ) :
    fit (A.map fun r => M.mulVec r) b = M.mulVec (moment A b) := by
  unfold fit moment
  induction A generalizing b with
  | nil => simp
  | cons r A ih =>
    cases b with
    | nil => simp
    | cons v b =>
      simp only [List.map_cons, List.zipWith_cons_cons, List.sum_cons, ih, Matrix.mulVec_add, Matrix.mulVec_smul]

/-- The normal equations. -/
theorem fit_normal (inv : Matrix (Fin 6) (Fin 6) ℝ → Matrix (Fin 6) (Fin 6) ℝ) (hinv : Inverts inv) (w : Nat)
    (hw : 1 ≤ w) (b : List ℝ) :
    (normal (rows w)).mulVec (fit (pseudo inv (rows w)) b) = moment (rows w) b := by
  have hu := normal_unit w hw
  have h1 := hinv _ hu
  have h2 : normal (rows w) * inv (normal (rows w)) = 1 := mul_eq_one_comm.1 h1
  unfold pseudo
  rw [fit_pseudo, Matrix.mulVec_mulVec, h2, Matrix.one_mulVec]

theorem dot_moment (r : Fin 6 → ℝ) (A : List (Fin 6 → ℝ)) (b : List ℝ) :
    r ⬝ᵥ moment A b = (List.zipWith (fun v a => v * (r ⬝ᵥ a)) b A).sum := by
  unfold moment
  induction A generalizing b with
  | nil => simp
  | cons a A ih =>
    cases b with
    | nil => simp
    | cons v b => simp [dotProduct_add, ih]

/-- Sum of squared differences between the surface `r` and the values `b` at the offsets of the mask. -/
noncomputable def misfit (w : Nat) (r : Fin 6 → ℝ) (b : List ℝ) : ℝ :=
  (List.zipWith (fun v (o : Int × Int) => (quadric r o.1 o.2 - v) ^ 2) b (taps w (diskMask w))).sum

theorem misfit_expand (L : List (Int × Int)) (r d : Fin 6 → ℝ) (b : List ℝ) (hb : b.length = L.length) :
    (List.zipWith (fun v (o : Int × Int) => (quadric (r + d) o.1 o.2 - v) ^ 2) b L).sum =
      (List.zipWith (fun v (o : Int × Int) => (quadric r o.1 o.2 - v) ^ 2) b L).sum +
      2 * (d ⬝ᵥ (normal (L.map row)).mulVec r - d ⬝ᵥ moment (L.map row) b) +
      (L.map fun o => quadric d (o.1 : ℝ) (o.2 : ℝ) ^ 2).sum := by
  rw [normal_mulVec, dot_sum, dot_moment, List.map_map, List.map_map]
  induction L generalizing b with
  | nil => simp
  | cons o L ih =>
    cases b with
    | nil => cases hb
    | cons v b =>
      have := ih b (by simpa using hb)
      simp only [List.zipWith_cons_cons, List.sum_cons, List.map_cons, Function.comp_apply, dotProduct_smul,
        smul_eq_mul, dot_row, dotProduct_comm (row o) r]
      rw [this]
      have hadd : quadric (r + d) (o.1 : ℝ) (o.2 : ℝ) = quadric r o.1 o.2 + quadric d o.1 o.2 := by
        simp only [quadric, Pi.add_apply]
        ring
      rw [hadd]
      ring

/-- C59: the surface computed from a patch is the only one with the smallest sum of squared differences, for
windows of half size at least 1. -/
theorem C59_least_squares (inv : Matrix (Fin 6) (Fin 6) ℝ → Matrix (Fin 6) (Fin 6) ℝ) (hinv : Inverts inv) (w : Nat)
    (hw : 1 ≤ w) (b : List ℝ) (hb : b.length = (taps w (diskMask w)).length) (r : Fin 6 → ℝ)
    (hne : r ≠ fit (pseudo inv (rows w)) b) :
    misfit w (fit (pseudo inv (rows w)) b) b < misfit w r b := by
  have h := misfit_expand (taps w (diskMask w)) (fit (pseudo inv (rows w)) b) (r - fit (pseudo inv (rows w)) b) b hb
  have hn := fit_normal inv hinv w hw b
  have h0 : ∀ d : Fin 6 → ℝ, d ⬝ᵥ (normal ((taps w (diskMask w)).map row)).mulVec (fit (pseudo inv (rows w)) b) -
      d ⬝ᵥ moment ((taps w (diskMask w)).map row) b = 0 := by
    intro d
    rw [show (taps w (diskMask w)).map row = rows w from rfl, hn, sub_self]
  rw [h0, add_sub_cancel] at h
  unfold misfit
  rw [h]
  have hnn : ∀ x ∈ ((taps w (diskMask w)).map fun o => quadric (r - fit (pseudo inv (rows w)) b) (o.1 : ℝ) (o.2 : ℝ) ^ 2),
      0 ≤ x := by
    intro x hx
    obtain ⟨o, _, rfl⟩ := List.mem_map.1 hx
    positivity
  have hpos : 0 < ((taps w (diskMask w)).map fun o =>
      quadric (r - fit (pseudo inv (rows w)) b) (o.1 : ℝ) (o.2 : ℝ) ^ 2).sum := by
    refine lt_of_le_of_ne (List.sum_nonneg hnn) fun he => ?_
    apply sub_ne_zero.2 hne
    apply quadric_zero w hw
    intro o ho
    have := List.single_le_sum hnn _ (List.mem_map_of_mem
      (f := fun o : Int × Int => quadric (r - fit (pseudo inv (rows w)) b) (o.1 : ℝ) (o.2 : ℝ) ^ 2) ho)
    rw [← he] at this
    exact pow_eq_zero_iff (two_ne_zero) |>.1 (le_antisymm this (by positivity))
  linarith

theorem misfit_nonneg (w : Nat) (r : Fin 6 → ℝ) (b : List ℝ) : 0 ≤ misfit w r b := by
  unfold misfit
  generalize taps w (diskMask w) = L
  induction L generalizing b with
  | nil => simp
  | cons o L ih =>
    cases b with
    | nil => simp
    | cons v b =>
      rw [List.zipWith_cons_cons, List.sum_cons]
      exact add_nonneg (sq_nonneg _) (ih b)

theorem misfit_self (w : Nat) (r : Fin 6 → ℝ) :
    misfit w r ((taps w (diskMask w)).map fun o => quadric r (o.1 : ℝ) (o.2 : ℝ)) = 0 := by
  unfold misfit
  generalize taps w (diskMask w) = L
  induction L with
  | nil => simp
  | cons o L ih =>
    rw [List.map_cons, List.zipWith_cons_cons, List.sum_cons, ih, sub_self]
    norm_num

/-- C59: a patch that is a quadratic surface is fitted exactly. -/
theorem C59_reproduces (inv : Matrix (Fin 6) (Fin 6) ℝ → Matrix (Fin 6) (Fin 6) ℝ) (hinv : Inverts inv) (w : Nat)
    (hw : 1 ≤ w) (r : Fin 6 → ℝ) :
    fit (pseudo inv (rows w)) ((taps w (diskMask w)).map fun o => quadric r (o.1 : ℝ) (o.2 : ℝ)) = r := by
  generalize hb : ((taps w (diskMask w)).map fun o => quadric r (o.1 : ℝ) (o.2 : ℝ)) = b
  refine Classical.byContradiction fun hne => ?_
  have hl : b.length = (taps w (diskMask w)).length := by rw [← hb, List.length_map]
  have h := C59_least_squares inv hinv w hw b hl r (Ne.symm hne)
  have h0 : misfit w r b = 0 := by rw [← hb]; exact misfit_self w r
  have h1 := misfit_nonneg w (fit (pseudo inv (rows w)) b) b
  rw [h0] at h
  exact absurd h (not_lt.2 h1)

/-! ### An exact saddle -/

/-- A saddle at `s`. -/
def saddle (c k : ℝ) (s : ℝ × ℝ) (x y : ℝ) : ℝ := c + k * ((x - s.1) * (y - s.2))

/-- The pixels of the image within `d` of `s` in both directions exist and are those of a saddle at `s`. -/
def SaddleAround (im : Image ℝ) (d : ℝ) (c k : ℝ) (s : ℝ × ℝ) : Prop :=
  (d ≤ s.1 ∧ s.1 + d < im.cols ∧ d ≤ s.2 ∧ s.2 + d < im.rows) ∧
    ∀ i j : Int, |(i : ℝ) - s.1| ≤ d → |(j : ℝ) - s.2| ≤ d → pixel im j i = saddle c k s i j

theorem bilinear_saddle {im : Image ℝ} {d c k : ℝ} {s : ℝ × ℝ} (h : SaddleAround im d c k s) {x y : ℝ}
    (hx : |x - s.1| ≤ d - 1) (hy : |y - s.2| ≤ d - 1) : bilinear im x y = saddle c k s x y := by
  rw [abs_le] at hx hy
  have a1 := Int.floor_le x
  have a2 := Int.lt_floor_add_one x
  have b1 := Int.floor_le y
  have b2 := Int.lt_floor_add_one y
  have e : ∀ i j : Int, (i = ⌊x⌋ ∨ i = ⌊x⌋ + 1) → (j = ⌊y⌋ ∨ j = ⌊y⌋ + 1) → pixel im j i = saddle c k s i j := by
    intro i j hi hj
    apply h.2
    · rw [abs_le]
      rcases hi with rfl | rfl
      · constructor <;> linarith
      · push_cast
        constructor <;> linarith
    · rw [abs_le]
      rcases hj with rfl | rfl
      · constructor <;> linarith
      · push_cast
        constructor <;> linarith
  unfold bilinear
  simp only []
  rw [e _ _ (Or.inl rfl) (Or.inl rfl), e _ _ (Or.inr rfl) (Or.inl rfl), e _ _ (Or.inl rfl) (Or.inr rfl),
    e _ _ (Or.inr rfl) (Or.inr rfl)]
  unfold saddle Int.fract
  push_cast
  ring

/-- The coefficients of the saddle seen from `(x, y)`. -/
def coeffs (c k : ℝ) (s : ℝ × ℝ) (x y : ℝ) : Fin 6 → ℝ :=
  ![0, 0, k, k * (x - s.1), k * (y - s.2), saddle c k s x y]

theorem quadric_coeffs (c k : ℝ) (s : ℝ × ℝ) (x y u v : ℝ) :
    quadric (coeffs c k s x y) u v = saddle c k s (x + u) (y + v) := by
  simp [quadric, coeffs, saddle]
  ring

theorem patch_saddle {im : Image ℝ} {w : Nat} {c k : ℝ} {s : ℝ × ℝ} (h : SaddleAround im (w + 2) c k s) {x y : ℝ}
    (hx : |x - s.1| ≤ 1) (hy : |y - s.2| ≤ 1) :
    patch w (diskMask w) im x y = (taps w (diskMask w)).map fun o => quadric (coeffs c k s x y) (o.1 : ℝ) (o.2 : ℝ) := by
  unfold patch
  apply List.map_congr_left
  intro o ho
  have hm : o ∈ window w := by
    rw [taps_disk] at ho
    exact (List.mem_filter.1 ho).1
  obtain ⟨⟨a, b⟩, c', d⟩ := mem_window.1 hm
  have a' : -(w : ℝ) ≤ (o.1 : ℝ) := by exact_mod_cast a
  have b' : (o.1 : ℝ) ≤ w := by exact_mod_cast b
  have c'' : -(w : ℝ) ≤ (o.2 : ℝ) := by exact_mod_cast c'
  have d' : (o.2 : ℝ) ≤ w := by exact_mod_cast d
  rw [abs_le] at hx hy
  rw [quadric_coeffs, bilinear_saddle h]
  · rw [abs_le]; constructor <;> linarith
  · rw [abs_le]; constructor <;> linarith

/-- Two offsets see values that differ by more than 1/255. -/
theorem contrast {w : Nat} (hw : 1 ≤ w) {k : ℝ} (hk : 2 / 255 < |k|) (c : ℝ) (s : ℝ × ℝ) (x y mx mn : ℝ) :
    ((taps w (diskMask w)).map fun o => quadric (coeffs c k s x y) (o.1 : ℝ) (o.2 : ℝ)).foldl max mx -
      ((taps w (diskMask w)).map fun o => quadric (coeffs c k s x y) (o.1 : ℝ) (o.2 : ℝ)).foldl min mn > 1 / 255 := by
  have hmem : ∀ o : Int × Int, (-1 ≤ o.1 ∧ o.1 ≤ 1) → (-1 ≤ o.2 ∧ o.2 ≤ 1) →
      quadric (coeffs c k s x y) (o.1 : ℝ) (o.2 : ℝ) ∈
        ((taps w (diskMask w)).map fun o => quadric (coeffs c k s x y) (o.1 : ℝ) (o.2 : ℝ)) := fun o h1 h2 =>
    List.mem_map_of_mem (f := fun o : Int × Int => quadric (coeffs c k s x y) (o.1 : ℝ) (o.2 : ℝ)) (near_mem w hw o h1 h2)
  have p1 := hmem (0, 0) (by simp) (by simp)
  have p2 := hmem (1, 0) (by simp) (by simp)
  have p3 := hmem (0, 1) (by simp) (by simp)
  have p4 := hmem (1, 1) (by simp) (by simp)
  generalize ((taps w (diskMask w)).map fun o => quadric (coeffs c k s x y) (o.1 : ℝ) (o.2 : ℝ)) = L at p1 p2 p3 p4 ⊢
  have hmax := (foldl_max_le L mx).2
  have hmin := (foldl_min_le L mn).2
  have m1 := hmax _ p1
  have m2 := hmax _ p2
  have m3 := hmax _ p3
  have m4 := hmax _ p4
  have n1 := hmin _ p1
  have n2 := hmin _ p2
  have n3 := hmin _ p3
  have n4 := hmin _ p4
  simp only [quadric_coeffs, saddle] at m1 m2 m3 m4 n1 n2 n3 n4
  push_cast at m1 m2 m3 m4 n1 n2 n3 n4
  rcases lt_abs.1 hk with h | h <;> linarith

theorem iteration_good (S : Setup ℝ) (hS : Ready S) (x0 y0 x y : ℝ) (hi : Interior S.w S.im x y)
    (hc : (patch S.w S.mask S.im x y).foldl max S.lim.min - (patch S.w S.mask S.im x y).foldl min S.lim.max > 1 / 255)
    (b : List ℝ) (hb : b.length = S.P.length) :
    iteration S x0 y0 (.fin x) (.fin y) b =
      .ok (newton S x0 y0 (.fin x) (.fin y) (fit S.P (patch S.w S.mask S.im x y)), patch S.w S.mask S.im x y) := by
  have : interpolatePatch S.lim S.w S.im S.mask b (.fin x) (.fin y) = .ok (true, patch S.w S.mask S.im x y) := by
    unfold interpolatePatch
    simp only []
    rw [if_pos ((inRange_iff S.w S.im x y).2 hi), patchInside_eq S.lim (interior_window hi) (by
      rw [hb]; exact hS.le), over_zero _ _ (by simp only [patch, List.length_map]; rw [hb]; exact hS.symm),
      decide_eq_true hc]
  unfold iteration
  rw [this]
  rfl

/-- The fit and its step at a point near the saddle. -/
theorem newton_saddle (S : Setup ℝ) (x0 y0 x y c k : ℝ) (s : ℝ × ℝ) (hk : k ≠ 0) :
    newton S x0 y0 (.fin x) (.fin y) (coeffs c k s x y) =
      if |s.1 - x| < S.thr ∧ |s.2 - y| < S.thr then .converged (.fin s.1) (.fin s.2)
      else if S.region < |s.1 - x0| ∨ S.region < |s.2 - y0| then .diverged
      else .goOn (.fin s.1) (.fin s.2) := by
  have hdet : det (coeffs c k s x y) < 0 := by
    have : det (coeffs c k s x y) = -(k * k) := by simp [det, coeffs]
    rw [this, neg_lt_zero]
    exact mul_self_pos.2 hk
  have hg : gradient (coeffs c k s x y) (s.1 - x) (s.2 - y) = (0, 0) := by
    simp [gradient, coeffs]
    constructor <;> ring
  obtain ⟨h1, h2⟩ := (C48_stationary _ hdet.ne _ _).1 hg
  unfold newton
  rw [if_neg (not_lt.2 hdet.le), h1, h2]
  simp only [small, far, plus, add_sub_cancel, Bool.and_eq_true, Bool.or_eq_true, decide_eq_true_eq, gt_iff_lt]

/-- C59: a corner at most one pixel away in each direction from an exact saddle of the smoothed image, strong
enough and away from the border, is refined to the saddle exactly in at most two iterations. -/
theorem C59_exact (inv : Matrix (Fin 6) (Fin 6) ℝ → Matrix (Fin 6) (Fin 6) ℝ) (hinv : Inverts inv) (lim : Limits ℝ)
    (w : Nat) (hw : 1 ≤ w) (im : Image ℝ) (c k : ℝ) (hk : 2 / 255 < |k|) (s : ℝ × ℝ)
    (hs : SaddleAround im (w + 2) c k s) (p : ℝ × ℝ) (hp : |p.1 - s.1| ≤ 1 ∧ |p.2 - s.2| ≤ 1)
    (hip : Interior w im p.1 p.2) (his : Interior w im s.1 s.2) (iters : Nat) (hit : 2 ≤ iters) (b : List ℝ)
    (hb : b.length = (rows w).length) :
    ∃ b', refineLoop ⟨lim, w, im, diskMask w, pseudo inv (rows w), 1, 1 / 1000⟩ p.1 p.2 iters (.fin p.1) (.fin p.2) b =
      .ok ((.fin s.1, .fin s.2), b') := by
  have hk0 : k ≠ 0 := by
    rintro rfl
    norm_num at hk
  obtain ⟨n, rfl⟩ : ∃ n, iters = n + 2 := ⟨iters - 2, by omega⟩
  set S : Setup ℝ := ⟨lim, w, im, diskMask w, pseudo inv (rows w), 1, 1 / 1000⟩ with hSdef
  have hS : Ready S := by simp [Ready, S, pseudo, rows]
  have hit : ∀ x y : ℝ, |x - s.1| ≤ 1 → |y - s.2| ≤ 1 → Interior w im x y → ∀ b : List ℝ, b.length = S.P.length →
      iteration S p.1 p.2 (.fin x) (.fin y) b =
        .ok (newton S p.1 p.2 (.fin x) (.fin y) (coeffs c k s x y), patch w (diskMask w) im x y) := by
    intro x y hx hy hi b hb
    rw [iteration_good S hS p.1 p.2 x y hi (by
      show (patch w (diskMask w) im x y).foldl max lim.min - (patch w (diskMask w) im x y).foldl min lim.max > 1 / 255
      rw [patch_saddle hs hx hy]
      exact contrast hw hk c s x y _ _) b hb]
    congr 2
    show newton S p.1 p.2 (.fin x) (.fin y) (fit (pseudo inv (rows w)) (patch w (diskMask w) im x y)) = _
    rw [patch_saddle hs hx hy, C59_reproduces inv hinv w hw]
  have h1 := hit p.1 p.2 hp.1 hp.2 hip b (by simpa [S, pseudo] using hb)
  rw [newton_saddle S _ _ _ _ c k s hk0] at h1
  unfold refineLoop
  rw [h1]
  by_cases hc : |s.1 - p.1| < S.thr ∧ |s.2 - p.2| < S.thr
  · rw [if_pos hc]
    exact ⟨_, rfl⟩
  · rw [if_neg hc, if_neg (by
      simp only [S, not_or, not_lt]
      rw [abs_sub_comm s.1, abs_sub_comm s.2]
      exact hp)]
    simp only [Outcome.bind]
    have h2 := hit s.1 s.2 (by simp) (by simp) his (patch w (diskMask w) im p.1 p.2) (by simp [S, pseudo, rows, patch])
    rw [newton_saddle S _ _ _ _ c k s hk0, if_pos (by simp [S])] at h2
    unfold refineLoop
    rw [h2]
    exact ⟨_, rfl⟩

/-! ### Smoothing -/

/-- The weighted sum of the pixels around a pixel. -/
noncomputable def correlate (w : Nat) (kernel : List ℝ) (im : Image ℝ) (i j : Int) : ℝ :=
  (List.zipWith (fun v (o : Int × Int) => v * pixel im (j + o.2) (i + o.1)) kernel (window w)).sum

/-- Contract of `cv::filter2D`: the image keeps its size, and where the window is inside the image a pixel is the
weighted sum of the pixels around it (nothing is assumed near the border). -/
def Filters (filter : Nat → List ℝ → Image ℝ → Image ℝ) : Prop :=
  ∀ w kernel im, (filter w kernel im).rows = im.rows ∧ (filter w kernel im).cols = im.cols ∧
    ∀ i j : Int, (w : Int) ≤ i → i + w < im.cols → (w : Int) ≤ j → j + w < im.rows →
      pixel (filter w kernel im) j i = correlate w kernel im i j

/-- The contract can be met. -/
theorem filters_exist : ∃ filter, Filters filter :=
  ⟨fun w kernel im => ⟨im.rows, im.cols, fun r c => correlate w kernel im c r⟩, fun w kernel im => ⟨rfl, rfl, fun i j h1 _ h3 _ => by
    have e1 : ((i.toNat : Nat) : Int) = i := Int.toNat_of_nonneg (by omega)
    have e2 : ((j.toNat : Nat) : Int) = j := Int.toNat_of_nonneg (by omega)
    simp only [pixel, e1, e2]⟩⟩

theorem sum_symm (w : Nat) (f : Int × Int → ℝ) (g : Int × Int → Int × Int) (hg : ∀ o ∈ window w, g o ∈ window w)
    (hgg : ∀ o, g (g o) = o) (hf : ∀ o, f (g o) = -f o) : ((window w).map f).sum = 0 := by
  have hinj : Function.Injective g := fun a b h => by rw [← hgg a, h, hgg]
  have hperm : ((window w).map g).Perm (window w) := by
    refine (List.perm_ext_iff_of_nodup ((nodup_window w).map hinj) (nodup_window w)).2 fun o => ?_
    constructor
    · intro h
      obtain ⟨a, ha, rfl⟩ := List.mem_map.1 h
      exact hg a ha
    · intro h
      exact List.mem_map.2 ⟨g o, hg o h, hgg o⟩
  have h1 := (hperm.map f).sum_eq
  rw [List.map_map] at h1
  have h2 : (window w).map (f ∘ g) = (window w).map fun o => -f o := List.map_congr_left fun o _ => hf o
  have h3 : ((window w).map fun o => -f o).sum = -((window w).map f).sum := by
    have := List.sum_map_mul_left (window w) f (-1)
    simpa using this
  rw [h2, h3] at h1
  linarith

/-- A symmetric kernel of sum 1 does not change a saddle. -/
theorem correlate_saddle (w : Nat) (im : Image ℝ) (c k : ℝ) (s : ℝ × ℝ) (i j : Int)
    (h : ∀ o ∈ window w, pixel im (j + o.2) (i + o.1) = saddle c k s (i + o.1 : Int) (j + o.2 : Int)) :
    correlate w ((window w).map fun o => weight w o / total w) im i j = saddle c k s i j := by
  have e : correlate w ((window w).map fun o => weight w o / total w) im i j =
      ((window w).map fun o => weight w o / total w * saddle c k s (i + o.1 : Int) (j + o.2 : Int)).sum := by
    unfold correlate
    rw [List.zipWith_map_left, List.zipWith_self]
    congr 1
    exact List.map_congr_left fun o ho => by rw [h o ho]
  have hex : ∀ o : Int × Int, weight w o / total w * saddle c k s (i + o.1 : Int) (j + o.2 : Int) =
      saddle c k s i j / total w * weight w o + k * (i - s.1) / total w * (weight w o * o.2) +
        (k * (j - s.2) / total w * (weight w o * o.1) + k / total w * (weight w o * (o.1 * o.2))) := by
    intro o
    unfold saddle
    push_cast
    ring
  have z1 : ((window w).map fun o => weight w o * (o.2 : ℝ)).sum = 0 :=
    sum_symm w _ (fun o => (o.1, -o.2)) (fun o ho => by rw [mem_window] at ho ⊢; simp only; omega)
      (fun o => by simp) (fun o => by simp [weight])
  have z2 : ((window w).map fun o => weight w o * (o.1 : ℝ)).sum = 0 :=
    sum_symm w _ (fun o => (-o.1, o.2)) (fun o ho => by rw [mem_window] at ho ⊢; simp only; omega)
      (fun o => by simp) (fun o => by simp [weight])
  have z3 : ((window w).map fun o => weight w o * ((o.1 : ℝ) * o.2)).sum = 0 :=
    sum_symm w _ (fun o => (-o.1, o.2)) (fun o ho => by rw [mem_window] at ho ⊢; simp only; omega)
      (fun o => by simp) (fun o => by simp [weight])
  rw [e, List.map_congr_left fun o _ => hex o, List.sum_map_add, List.sum_map_add, List.sum_map_add,
    List.sum_map_mul_left, List.sum_map_mul_left, List.sum_map_mul_left, List.sum_map_mul_left, z1, z2, z3]
  have := (total_pos w).ne'
  rw [show ((window w).map fun o => weight w o).sum = total w from rfl]
  field_simp
  ring

/-- C59: smoothing keeps a saddle a saddle at the same place. -/
theorem C59_smoothing (filter : Nat → List ℝ → Image ℝ → Image ℝ) (hf : Filters filter) (w : Nat) (g : Int)
    (im : Image ℝ) (d c k : ℝ) (s : ℝ × ℝ) (h : SaddleAround im (d + w) c k s) :
    SaddleAround (filter w (initKernel w g).1 im) d c k s := by
  rw [C49_kernel]
  obtain ⟨hr, hc, hp⟩ := hf w ((window w).map fun o => weight w o / total w) im
  obtain ⟨⟨h1, h2, h3, h4⟩, h5⟩ := h
  have hw0 : (0 : ℝ) ≤ w := Nat.cast_nonneg w
  refine ⟨⟨by linarith, by rw [hc]; linarith, by linarith, by rw [hr]; linarith⟩, fun i j hi hj => ?_⟩
  rw [abs_le] at hi hj
  have q1 : (w : ℝ) ≤ (i : ℝ) := by linarith
  have q2 : (i : ℝ) + w < im.cols := by linarith
  have q3 : (w : ℝ) ≤ (j : ℝ) := by linarith
  have q4 : (j : ℝ) + w < im.rows := by linarith
  rw [hp i j (by exact_mod_cast q1) (by exact_mod_cast q2) (by exact_mod_cast q3) (by exact_mod_cast q4)]
  apply correlate_saddle
  intro o ho
  obtain ⟨⟨a, b⟩, c', d'⟩ := mem_window.1 ho
  have a1 : -(w : ℝ) ≤ (o.1 : ℝ) := by exact_mod_cast a
  have a2 : (o.1 : ℝ) ≤ w := by exact_mod_cast b
  have a3 : -(w : ℝ) ≤ (o.2 : ℝ) := by exact_mod_cast c'
  have a4 : (o.2 : ℝ) ≤ w := by exact_mod_cast d'
  apply h5
  · push_cast
    rw [abs_le]
    constructor <;> linarith
  · push_cast
    rw [abs_le]
    constructor <;> linarith

/-- A corner near an exact saddle of the input image. -/
def NearSaddle (w : Nat) (im : Image ℝ) (p s : ℝ × ℝ) : Prop :=
  |p.1 - s.1| ≤ 1 ∧ |p.2 - s.2| ≤ 1 ∧ ∃ c k, 2 / 255 < |k| ∧ SaddleAround im (2 * w + 2) c k s

/-- C59: if the counter happens to be 0, corners at most a pixel away from exact saddles of the input image are all
refined to these saddles. -/
theorem C59_refine (E : Env) (h0 : E.nnz = 0) (hinv : Inverts E.inv) (hf : Filters E.filter) (w : Nat) (hw : 1 ≤ w)
    (iters : Nat) (hit : 2 ≤ iters) (im : Image ℝ) (pts ss : List (ℝ × ℝ))
    (h : List.Forall₂ (NearSaddle w im) pts ss) :
    refine E w iters im pts = .ok (ss.map fun s => (.fin s.1, .fin s.2)) := by
  obtain ⟨f, -, hall⟩ := C48_outcome (intended E w im) (intended_ready E w im) (by simp [intended]) iters
  have hw1 : (1 : ℝ) ≤ w := by exact_mod_cast hw
  have hpt : ∀ p s, NearSaddle w im p s → f p = (.fin s.1, .fin s.2) := by
    rintro p s ⟨hx, hy, c, k, hk, hs⟩
    have hs' : SaddleAround (E.filter w (initKernel w 0).1 im) (w + 2) c k s :=
      C59_smoothing E.filter hf w 0 im (w + 2) c k s (by
        rw [show (w : ℝ) + 2 + w = 2 * w + 2 by ring]; exact hs)
    rw [C49_kernel] at hs'
    obtain ⟨hr, hc, -⟩ := hf w ((window w).map fun o => weight w o / total w) im
    obtain ⟨⟨b1, b2, b3, b4⟩, -⟩ := hs
    rw [abs_le] at hx hy
    have hin : ∀ q : ℝ × ℝ, |q.1 - s.1| ≤ 1 → |q.2 - s.2| ≤ 1 →
        Interior w (E.filter w ((window w).map fun o => weight w o / total w) im) q.1 q.2 := by
      intro q q1 q2
      rw [abs_le] at q1 q2
      unfold Interior
      rw [hr, hc]
      refine ⟨?_, ?_, ?_, ?_⟩ <;> linarith
    obtain ⟨b', hb'⟩ := C59_exact E.inv hinv E.lim w hw _ c k hk s hs' p ⟨abs_le.2 hx, abs_le.2 hy⟩
      (hin p (abs_le.2 hx) (abs_le.2 hy)) (hin s (by simp) (by simp)) iters hit
      ((List.range (pseudo E.inv (rows w)).length).map E.garbageB) (by simp [pseudo])
    have h1 := hall E.garbageB [p]
    unfold refineAll at h1
    rw [Outcome.foldlM_cons] at h1
    have : pointStep (intended E w im) iters ([], (List.range (intended E w im).P.length).map E.garbageB) p =
        .ok ([(.fin s.1, .fin s.2)], b') := by
      unfold pointStep
      rw [show refineLoop (intended E w im) p.1 p.2 iters (.fin p.1) (.fin p.2)
        ((List.range (intended E w im).P.length).map E.garbageB) = _ from hb']
      rfl
    rw [this] at h1
    simpa using h1.symm
  rw [C49_zero E h0, hall]
  congr 1
  induction h with
  | nil => rfl
  | cons hp _ ih => rw [List.map_cons, List.map_cons, hpt _ _ hp, ih]

/-- The hypotheses of `C59_refine` can be met: a 40 x 40 image of a saddle at (20.25, 19.5), with an environment
that has the contracts, and a corner detected at (20, 20). -/
theorem C59_example : ∃ (E : Env) (im : Image ℝ), E.nnz = 0 ∧ Inverts E.inv ∧ Filters E.filter ∧
    NearSaddle 5 im (20, 20) (20.25, 19.5) ∧
    refine E 5 20 im [(20, 20)] = .ok [(.fin 20.25, .fin 19.5)] := by
  obtain ⟨F, hF⟩ := filters_exist
  let E : Env := ⟨⟨10 ^ 300, 1 / 10 ^ 300⟩, fun N => N⁻¹, F, fun _ _ => 7, fun _ => 7, 0⟩
  let im : Image ℝ := ⟨40, 40, fun r c => saddle 128 (1 / 4) (20.25, 19.5) c r⟩
  have hn : NearSaddle 5 im (20, 20) (20.25, 19.5) := by
    refine ⟨by norm_num [abs_le], by norm_num [abs_le], 128, 1 / 4, by norm_num [lt_abs], ?_, ?_⟩
    · simp only [im]
      norm_num
    · intro i j hi hj
      rw [abs_le] at hi hj
      have hi0 : (0 : ℝ) ≤ (i : ℝ) := by push_cast at hi; linarith [hi.1]
      have hj0 : (0 : ℝ) ≤ (j : ℝ) := by push_cast at hj; linarith [hj.1]
      have hi1 : 0 ≤ i := by exact_mod_cast hi0
      have hj1 : 0 ≤ j := by exact_mod_cast hj0
      have e1 : ((i.toNat : Nat) : ℝ) = i := by exact_mod_cast congrArg (Int.cast (R := ℝ)) (Int.toNat_of_nonneg hi1)
      have e2 : ((j.toNat : Nat) : ℝ) = j := by exact_mod_cast congrArg (Int.cast (R := ℝ)) (Int.toNat_of_nonneg hj1)
      simp only [pixel, im, e1, e2]
  exact ⟨E, im, rfl, inverts_inv, hF, hn,
    C59_refine E rfl inverts_inv hF 5 (by norm_num) 20 (by norm_num) im _ _ (List.Forall₂.cons hn .nil)⟩

end Verif.Props.SaddleExact
