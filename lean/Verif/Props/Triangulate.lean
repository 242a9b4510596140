import Verif.Model.Triangulate
import Verif.Lemmas.Svd
import Verif.Lemmas.Rodrigues
import Verif.Lemmas.Collect
import Mathlib.LinearAlgebra.Matrix.ToLin
import Mathlib.LinearAlgebra.Matrix.DotProduct
import Mathlib.LinearAlgebra.LinearIndependent.Lemmas
import Mathlib.Tactic.FieldSimp
import Mathlib.Tactic.LinearCombination

/-!
C68: triangulation.
-/
namespace Verif.Props.Triangulate
open Verif Verif.Rigid Verif.Triangulate

/-! ### Specification -/

/-- The pixel `p` is the projection of `X` by a camera without distortion, with matrix `intr` and pose `(R, T)`: the
point `intr (R X + T)` is not in the plane of the camera, and is the third coordinate times `(p, 1)`. -/
def Projects (intr R : Mat3 ℝ) (T X : Vec3 ℝ) (p : ℝ × ℝ) : Prop :=
  let y := intr.mulVec (R.mulVec X + T)
  y 2 ≠ 0 ∧ p.1 = y 0 / y 2 ∧ p.2 = y 1 / y 2

/-- `c` is the centre of a camera with pose `(R, T)`. -/
def Centre (R : Mat3 ℝ) (T c : Vec3 ℝ) : Prop := R.mulVec c + T = 0

/-- Contract of `SVDecomp`: the last row of `VT` is a unit vector on which the matrix is smallest. -/
def LastRight (A : List (Vec4 ℝ)) (v : Vec4 ℝ) : Prop :=
  v ⬝ᵥ v = 1 ∧ ∀ u : Vec4 ℝ, u ⬝ᵥ u = 1 → (A.map fun a => (a ⬝ᵥ v) ^ 2).sum ≤ (A.map fun a => (a ⬝ᵥ u) ^ 2).sum

/-! ### Lemmas -/

private theorem dot4 (p q : Vec4 ℝ) : p ⬝ᵥ q = p 0 * q 0 + p 1 * q 1 + p 2 * q 2 + p 3 * q 3 := by
  simp [dotProduct, Fin.sum_univ_four]

private theorem sum_cont (A : List (Vec4 ℝ)) : Continuous fun u : Vec4 ℝ => (A.map fun a => (a ⬝ᵥ u) ^ 2).sum := by
  induction A with
  | nil => simpa using continuous_const
  | cons a A ih =>
    simp only [List.map_cons, List.sum_cons]
    exact ((Lemmas.Svd.dot_cont continuous_const continuous_id).pow 2).add ih

/-- C68: the contract of `SVDecomp` can be met, for every matrix. -/
theorem C68_svd_exists (A : List (Vec4 ℝ)) : ∃ v, LastRight A v := by
  obtain ⟨v, hv, hmin⟩ := Lemmas.Svd.sphere_compact.exists_isMinOn (s := {x : Vec4 ℝ | x ⬝ᵥ x = 1})
    ⟨![1, 0, 0, 0], by rw [Set.mem_setOf_eq, dot4]; simp⟩
    (f := fun u => (A.map fun a => (a ⬝ᵥ u) ^ 2).sum) (sum_cont A).continuousOn
  exact ⟨v, hv, fun u hu => hmin hu⟩

/-- The smallest vector of a matrix with a null vector is a null vector. -/
private theorem last_null {A : List (Vec4 ℝ)} {v w : Vec4 ℝ} (hv : LastRight A v) (hw : w ≠ 0)
    (h : ∀ a ∈ A, a ⬝ᵥ w = 0) : ∀ a ∈ A, a ⬝ᵥ v = 0 := by
  have hww : 0 < w ⬝ᵥ w := by
    have h0 : 0 ≤ w ⬝ᵥ w := by rw [dot4]; nlinarith [mul_self_nonneg (w 0), mul_self_nonneg (w 1), mul_self_nonneg (w 2), mul_self_nonneg (w 3)]
    rcases h0.lt_or_eq with h1 | h1
    · exact h1
    · exact absurd (dotProduct_self_eq_zero.1 h1.symm) hw
  set s := Real.sqrt (w ⬝ᵥ w) with hs
  have hs0 : s ≠ 0 := (Real.sqrt_pos.2 hww).ne'
  have hss : s * s = w ⬝ᵥ w := Real.mul_self_sqrt hww.le
  have hu : (s⁻¹ • w) ⬝ᵥ (s⁻¹ • w) = 1 := by
    rw [smul_dotProduct, dotProduct_smul, ← hss]
    simp only [smul_eq_mul]
    field_simp
  have h1 := hv.2 (s⁻¹ • w) hu
  have h2 : (A.map fun a => (a ⬝ᵥ (s⁻¹ • w)) ^ 2).sum = 0 := by
    apply List.sum_eq_zero
    intro x hx
    obtain ⟨a, ha, rfl⟩ := List.mem_map.1 hx
    rw [dotProduct_smul, h a ha]
    simp
  rw [h2] at h1
  intro a ha
  have h3 : (a ⬝ᵥ v) ^ 2 ≤ (A.map fun a => (a ⬝ᵥ v) ^ 2).sum := by
    apply List.single_le_sum
    · intro x hx
      obtain ⟨b, -, rfl⟩ := List.mem_map.1 hx
      exact sq_nonneg _
    · exact List.mem_map.2 ⟨a, ha, rfl⟩
  exact pow_eq_zero_iff (by norm_num) |>.1 (le_antisymm (h3.trans h1) (sq_nonneg _))

/-- What the two rows of a view say about a homogeneous vector. -/
private theorem rows_null (intr R : Mat3 ℝ) (T : Vec3 ℝ) (p : ℝ × ℝ) (v : Vec4 ℝ) :
    (∀ a ∈ rowsOf (RT2Proj (intr * R) (intr.mulVec T)) p, a ⬝ᵥ v = 0) ↔
      (let y := intr.mulVec (R.mulVec ![v 0, v 1, v 2] + v 3 • T); y 0 = p.1 * y 2 ∧ y 1 = p.2 * y 2) := by
  have e : ∀ i, intr.mulVec (R.mulVec ![v 0, v 1, v 2] + v 3 • T) i =
      (intr * R) i 0 * v 0 + (intr * R) i 1 * v 1 + (intr * R) i 2 * v 2 + intr.mulVec T i * v 3 := by
    intro i
    rw [Matrix.mulVec_add, Matrix.mulVec_mulVec, Matrix.mulVec_smul]
    simp [Matrix.mulVec, dotProduct, Fin.sum_univ_three, Matrix.mul_apply]
    ring
  simp only [rowsOf, List.forall_mem_cons, dot4, e]
  constructor
  · rintro ⟨h1, h2, -⟩
    simp [RT2Proj] at h1 h2
    constructor <;> linarith
  · rintro ⟨h1, h2⟩
    refine ⟨?_, ?_, by simp⟩ <;> simp [RT2Proj] <;> linarith

/-- A null vector of the rows of a view is, seen from the centre, a multiple of the point. -/
private theorem ray {intr R : Mat3 ℝ} {T X c : Vec3 ℝ} {p : ℝ × ℝ} (hi : intr.det ≠ 0) (hR : R.det ≠ 0)
    (hX : Projects intr R T X p) (hc : Centre R T c) {v : Vec4 ℝ}
    (h : ∀ a ∈ rowsOf (RT2Proj (intr * R) (intr.mulVec T)) p, a ⬝ᵥ v = 0) :
    ∃ s : ℝ, ![v 0, v 1, v 2] - v 3 • c = s • (X - c) := by
  obtain ⟨h1, h2⟩ := (rows_null intr R T p v).1 h
  obtain ⟨g0, g1, g2⟩ := hX
  have hT : T = -R.mulVec c := by
    have : R.mulVec c + T = 0 := hc
    exact eq_neg_of_add_eq_zero_right this
  have e1 : R.mulVec ![v 0, v 1, v 2] + v 3 • T = R.mulVec (![v 0, v 1, v 2] - v 3 • c) := by
    rw [hT, Matrix.mulVec_sub, Matrix.mulVec_smul, smul_neg, sub_eq_add_neg]
  have e2 : R.mulVec X + T = R.mulVec (X - c) := by
    rw [hT, Matrix.mulVec_sub, sub_eq_add_neg]
  rw [e1, Matrix.mulVec_mulVec] at h1 h2
  rw [e2, Matrix.mulVec_mulVec] at g0 g1 g2
  have hdet : (intr * R).det ≠ 0 := by rw [Matrix.det_mul]; exact mul_ne_zero hi hR
  generalize hM : intr * R = M at *
  generalize hd : ![v 0, v 1, v 2] - v 3 • c = d at *
  generalize hx : X - c = x at *
  refine ⟨M.mulVec d 2 / M.mulVec x 2, ?_⟩
  have hinj : Function.Injective M.mulVec := Matrix.mulVec_injective_iff_isUnit.2
    ((Matrix.isUnit_iff_isUnit_det M).2 (isUnit_iff_ne_zero.2 hdet))
  apply hinj
  rw [Matrix.mulVec_smul]
  ext i
  fin_cases i
  · simp only [Fin.zero_eta, Pi.smul_apply, smul_eq_mul]
    rw [h1, g1]
    field_simp
  · simp only [Fin.mk_one, Pi.smul_apply, smul_eq_mul]
    rw [h2, g2]
    field_simp
  · show M.mulVec d 2 = (M.mulVec d 2 / M.mulVec x 2) * M.mulVec x 2
    field_simp

/-- The true point is a null vector of the rows of a view. -/
private theorem point_null {intr R : Mat3 ℝ} {T X : Vec3 ℝ} {p : ℝ × ℝ} (hX : Projects intr R T X p) :
    ∀ a ∈ rowsOf (RT2Proj (intr * R) (intr.mulVec T)) p, a ⬝ᵥ ![X 0, X 1, X 2, 1] = 0 := by
  obtain ⟨g0, g1, g2⟩ := hX
  rw [rows_null]
  have : (![(![X 0, X 1, X 2, 1] : Vec4 ℝ) 0, (![X 0, X 1, X 2, 1] : Vec4 ℝ) 1, (![X 0, X 1, X 2, 1] : Vec4 ℝ) 2] : Vec3 ℝ) = X := by
    ext i; fin_cases i <;> rfl
  rw [this]
  have h3 : (![X 0, X 1, X 2, 1] : Vec4 ℝ) 3 = 1 := rfl
  rw [h3, one_smul]
  constructor
  · rw [g1]; field_simp
  · rw [g2]; field_simp

/-- The matrix built by the loop. -/
private theorem matrix_ok {K : Type} [Field K] (ro : Rodrigues K) (intr : Mat3 K) (pts : List (K × K)) (trans : List (Vec3 K)) :
    ∀ (rots : List (Vec3 K)) (k : Nat) (A : List (Vec4 K)), k + rots.length ≤ trans.length → k + rots.length ≤ pts.length →
      ∃ B, Outcome.foldlM (viewStep ro pts trans intr) A (rots.zipIdx k) = .ok (A ++ B) ∧ B.length = 2 * rots.length ∧
        ∀ a, a ∈ B ↔ ∃ (i : Nat) (r T : Vec3 K) (p : K × K), rots[i]? = some r ∧ trans[k + i]? = some T ∧
          pts[k + i]? = some p ∧ a ∈ rowsOf (RT2Proj (intr * ro.toMat r) (intr.mulVec T)) p
  | [], k, A, _, _ => ⟨[], by simp, rfl, by simp⟩
  | r :: rots, k, A, h1, h2 => by
    rw [List.length_cons] at h1 h2
    have ht : trans[k]? = some trans[k] := List.getElem?_eq_getElem (by omega)
    have hp : pts[k]? = some pts[k] := List.getElem?_eq_getElem (by omega)
    obtain ⟨B, e1, e2, e3⟩ := matrix_ok ro intr pts trans rots (k + 1)
      (A ++ rowsOf (RVecT2ProjInt ro r trans[k] intr) pts[k]) (by omega) (by omega)
    refine ⟨rowsOf (RVecT2ProjInt ro r trans[k] intr) pts[k] ++ B, ?_, ?_, ?_⟩
    · rw [List.zipIdx_cons, Outcome.foldlM_cons, viewStep, Outcome.idx_of_getElem? ht, Outcome.bind_ok,
        Outcome.idx_of_getElem? hp, Outcome.bind_ok, Outcome.pure_eq, Outcome.bind_ok, e1, List.append_assoc]
    · rw [List.length_append, e2, List.length_cons]
      simp [rowsOf]
      omega
    · intro a
      rw [List.mem_append, e3]
      constructor
      · rintro (h | ⟨i, r', T, p, f1, f2, f3, f4⟩)
        · exact ⟨0, r, _, _, rfl, ht, hp, h⟩
        · exact ⟨i + 1, r', T, p, f1, by rw [← f2]; congr 1; omega, by rw [← f3]; congr 1; omega, f4⟩
      · rintro ⟨i, r', T, p, f1, f2, f3, f4⟩
        cases i with
        | zero =>
          rw [List.getElem?_cons_zero, Option.some.injEq] at f1
          rw [Nat.add_zero, ht, Option.some.injEq] at f2
          rw [Nat.add_zero, hp, Option.some.injEq] at f3
          subst f1 f2 f3
          exact .inl f4
        | succ i =>
          exact .inr ⟨i, r', T, p, f1, by rw [← f2]; congr 1; omega, by rw [← f3]; congr 1; omega, f4⟩

/-- Two views from which the point is seen in different directions. -/
def Parallax (ro : Rodrigues ℝ) (rots trans : List (Vec3 ℝ)) (X : Vec3 ℝ) : Prop :=
  ∃ (i j : Nat) (r T r' T' c c' : Vec3 ℝ), rots[i]? = some r ∧ trans[i]? = some T ∧ rots[j]? = some r' ∧
    trans[j]? = some T' ∧ Centre (ro.toMat r) T c ∧ Centre (ro.toMat r') T' c' ∧
    LinearIndependent ℝ ![X - c, X - c']

/-- C68: if every pixel is the exact projection (without distortion) of one point, and the point is seen in different
directions by two of the cameras, the triangulation gives that point. -/
theorem C68_exact (svd : List (Vec4 ℝ) → Vec4 ℝ) (hsvd : ∀ A, 4 ≤ A.length → LastRight A (svd A)) (ro : Rodrigues ℝ)
    (hro : ro.Sound) (intr : Mat3 ℝ) (hi : intr.det ≠ 0) (pts : List (ℝ × ℝ)) (rots trans : List (Vec3 ℝ))
    (ht : rots.length ≤ trans.length) (hp : rots.length ≤ pts.length) (X : Vec3 ℝ)
    (hX : ∀ (i : Nat) r T p, rots[i]? = some r → trans[i]? = some T → pts[i]? = some p → Projects intr (ro.toMat r) T X p)
    (hpar : Parallax ro rots trans X) :
    triangulate svd ro pts rots trans intr = .ok (some X) := by
  have hdet : ∀ r, (ro.toMat r).det ≠ 0 := fun r => by rw [(hro.rot r).det]; exact one_ne_zero
  obtain ⟨A, e1, e2, e3⟩ := matrix_ok ro intr pts trans rots 0 [] (by omega) (by omega)
  rw [List.nil_append] at e1
  simp only [Nat.zero_add] at e3
  obtain ⟨i, j, r, T, r', T', c, c', h1, h2, h3, h4, h5, h6, h7⟩ := hpar
  have hil := (List.getElem?_eq_some_iff.1 h1).1
  have hjl := (List.getElem?_eq_some_iff.1 h3).1
  have hij : i ≠ j := by
    rintro rfl
    rw [h1, Option.some.injEq] at h3
    rw [h2, Option.some.injEq] at h4
    subst h3 h4
    have hcc : c = c' := by
      have hinj : Function.Injective (ro.toMat r).mulVec := Matrix.mulVec_injective_iff_isUnit.2
        ((Matrix.isUnit_iff_isUnit_det _).2 (isUnit_iff_ne_zero.2 (hdet r)))
      apply hinj
      have a : (ro.toMat r).mulVec c + T = 0 := h5
      have b : (ro.toMat r).mulVec c' + T = 0 := h6
      rw [eq_neg_of_add_eq_zero_left a, eq_neg_of_add_eq_zero_left b]
    subst hcc
    have := (LinearIndependent.pair_iff.1 h7) 1 (-1) (by simp)
    simp at this
  have hlen : 4 ≤ A.length := by omega
  have hv := hsvd A hlen
  generalize hsv : svd A = v at hv
  have hnull : ∀ a ∈ A, a ⬝ᵥ v = 0 := by
    refine last_null (w := ![X 0, X 1, X 2, 1]) hv ?_ ?_
    · intro h0
      have := congrFun h0 3
      simp at this
    · intro a ha
      obtain ⟨k, rk, Tk, pk, f1, f2, f3, f4⟩ := (e3 a).1 ha
      exact point_null (hX k rk Tk pk f1 f2 f3) a f4
  have seen : ∀ (k : Nat) r T c, rots[k]? = some r → trans[k]? = some T → Centre (ro.toMat r) T c →
      ∃ s : ℝ, ![v 0, v 1, v 2] - v 3 • c = s • (X - c) := by
    intro k r T c k1 k2 k3
    have hk := (List.getElem?_eq_some_iff.1 k1).1
    have hpk : pts[k]? = some pts[k] := List.getElem?_eq_getElem (by omega)
    exact ray hi (hdet r) (hX k r T _ k1 k2 hpk) k3 fun a ha => hnull a ((e3 a).2 ⟨k, r, T, _, k1, k2, hpk, ha⟩)
  obtain ⟨s, hs⟩ := seen i r T c h1 h2 h5
  obtain ⟨s', hs'⟩ := seen j r' T' c' h3 h4 h6
  have key : (s - v 3) • (X - c) + (-(s' - v 3)) • (X - c') = 0 := by
    have a : (s - v 3) • (X - c) = ![v 0, v 1, v 2] - v 3 • X := by
      rw [sub_smul, ← hs, smul_sub]; abel
    have b : (s' - v 3) • (X - c') = ![v 0, v 1, v 2] - v 3 • X := by
      rw [sub_smul, ← hs', smul_sub]; abel
    rw [neg_smul, a, b]; abel
  have hz := (LinearIndependent.pair_iff.1 h7 _ _ key).1
  have hsw : s = v 3 := by linarith
  rw [hsw, smul_sub] at hs
  have hx : ![v 0, v 1, v 2] = v 3 • X := by
    have := congrArg (· + v 3 • c) hs
    simpa using this
  have h0 : v 0 = v 3 * X 0 := congrFun hx 0
  have h1' : v 1 = v 3 * X 1 := congrFun hx 1
  have h2' : v 2 = v 3 * X 2 := congrFun hx 2
  have hw : v 3 ≠ 0 := by
    intro hw
    have := hv.1
    rw [dot4, h0, h1', h2', hw] at this
    simp at this
  unfold triangulate
  rw [e1, Outcome.bind_ok, solve, if_neg (by omega), hsv, dehomogenise, if_neg hw, h0, h1', h2']
  congr 2
  ext k
  fin_cases k <;> simp <;> field_simp

/-- C68: with fewer than two views the call throws; with fewer pixels or translations than rotations it reads out of
range. -/
theorem C68_few {K : Type} [Field K] [DecidableEq K] (svd : List (Vec4 K) → Vec4 K) (ro : Rodrigues K) (intr : Mat3 K)
    (pts : List (K × K)) (rots trans : List (Vec3 K)) :
    (rots.length < 2 → rots.length ≤ trans.length → rots.length ≤ pts.length →
      triangulate svd ro pts rots trans intr = .throw) ∧
    (trans.length < rots.length ∨ pts.length < rots.length → triangulate svd ro pts rots trans intr = .ub) := by
  constructor
  · intro h ht hp
    obtain ⟨A, e1, e2, -⟩ := matrix_ok ro intr pts trans rots 0 [] (by omega) (by omega)
    rw [List.nil_append] at e1
    unfold triangulate
    rw [e1, Outcome.bind_ok, solve, if_pos (by omega)]
  · intro h
    have key : ∀ (l : List (Vec3 K)) (k : Nat) A, k ≤ trans.length → k ≤ pts.length →
        (trans.length < k + l.length ∨ pts.length < k + l.length) →
        Outcome.foldlM (viewStep ro pts trans intr) A (l.zipIdx k) = .ub := by
      intro l
      induction l with
      | nil => intro k A h1 h2 h3; simp at h3; omega
      | cons r l ih =>
        intro k A h1 h2 h3
        rw [List.length_cons] at h3
        rw [List.zipIdx_cons, Outcome.foldlM_cons, viewStep]
        by_cases hk : k < trans.length
        · rw [Outcome.idx_of_getElem? (List.getElem?_eq_getElem hk), Outcome.bind_ok]
          by_cases hk' : k < pts.length
          · rw [Outcome.idx_of_getElem? (List.getElem?_eq_getElem hk'), Outcome.bind_ok, Outcome.pure_eq, Outcome.bind_ok]
            exact ih (k + 1) _ hk hk' (by omega)
          · simp [Outcome.idx, List.getElem?_eq_none (not_lt.1 hk')]
        · simp [Outcome.idx, List.getElem?_eq_none (not_lt.1 hk)]
    unfold triangulate
    rw [key rots 0 [] (by omega) (by omega) (by omega)]
    rfl

/-! ### Robust triangulation -/

section
variable {R T P2 P E : Type} [LinearOrder E]

/-- Order of the views at the k-th trial. -/
def order (lib : Lib R T P2 P E) (n : Nat) : Nat → List Nat
  | 0 => lib.shuffle 0 (List.range n)
  | k + 1 => lib.shuffle (k + 1) (order lib n k)

/-- `x` is the point triangulated from the first two views of the k-th order. -/
def Candidate (lib : Lib R T P2 P E) (pts : List P2) (rots : List R) (trans : List T) (k : Nat) (x : P) : Prop :=
  ∃ (a b : Nat) (p p' : P2) (r r' : R) (t t' : T), a ≠ b ∧ (order lib pts.length k)[0]? = some a ∧
    (order lib pts.length k)[1]? = some b ∧ pts[a]? = some p ∧ pts[b]? = some p' ∧ rots[a]? = some r ∧
    rots[b]? = some r' ∧ trans[a]? = some t ∧ trans[b]? = some t' ∧ lib.tri [p, p'] [r, r'] [t, t'] = .ok x

/-- The view `i` agrees with a point: its error is below the threshold. -/
def Agrees (lib : Lib R T P2 P E) (pts : List P2) (rots : List R) (trans : List T) (x : P) (i : Nat) : Prop :=
  ∃ r t p, rots[i]? = some r ∧ trans[i]? = some t ∧ pts[i]? = some p ∧ lib.err x r t p < lib.thresh

open Classical in
/-- The number of views that agree with a point. -/
noncomputable def votes (lib : Lib R T P2 P E) (pts : List P2) (rots : List R) (trans : List T) (x : P) : Nat :=
  ((List.range pts.length).filter fun i => decide (Agrees lib pts rots trans x i)).length

omit [LinearOrder E] in
private theorem order_perm (lib : Lib R T P2 P E) (hs : ∀ k l, (lib.shuffle k l).Perm l) (n k : Nat) :
    (order lib n k).Perm (List.range n) := by
  induction k with
  | zero => exact hs 0 _
  | succ k ih => exact (hs (k + 1) _).trans ih

private theorem support_ok (lib : Lib R T P2 P E) (pts : List P2) (rots : List R) (trans : List T)
    (hr : rots.length = pts.length) (ht : trans.length = pts.length) (x : P) :
    support lib pts rots trans x = .ok (votes lib pts rots trans x) := by
  classical
  have key : ∀ k, k ≤ rots.length →
      Outcome.foldlM (testView lib pts trans x) 0 (rots.zipIdx.take k) =
        .ok ((List.range k).filter fun i => decide (Agrees lib pts rots trans x i)).length := by
    intro k
    induction k with
    | zero => intro _; simp
    | succ k ih =>
      intro hk
      have hk' : k < rots.zipIdx.length := by simp; omega
      rw [List.take_succ_eq_append_getElem hk', Outcome.foldlM_append, ih (by omega), Outcome.bind_ok]
      simp only [Outcome.foldlM_cons, Outcome.foldlM_nil, List.getElem_zipIdx, Nat.zero_add]
      have h1 : rots[k]? = some rots[k] := List.getElem?_eq_getElem (by omega)
      have h2 : trans[k]? = some trans[k] := List.getElem?_eq_getElem (by omega)
      have h3 : pts[k]? = some pts[k] := List.getElem?_eq_getElem (by omega)
      have hz : Agrees lib pts rots trans x k ↔ lib.err x rots[k] trans[k] pts[k] < lib.thresh := by
        constructor
        · rintro ⟨r, t, p, a, b, c, d⟩
          rw [h1, Option.some.injEq] at a
          rw [h2, Option.some.injEq] at b
          rw [h3, Option.some.injEq] at c
          subst a b c
          exact d
        · exact fun h => ⟨_, _, _, h1, h2, h3, h⟩
      rw [List.range_succ, List.filter_append, List.filter_cons, List.filter_nil]
      unfold testView
      rw [Outcome.idx_of_getElem? h2, Outcome.bind_ok, Outcome.idx_of_getElem? h3]
      by_cases he : lib.err x rots[k] trans[k] pts[k] < lib.thresh <;> simp [he, hz]
  have := key rots.length le_rfl
  rw [List.take_of_length_le (by simp)] at this
  rw [support, this, votes, hr]

omit [LinearOrder E] in
private theorem candidate_ok (lib : Lib R T P2 P E)
    (htri : ∀ p p' r r' t t', ∃ x, lib.tri [p, p'] [r, r'] [t, t'] = .ok x) (pts : List P2) (rots : List R)
    (trans : List T) (hr : rots.length = pts.length) (ht : trans.length = pts.length) (hn : 4 ≤ pts.length)
    (vec : List Nat) (hv : vec.Perm (List.range pts.length)) :
    ∃ (x : P) (a b : Nat) (p p' : P2) (r r' : R) (t t' : T), candidate lib pts rots trans vec = .ok x ∧ a ≠ b ∧
      vec[0]? = some a ∧ vec[1]? = some b ∧ pts[a]? = some p ∧ pts[b]? = some p' ∧ rots[a]? = some r ∧
      rots[b]? = some r' ∧ trans[a]? = some t ∧ trans[b]? = some t' ∧ lib.tri [p, p'] [r, r'] [t, t'] = .ok x := by
  have hlen : vec.length = pts.length := by rw [hv.length_eq, List.length_range]
  match vec, hv, hlen with
  | a :: b :: c :: d :: rest, hv, _ =>
    have hm : ∀ x ∈ a :: b :: c :: d :: rest, x < pts.length := fun x hx => List.mem_range.1 (hv.mem_iff.1 hx)
    have ha := hm a (by simp)
    have hb := hm b (by simp)
    have hnd := hv.nodup_iff.2 List.nodup_range
    have pa : pts[a]? = some pts[a] := List.getElem?_eq_getElem ha
    have pb : pts[b]? = some pts[b] := List.getElem?_eq_getElem hb
    have ra : rots[a]? = some rots[a] := List.getElem?_eq_getElem (by omega)
    have rb : rots[b]? = some rots[b] := List.getElem?_eq_getElem (by omega)
    have ta : trans[a]? = some trans[a] := List.getElem?_eq_getElem (by omega)
    have tb : trans[b]? = some trans[b] := List.getElem?_eq_getElem (by omega)
    obtain ⟨x, hx⟩ := htri pts[a] pts[b] rots[a] rots[b] trans[a] trans[b]
    refine ⟨x, a, b, _, _, _, _, _, _, ?_, ?_, rfl, rfl, pa, pb, ra, rb, ta, tb, hx⟩
    · simp [candidate, Outcome.idx, pa, pb, ra, rb, ta, tb, hx]
    · rintro rfl
      simp at hnd
  | [], _, h => simp at h; omega
  | [_], _, h => simp at h; omega
  | [_, _], _, h => simp at h; omega
  | [_, _, _], _, h => simp at h; omega

/-- State of the search after `k` trials, `cand` being the points tried. -/
private structure After (lib : Lib R T P2 P E) (pts : List P2) (rots : List R) (trans : List T) (it : Nat) (init : P)
    (cand : Nat → P) (k : Nat) (st : St P) : Prop where
  count : st.count = k
  vec : lib.shuffle k st.vec = order lib pts.length k
  le : ∀ i < k, votes lib pts rots trans (cand i) ≤ st.bestNb
  best : (st.bestNb = 0 ∧ st.best = init ∧ st.N = it ∧ st.trial = k) ∨
    ∃ j < k, st.best = cand j ∧ st.bestNb = votes lib pts rots trans st.best ∧ 0 < st.bestNb ∧
      (∀ i < j, votes lib pts rots trans (cand i) < st.bestNb) ∧ st.N = lib.trials st.bestNb pts.length ∧
      st.trial = k - 1 - j ∧ (k = j + 1 ∨ (st.trial : Int) ≤ st.N)

private theorem step_after (lib : Lib R T P2 P E) (hs : ∀ k l, (lib.shuffle k l).Perm l) (pts : List P2) (rots : List R)
    (trans : List T) (hr : rots.length = pts.length) (ht : trans.length = pts.length) (it : Nat) (init : P)
    (cand : Nat → P) (hcand : ∀ k, candidate lib pts rots trans (order lib pts.length k) = .ok (cand k)) (k : Nat)
    (st : St P) (h : After lib pts rots trans it init cand k st) (hgo : (st.trial : Int) < st.N) :
    ∃ st', step lib pts rots trans st = .ok st' ∧ After lib pts rots trans it init cand (k + 1) st' := by
  have e : step lib pts rots trans st = .ok
      { keepBest lib pts.length { st with vec := order lib pts.length k, trial := st.trial + 1 } (cand k)
          (votes lib pts rots trans (cand k)) with count := st.count + 1 } := by
    unfold step
    simp only []
    rw [h.count, h.vec, hcand, Outcome.bind_ok, support_ok lib pts rots trans hr ht, Outcome.bind_ok]
    unfold keepBest
    simp only [Outcome.pure_eq]
    split_ifs <;> simp [h.count]
  refine ⟨_, e, ?_⟩
  unfold keepBest
  simp only []
  by_cases hb : st.bestNb < votes lib pts rots trans (cand k)
  · rw [if_pos hb]
    refine ⟨by simp [h.count], rfl, ?_, .inr ⟨k, by omega, rfl, rfl, by simp only []; omega, ?_, rfl, by simp, .inl rfl⟩⟩
    · intro i hi
      rcases Nat.lt_succ_iff_lt_or_eq.1 hi with hi | rfl
      · exact (h.le i hi).trans hb.le
      · exact le_rfl
    · intro i hi
      exact lt_of_le_of_lt (h.le i hi) hb
  · rw [if_neg hb]
    refine ⟨by simp [h.count], rfl, ?_, ?_⟩
    · intro i hi
      rcases Nat.lt_succ_iff_lt_or_eq.1 hi with hi | rfl
      · exact h.le i hi
      · exact not_lt.1 hb
    · rcases h.best with ⟨b1, b2, b3, b4⟩ | ⟨j, b0, b1, b2, b3, b4, b5, b6, b7⟩
      · exact .inl ⟨b1, b2, b3, by simp [b4]⟩
      · exact .inr ⟨j, by omega, b1, b2, b3, b4, b5, by simp only []; omega, .inr (by simp only []; push_cast; omega)⟩

private theorem loop_after (lib : Lib R T P2 P E) (hs : ∀ k l, (lib.shuffle k l).Perm l) (pts : List P2) (rots : List R)
    (trans : List T) (hr : rots.length = pts.length) (ht : trans.length = pts.length) (it : Nat) (init : P)
    (cand : Nat → P) (hcand : ∀ k, candidate lib pts rots trans (order lib pts.length k) = .ok (cand k)) :
    ∀ (m k : Nat) (st : St P), After lib pts rots trans it init cand k st →
      ∃ n st', loop lib pts rots trans m st = .ok st' ∧ After lib pts rots trans it init cand n st' ∧ n ≤ k + m ∧
        (n = k + m ∨ st'.N ≤ st'.trial)
  | 0, k, st, h => ⟨k, st, rfl, h, le_rfl, .inl rfl⟩
  | m + 1, k, st, h => by
    unfold loop
    by_cases hgo : (st.trial : Int) < st.N
    · rw [if_pos hgo]
      obtain ⟨st', e, h'⟩ := step_after lib hs pts rots trans hr ht it init cand hcand k st h hgo
      rw [e, Outcome.bind_ok]
      obtain ⟨n, st'', a, b, c, d⟩ := loop_after lib hs pts rots trans hr ht it init cand hcand m (k + 1) st' h'
      exact ⟨n, st'', a, b, by omega, by omega⟩
    · rw [if_neg hgo]
      exact ⟨k, st, rfl, h, by omega, .inr (by omega)⟩

/-- C68: with at least four views the robust triangulation returns after some number `n ≤ it` of trials, whatever the
shuffles and the stopping rule.  Either no point tried agrees with any view: then all `it` trials were done and the
caller's point is left as it was; or the result is a tried point, no tried point agrees with more views, and it is the first
with that many.  The search stops exactly when, since the last improvement, as many trials were done as the stopping rule
asks for, or at `it`. -/
theorem C68_search (lib : Lib R T P2 P E) (hs : ∀ k l, (lib.shuffle k l).Perm l)
    (htri : ∀ p p' r r' t t', ∃ x, lib.tri [p, p'] [r, r'] [t, t'] = .ok x) (pts : List P2) (rots : List R)
    (trans : List T) (hr : rots.length = pts.length) (ht : trans.length = pts.length) (hn : 4 ≤ pts.length) (it : Nat)
    (init : P) :
    ∃ cand : Nat → P, (∀ k, Candidate lib pts rots trans k (cand k)) ∧
    ∃ n ≤ it, ∃ x, ransacTriangulation lib pts rots trans it init = .ok x ∧
      ((x = init ∧ n = it ∧ ∀ i < n, votes lib pts rots trans (cand i) = 0) ∨
       ∃ j < n, x = cand j ∧ 0 < votes lib pts rots trans x ∧
        (∀ i < n, votes lib pts rots trans (cand i) ≤ votes lib pts rots trans x) ∧
        (∀ i < j, votes lib pts rots trans (cand i) < votes lib pts rots trans x) ∧
        (n = it ∨ lib.trials (votes lib pts rots trans x) pts.length ≤ (n : Int) - 1 - j) ∧
        (j + 1 < n → (n : Int) - 1 - j ≤ lib.trials (votes lib pts rots trans x) pts.length)) := by
  have hall : ∀ k, ∃ x, candidate lib pts rots trans (order lib pts.length k) = .ok x ∧
      Candidate lib pts rots trans k x := by
    intro k
    obtain ⟨x, a, b, p, p', r, r', t, t', h1, h2⟩ :=
      candidate_ok lib htri pts rots trans hr ht hn _ (order_perm lib hs pts.length k)
    exact ⟨x, h1, a, b, p, p', r, r', t, t', h2⟩
  choose cand hc1 hc2 using hall
  refine ⟨cand, hc2, ?_⟩
  obtain ⟨n, st, h1, h2, h4, h5⟩ := loop_after lib hs pts rots trans hr ht it init cand hc1 it 0
    { N := it, trial := 0, count := 0, vec := List.range pts.length, best := init, bestNb := 0 }
    ⟨rfl, rfl, by simp, .inl ⟨rfl, rfl, rfl, rfl⟩⟩
  rw [Nat.zero_add] at h4 h5
  refine ⟨n, h4, st.best, ?_, ?_⟩
  · unfold ransacTriangulation
    rw [h1, Outcome.bind_ok]
  · rcases h2.best with ⟨e1, e2, e3, e4⟩ | ⟨j, hj, e1, e2, e3, e4, e5, e6, e7⟩
    · refine .inl ⟨e2, ?_, fun i hi => by have := h2.le i hi; omega⟩
      rcases h5 with h5 | h5
      · exact h5
      · rw [e3, e4] at h5; omega
    · refine .inr ⟨j, hj, e1, by omega, fun i hi => by have := h2.le i hi; omega, fun i hi => by have := e4 i hi; omega, ?_, ?_⟩
      · rcases h5 with h5 | h5
        · left; exact h5
        · right; rw [← e2, ← e5]; omega
      · intro hjn
        rw [← e2, ← e5]; omega

/-- C68: with fewer than four views (and at least one trial allowed) the indexes are read out of range, although only two
views are used. -/
theorem C68_few_views (lib : Lib R T P2 P E) (hs : ∀ k l, (lib.shuffle k l).Perm l) (pts : List P2) (rots : List R)
    (trans : List T) (hn : pts.length < 4) (it : Nat) (hit : 0 < it) (init : P) :
    ransacTriangulation lib pts rots trans it init = .ub := by
  obtain ⟨it, rfl⟩ : ∃ k, it = k + 1 := ⟨it - 1, by omega⟩
  unfold ransacTriangulation loop
  have h : (((0 : Nat) : Int) < ((it + 1 : Nat) : Int)) := by push_cast; omega
  simp only []
  rw [if_pos h]
  unfold step
  simp only []
  have hl : (lib.shuffle 0 (List.range pts.length)).length < 4 := by rw [(hs _ _).length_eq, List.length_range]; exact hn
  have : candidate lib pts rots trans (lib.shuffle 0 (List.range pts.length)) = .ub := by
    generalize lib.shuffle 0 (List.range pts.length) = vec at hl
    match vec, hl with
    | [], _ => simp [candidate, Outcome.idx]
    | [_], _ => simp [candidate, Outcome.idx]
    | [_, _], _ => simp [candidate, Outcome.idx]
    | [_, _, _], _ => simp [candidate, Outcome.idx]
  rw [this]
  rfl

end

/-- C68: end to end, for exact pixels of one point seen by at least four cameras, each two of which see it in different
directions: the robust triangulation gives the point, whatever the shuffles, as soon as one trial is allowed. -/
theorem C68_robust_exact (svd : List (Vec4 ℝ) → Vec4 ℝ) (hsvd : ∀ A, 4 ≤ A.length → LastRight A (svd A))
    (ro : Rodrigues ℝ) (hro : ro.Sound) (intr : Mat3 ℝ) (hi : intr.det ≠ 0)
    (lib : Lib (Vec3 ℝ) (Vec3 ℝ) (ℝ × ℝ) (Option (Vec3 ℝ)) ℝ) (hs : ∀ k l, (lib.shuffle k l).Perm l)
    (htri : lib.tri = fun p r t => triangulate svd ro p r t intr)
    (herr : ∀ X r t p, Projects intr (ro.toMat r) t X p → lib.err (some X) r t p < lib.thresh)
    (pts : List (ℝ × ℝ)) (rots trans : List (Vec3 ℝ)) (hr : rots.length = pts.length)
    (ht : trans.length = pts.length) (hn : 4 ≤ pts.length) (X : Vec3 ℝ)
    (hX : ∀ (i : Nat) r T p, rots[i]? = some r → trans[i]? = some T → pts[i]? = some p → Projects intr (ro.toMat r) T X p)
    (hpar : ∀ (i j : Nat) r T r' T', i ≠ j → rots[i]? = some r → trans[i]? = some T → rots[j]? = some r' →
      trans[j]? = some T' → Parallax ro [r, r'] [T, T'] X)
    (it : Nat) (hit : 0 < it) (init : Option (Vec3 ℝ)) :
    ransacTriangulation lib pts rots trans it init = .ok (some X) := by
  have htot : ∀ p p' r r' t t', ∃ x, lib.tri [p, p'] [r, r'] [t, t'] = .ok x := by
    intro p p' r r' t t'
    obtain ⟨A, e1, e2, -⟩ := matrix_ok ro intr [p, p'] [t, t'] [r, r'] 0 [] (by simp) (by simp)
    rw [List.nil_append] at e1
    rw [htri]
    unfold triangulate
    simp only []
    rw [e1, Outcome.bind_ok, solve, if_neg (by rw [e2]; simp)]
    exact ⟨_, rfl⟩
  obtain ⟨cand, hc, n, hnit, x, h1, h2⟩ := C68_search lib hs htot pts rots trans hr ht hn it init
  have hcX : ∀ k, cand k = some X := by
    intro k
    obtain ⟨a, b, p, p', r, r', t, t', hab, -, -, c1, c2, c3, c4, c5, c6, c7⟩ := hc k
    have := C68_exact svd hsvd ro hro intr hi [p, p'] [r, r'] [t, t'] (by simp) (by simp) X ?_
      (hpar a b r t r' t' hab c3 c5 c4 c6)
    · rw [htri] at c7
      simp only [] at c7
      rw [this] at c7
      exact (Outcome.ok.inj c7).symm
    · intro i ri Ti pi d1 d2 d3
      match i, d1, d2, d3 with
      | 0, d1, d2, d3 =>
        simp only [List.getElem?_cons_zero, Option.some.injEq] at d1 d2 d3
        subst d1 d2 d3
        exact hX a _ _ _ c3 c5 c1
      | 1, d1, d2, d3 =>
        simp only [List.getElem?_cons_succ, List.getElem?_cons_zero, Option.some.injEq] at d1 d2 d3
        subst d1 d2 d3
        exact hX b _ _ _ c4 c6 c2
      | i + 2, d1, _, _ => simp at d1
  rw [h1]
  rcases h2 with ⟨-, h3, h4⟩ | ⟨j, -, h3, -⟩
  · exfalso
    have h0 := h4 0 (by omega)
    rw [hcX, votes, List.length_eq_zero_iff, List.filter_eq_nil_iff] at h0
    refine h0 0 (List.mem_range.2 (by omega)) ?_
    have a1 : rots[0]? = some rots[0] := List.getElem?_eq_getElem (by omega)
    have a2 : trans[0]? = some trans[0] := List.getElem?_eq_getElem (by omega)
    have a3 : pts[0]? = some pts[0] := List.getElem?_eq_getElem (by omega)
    simp only [decide_eq_true_eq]
    exact ⟨_, _, _, a1, a2, a3, herr _ _ _ _ (hX 0 _ _ _ a1 a2 a3)⟩
  · rw [h3, hcX]

/-! ### A concrete case: the point (0, 0, 1), seen by four cameras at (0, 0, 0), (1, 0, 0), (2, 0, 0), (3, 0, 0) -/

private theorem rod_zero : Lemmas.Rodrigues.rod.toMat 0 = 1 := by
  show Lemmas.Rodrigues.rodMat 0 = 1
  have h : Lemmas.Rodrigues.angle 0 = 0 := by simp [Lemmas.Rodrigues.angle]
  rw [Lemmas.Rodrigues.rodMat_eq, Lemmas.Rodrigues.axisQuat_zero h]
  ext i j
  fin_cases i <;> fin_cases j <;> simp [Quaternion.ofQuat] <;> norm_num

private noncomputable def shift (i : Nat) : Vec3 ℝ := ![-(i : ℝ), 0, 0]

private theorem shift_projects (i : Nat) :
    Projects 1 (Lemmas.Rodrigues.rod.toMat 0) (shift i) ![0, 0, 1] (-(i : ℝ), 0) := by
  rw [rod_zero]
  simp [Projects, shift]

private theorem shift_parallax (i j : Nat) (h : i ≠ j) :
    Parallax Lemmas.Rodrigues.rod [0, 0] [shift i, shift j] ![0, 0, 1] := by
  refine ⟨0, 1, 0, shift i, 0, shift j, -shift i, -shift j, rfl, rfl, rfl, rfl, ?_, ?_, ?_⟩
  · simp [Centre, rod_zero]
  · simp [Centre, rod_zero]
  · rw [LinearIndependent.pair_iff]
    intro a b hab
    have h0 := congrFun hab 0
    have h2 := congrFun hab 2
    simp [shift] at h0 h2
    have hb : b = -a := by linarith
    subst hb
    have hij : (i : ℝ) - j ≠ 0 := by
      rw [sub_ne_zero]; exact_mod_cast h
    have : a * ((i : ℝ) - j) = 0 := by linarith
    rcases mul_eq_zero.1 this with ha | ha
    · simp [ha]
    · exact absurd ha hij

open Classical in
/-- C68: the hypotheses of `C68_robust_exact` can be met, by any function with the contract of `SVDecomp`. -/
theorem C68_example (svd : List (Vec4 ℝ) → Vec4 ℝ) (hsvd : ∀ A, 4 ≤ A.length → LastRight A (svd A)) :
    ransacTriangulation (E := ℝ)
      { tri := fun p r t => triangulate svd Lemmas.Rodrigues.rod p r t 1
        err := fun X r t p => if ∃ Y, X = some Y ∧ Projects 1 (Lemmas.Rodrigues.rod.toMat r) t Y p then 0 else 2
        thresh := 1, trials := fun _ _ => 0, shuffle := fun _ l => l.reverse }
      [(-(0 : Nat), 0), (-(1 : Nat), 0), (-(2 : Nat), 0), (-(3 : Nat), 0)] [0, 0, 0, 0]
      [shift 0, shift 1, shift 2, shift 3] 1000 none = .ok (some ![0, 0, 1]) := by
  refine C68_robust_exact svd hsvd _ Lemmas.Rodrigues.rod_sound 1 (by simp) _ (fun k l => l.reverse_perm) rfl ?_ _ _ _ rfl
    rfl (by simp) _ ?_ ?_ 1000 (by norm_num) none
  · intro X r t p h
    simp only []
    rw [if_pos ⟨X, rfl, h⟩]
    norm_num
  · intro i r T p h1 h2 h3
    match i, h1, h2, h3 with
    | 0, h1, h2, h3 | 1, h1, h2, h3 | 2, h1, h2, h3 | 3, h1, h2, h3 =>
      simp only [List.getElem?_cons_succ, List.getElem?_cons_zero, Option.some.injEq] at h1 h2 h3
      subst h1 h2 h3
      exact shift_projects _
    | i + 4, h1, _, _ => simp at h1
  · intro i j r T r' T' hij h1 h2 h3 h4
    have hi : i < 4 := by simpa using (List.getElem?_eq_some_iff.1 h1).1
    have hj : j < 4 := by simpa using (List.getElem?_eq_some_iff.1 h3).1
    have hr : ∀ k < 4, ([0, 0, 0, 0] : List (Vec3 ℝ))[k]? = some 0 := by
      intro k hk
      rcases (by omega : k = 0 ∨ k = 1 ∨ k = 2 ∨ k = 3) with rfl | rfl | rfl | rfl <;> rfl
    have ht : ∀ k < 4, ([shift 0, shift 1, shift 2, shift 3])[k]? = some (shift k) := by
      intro k hk
      rcases (by omega : k = 0 ∨ k = 1 ∨ k = 2 ∨ k = 3) with rfl | rfl | rfl | rfl <;> rfl
    rw [hr i hi, Option.some.injEq] at h1
    rw [hr j hj, Option.some.injEq] at h3
    rw [ht i hi, Option.some.injEq] at h2
    rw [ht j hj, Option.some.injEq] at h4
    subst h1 h2 h3 h4
    exact shift_parallax i j hij

end Verif.Props.Triangulate
