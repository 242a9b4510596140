import Verif.Model.HandEye
import Verif.Lemmas.RigidGroup
import Verif.Lemmas.Objects

namespace Verif.Lemmas.HandEye
open Verif Verif.Rigid Verif.HandEye Verif.Lemmas.Rigid

theorem maxNaN_idem (m : ℝ) (v : Option ℝ) : maxNaN (maxNaN m v) v = maxNaN m v := by
  cases v with
  | none => rfl
  | some v =>
    unfold maxNaN
    simp only []
    split_ifs <;> first | rfl | (exfalso; linarith)

theorem foldlM_max {α : Type} (f : ℝ → α → Outcome ℝ) (v : Option ℝ) (p : α → Bool) :
    ∀ (l : List α) (m : ℝ), (∀ m, ∀ x ∈ l, f m x = .ok (if p x then maxNaN m v else m)) →
      Outcome.foldlM f m l = .ok (if l.any p then maxNaN m v else m)
  | [], m, _ => by simp
  | x :: l, m, h => by
    rw [Outcome.foldlM_cons, h m x List.mem_cons_self, Outcome.bind_ok,
      foldlM_max f v p l _ (fun m y hy => h m y (List.mem_cons_of_mem _ hy)), List.any_cons]
    by_cases hp : p x = true
    · simp only [hp, if_true, Bool.true_or]
      split_ifs
      · rw [maxNaN_idem]
      · rfl
    · simp only [hp, Bool.false_or]
      rfl

/-- The pose pairs used are in range and rigid. -/
def Data (p1 p2 : List (Mat4 ℝ)) (sel : List Nat) : Prop :=
  ∀ s ∈ sel, ∃ a b, p1[s]? = some a ∧ p2[s]? = some b ∧ IsRigid a ∧ IsRigid b

theorem pairError_eq (lib : Lib) (hro : lib.ro.Sound) (a b X : Mat4 ℝ) (ha : IsRigid a) (hb : IsRigid b)
    (hX : IsRigid X) :
    pairError lib a b a b X = acosDegrees (0.5 * ((projRot X * projRot X).trace - lib.eps - 1)) := by
  unfold pairError
  simp only []
  rw [ha.inv_mul, hb.inv_mul, inv_one, Matrix.one_mul, Matrix.mul_one]
  have hE := hX.mul hX
  have e : lib.ro.toMat (Proj2RT lib.ro (X * X)).1 = projRot (X * X) := hro.back _ hE.rot
  rw [e]
  have : projRot (X * X) = projRot X * projRot X := by
    conv_lhs => rw [← hX.rebuild, RT2Proj_mul, projRot_RT2Proj]
  rw [this]

theorem innerStep_eq (lib : Lib) (hro : lib.ro.Sound) (p1 p2 : List (Mat4 ℝ)) (sel : List Nat) (X : Mat4 ℝ)
    (hX : IsRigid X) (i s : Nat) (hi : sel[i]? = some s) (a b : Mat4 ℝ) (ha : p1[s]? = some a)
    (hb : p2[s]? = some b) (ra : IsRigid a) (rb : IsRigid b) (m : ℝ) (j : Nat) :
    innerStep lib p1 p2 sel X i a b m j = .ok (if decide (i ≠ j) then
      maxNaN m (acosDegrees (0.5 * ((projRot X * projRot X).trace - lib.eps - 1))) else m) := by
  unfold innerStep
  by_cases h : i ≠ j
  · rw [if_pos h, if_pos (by simpa using h), Outcome.idx_of_getElem? hi, Outcome.bind_ok, Outcome.idx_of_getElem? ha,
      Outcome.bind_ok, Outcome.idx_of_getElem? hb, Outcome.bind_ok, pairError_eq lib hro a b X ra rb hX]
    rfl
  · rw [if_neg h, if_neg (by simpa using h)]

theorem other_index (n i : Nat) (hi : i < n) : ((List.range n).any fun j => decide (i ≠ j)) = decide (2 ≤ n) := by
  rw [Bool.eq_iff_iff, List.any_eq_true, decide_eq_true_eq]
  constructor
  · rintro ⟨j, hj, h⟩
    rw [List.mem_range] at hj
    have : i ≠ j := by simpa using h
    omega
  · intro h
    by_cases h0 : i = 0
    · exact ⟨1, List.mem_range.2 (by omega), by simp; omega⟩
    · exact ⟨0, List.mem_range.2 (by omega), by simp; omega⟩

theorem check_eq (lib : Lib) (hro : lib.ro.Sound) (p1 p2 : List (Mat4 ℝ)) (sel : List Nat) (X : Mat4 ℝ)
    (hX : IsRigid X) (hd : Data p1 p2 sel) :
    checkSetConsistency lib p1 p2 sel X = .ok (if 2 ≤ sel.length then
      maxNaN 0 (acosDegrees (0.5 * ((projRot X * projRot X).trace - lib.eps - 1))) else 0) := by
  unfold checkSetConsistency
  rw [foldlM_max _ (acosDegrees (0.5 * ((projRot X * projRot X).trace - lib.eps - 1)))
    (fun _ => decide (2 ≤ sel.length))]
  · by_cases h : 2 ≤ sel.length
    · have : ((List.range sel.length).any fun _ => decide (2 ≤ sel.length)) = true := by
        rw [List.any_eq_true]
        exact ⟨0, List.mem_range.2 (by omega), by simpa using h⟩
      rw [this, if_pos rfl, if_pos h]
    · have : ((List.range sel.length).any fun _ => decide (2 ≤ sel.length)) = false := by
        rw [List.any_eq_false]
        intro x _; simpa using h
      rw [this, if_neg h]
      rfl
  · intro m i hi
    rw [List.mem_range] at hi
    have hs : sel[i]? = some sel[i] := List.getElem?_eq_getElem hi
    obtain ⟨a, b, ha, hb, ra, rb⟩ := hd sel[i] (List.getElem_mem hi)
    unfold outerStep
    rw [Outcome.idx_of_getElem? hs, Outcome.bind_ok, Outcome.idx_of_getElem? ha, Outcome.bind_ok,
      Outcome.idx_of_getElem? hb, Outcome.bind_ok]
    rw [foldlM_max _ (acosDegrees (0.5 * ((projRot X * projRot X).trace - lib.eps - 1))) (fun j => decide (i ≠ j)) _ _
      (fun m j _ => innerStep_eq lib hro p1 p2 sel X hX i _ hs a b ha hb ra rb m j), other_index _ i hi]

/-- Trace of the square of a rotation. -/
theorem trace_sq (R : Mat3 ℝ) (h : IsRot R) : (R * R).trace = R.trace ^ 2 - 2 * R.trace := by
  have hc := h.cofactor
  have h0 := congrFun (congrFun hc 0) 0
  have h1 := congrFun (congrFun hc 1) 1
  have h2 := congrFun (congrFun hc 2) 2
  rw [Matrix.adjugate_fin_three] at h0 h1 h2
  simp only [Matrix.of_apply, Matrix.cons_val', Matrix.cons_val_zero, Matrix.cons_val_one, Matrix.cons_val,
    Matrix.transpose_apply, Matrix.cons_val_fin_one] at h0 h1 h2
  simp only [Matrix.trace_fin_three, Matrix.mul_apply, Fin.sum_univ_three]
  nlinarith [h0, h1, h2]

/-! ### Selection -/

theorem selectClusters_ok (shuffled : List Nat) : ∀ (n : Nat), n ≤ shuffled.length →
    Outcome.foldlM (selectClusterStep shuffled) [] (List.range n) = .ok (shuffled.take n)
  | 0, _ => by simp
  | n + 1, h => by
    have hn : shuffled[n]? = some shuffled[n] := List.getElem?_eq_getElem (by omega)
    rw [List.range_succ, Outcome.foldlM_append, selectClusters_ok shuffled n (by omega), Outcome.bind_ok,
      Outcome.foldlM_cons, selectClusterStep, Outcome.idx_of_getElem? hn]
    simp only [Outcome.bind_ok, Outcome.pure_eq, Outcome.foldlM_nil]
    rw [List.take_succ_eq_append_getElem (by omega)]

theorem selectClusters_ub (shuffled : List Nat) (n : Nat) (h : shuffled.length < n) :
    Outcome.foldlM (selectClusterStep shuffled) [] (List.range n) = .ub := by
  obtain ⟨d, rfl⟩ : ∃ d, n = shuffled.length + 1 + d := ⟨n - shuffled.length - 1, by omega⟩
  rw [List.range_add, Outcome.foldlM_append, List.range_succ, Outcome.foldlM_append,
    selectClusters_ok shuffled shuffled.length le_rfl, Outcome.bind_ok, Outcome.foldlM_cons, selectClusterStep,
    show Outcome.idx shuffled shuffled.length = .ub by rw [Outcome.idx_ub_iff]]
  rfl

theorem mem_members (labels : List Nat) (c i : Nat) : i ∈ members labels c ↔ labels[i]? = some c := by
  unfold members
  rw [List.mem_filter, List.mem_range, beq_iff_eq]
  constructor
  · exact fun h => h.2
  · exact fun h => ⟨(List.getElem?_eq_some_iff.1 h).1, h⟩

theorem selectPoses_ok (labels : List Nat) (pick : Nat → Nat → Nat) (hp : ∀ k n, 0 < n → pick k n < n) :
    ∀ (cs acc : List Nat), (∀ c ∈ cs, c ∈ labels) →
      ∃ sel, Outcome.foldlM (selectPoseStep labels pick) acc cs = .ok (acc ++ sel) ∧
        List.Forall₂ (fun c s => labels[s]? = some c) cs sel
  | [], acc, _ => ⟨[], by simp, List.Forall₂.nil⟩
  | c :: cs, acc, h => by
    obtain ⟨i, hi⟩ := List.mem_iff_getElem?.1 (h c List.mem_cons_self)
    have hne : 0 < (members labels c).length := List.length_pos_of_mem ((mem_members labels c i).2 hi)
    have hk := hp acc.length _ hne
    have hg : (members labels c)[pick acc.length (members labels c).length]? =
        some ((members labels c)[pick acc.length (members labels c).length]) := List.getElem?_eq_getElem hk
    rw [Outcome.foldlM_cons]
    unfold selectPoseStep
    simp only []
    rw [if_neg (by omega), Outcome.idx_of_getElem? hg]
    simp only [Outcome.bind_ok, Outcome.pure_eq]
    obtain ⟨sel, h1, h2⟩ := selectPoses_ok labels pick hp cs (acc ++ [(members labels c)[pick acc.length (members labels c).length]])
      (fun d hd => h d (List.mem_cons_of_mem _ hd))
    refine ⟨(members labels c)[pick acc.length (members labels c).length] :: sel, ?_, ?_⟩
    · have e : (fun acc c => if (members labels c).length = 0 then Outcome.ub
          else Outcome.idx (members labels c) (pick acc.length (members labels c).length) >>= fun i =>
            Outcome.ok (acc ++ [i])) = selectPoseStep labels pick := rfl
      rw [show (selectPoseStep labels pick) = _ from rfl] at h1
      rw [List.append_assoc, List.singleton_append] at h1
      exact h1
    · exact List.Forall₂.cons ((mem_members labels c _).1 (List.getElem_mem _)) h2

theorem motions_ok (ro : Rodrigues ℝ) (p1 p2 : List (Mat4 ℝ)) : ∀ (sel : List Nat) (acc : List Motion),
    (∀ s ∈ sel, s < p1.length ∧ s < p2.length) →
      Outcome.foldlM (motionStep ro p1 p2) acc sel =
        .ok (acc ++ (sel.filterMap fun s => (p1.zip p2)[s]?).map fun e => motion ro e.1 e.2)
  | [], acc, _ => by simp
  | s :: sel, acc, h => by
    obtain ⟨h1, h2⟩ := h s List.mem_cons_self
    have e1 : p1[s]? = some p1[s] := List.getElem?_eq_getElem h1
    have e2 : p2[s]? = some p2[s] := List.getElem?_eq_getElem h2
    have e3 : (p1.zip p2)[s]? = some (p1[s], p2[s]) := by rw [List.getElem?_zip_eq_some]; exact ⟨e1, e2⟩
    rw [Outcome.foldlM_cons, motionStep, Outcome.idx_of_getElem? e1, Outcome.bind_ok, Outcome.idx_of_getElem? e2]
    simp only [Outcome.bind_ok, Outcome.pure_eq]
    rw [motions_ok ro p1 p2 sel _ (fun j hj => h j (List.mem_cons_of_mem _ hj)), List.filterMap_cons_some e3]
    simp

end Verif.Lemmas.HandEye
