import Verif.Lemmas.HandEye
import Verif.Props.Quaternion
import Verif.Lemmas.Rodrigues

/-!
C33-C35: hand-eye calibration of two groups, for all pose lists, shuffles, picks, cluster labels and
hand-eye solvers.
-/
namespace Verif.Props.HandEye
open Verif Verif.Rigid Verif.Quaternion Verif.HandEye Verif.Lemmas.Rigid Verif.Lemmas.HandEye

/-- `X` explains the pose pairs: through `X` (pose of the second group in the first) the second object has
the same pose in the first object for every pair. -/
def Explains (X : Mat4 ℝ) (p1 p2 : List (Mat4 ℝ)) : Prop :=
  ∃ D : Mat4 ℝ, ∀ (i : Nat) (a b : Mat4 ℝ), p1[i]? = some a → p2[i]? = some b → a⁻¹ * X * b = D

/-! ### C33 -/

/-- C33: for rigid poses the error is that of the square of the transform; the poses do not matter. -/
theorem C33_value (lib : Lib) (hro : lib.ro.Sound) (p1 p2 : List (Mat4 ℝ)) (sel : List Nat) (X : Mat4 ℝ)
    (hX : IsRigid X) (hd : Data p1 p2 sel) :
    checkSetConsistency lib p1 p2 sel X = .ok (if 2 ≤ sel.length then
      maxNaN 0 (acosDegrees (0.5 * ((projRot X * projRot X).trace - lib.eps - 1))) else 0) :=
  check_eq lib hro p1 p2 sel X hX hd

/-- C33: the error is the same for any two data sets. -/
theorem C33_blind (lib : Lib) (hro : lib.ro.Sound) (p1 p2 q1 q2 : List (Mat4 ℝ)) (sel sel' : List Nat) (X : Mat4 ℝ)
    (hX : IsRigid X) (hd : Data p1 p2 sel) (hd' : Data q1 q2 sel') (h : 2 ≤ sel.length) (h' : 2 ≤ sel'.length) :
    checkSetConsistency lib p1 p2 sel X = checkSetConsistency lib q1 q2 sel' X := by
  rw [C33_value lib hro p1 p2 sel X hX hd, C33_value lib hro q1 q2 sel' X hX hd', if_pos h, if_pos h']

private theorem arccos_deg_lt (x : ℝ) (h1 : -1 ≤ x) (h2 : x ≤ 1) :
    Real.arccos x * 180 / Real.pi < 15 ↔ Real.cos (Real.pi / 12) < x := by
  have hpi := Real.pi_pos
  rw [div_lt_iff₀ hpi]
  have hc : Real.arccos (Real.cos (Real.pi / 12)) = Real.pi / 12 :=
    Real.arccos_cos (by positivity) (by linarith)
  constructor
  · intro h
    have h3 : Real.arccos x < Real.arccos (Real.cos (Real.pi / 12)) := by rw [hc]; linarith
    by_contra hle
    exact absurd (Real.antitone_arccos (not_lt.1 hle)) (not_le.2 h3)
  · intro h
    have h3 : Real.arccos x < Real.arccos (Real.cos (Real.pi / 12)) :=
      Real.strictAntiOn_arccos ⟨Real.neg_one_le_cos _, Real.cos_le_one _⟩ ⟨h1, h2⟩ h
    rw [hc] at h3
    linarith

/-- Whether a transform passes the test of the bootstrap. -/
def Accepted (lib : Lib) (X : Mat4 ℝ) : Prop :=
  maxNaN 0 (acosDegrees (0.5 * ((projRot X * projRot X).trace - lib.eps - 1))) < 15

/-- C33: which transforms are accepted: a transform rotating by the angle `θ` passes iff the cosine of `2θ`
is large (the rotation is by less than about 7.5 degrees, or more than about 172.5) or the argument of the
arc cosine is out of range. -/
theorem C33_accepted_iff (lib : Lib) (heps : 0 ≤ lib.eps) (X : Mat4 ℝ) (hX : IsRigid X) (θ : ℝ)
    (hθ : (projRot X).trace = 1 + 2 * Real.cos θ) :
    Accepted lib X ↔
      Real.cos (2 * θ) - lib.eps / 2 < -1 ∨ Real.cos (Real.pi / 12) < Real.cos (2 * θ) - lib.eps / 2 := by
  have e : 0.5 * ((projRot X * projRot X).trace - lib.eps - 1) = Real.cos (2 * θ) - lib.eps / 2 := by
    rw [trace_sq _ hX.rot, hθ, Real.cos_two_mul]; ring
  unfold Accepted
  rw [e]
  have hle : Real.cos (2 * θ) - lib.eps / 2 ≤ 1 := by
    have := Real.cos_le_one (2 * θ); linarith
  unfold acosDegrees
  by_cases h1 : -1 ≤ Real.cos (2 * θ) - lib.eps / 2
  · rw [if_pos ⟨h1, hle⟩]
    have hnn : 0 ≤ Real.arccos (Real.cos (2 * θ) - lib.eps / 2) * 180 / Real.pi :=
      div_nonneg (mul_nonneg (Real.arccos_nonneg _) (by norm_num)) Real.pi_pos.le
    have hm : maxNaN 0 (some (Real.arccos (Real.cos (2 * θ) - lib.eps / 2) * 180 / Real.pi)) =
        Real.arccos (Real.cos (2 * θ) - lib.eps / 2) * 180 / Real.pi := by
      unfold maxNaN
      simp only []
      split_ifs with h
      · rfl
      · linarith
    rw [hm, arccos_deg_lt _ h1 hle]
    constructor
    · exact fun h => Or.inr h
    · rintro (h | h)
      · linarith
      · exact h
  · rw [if_neg (fun h => h1 h.1)]
    unfold maxNaN
    simp only []
    constructor
    · exact fun _ => Or.inl (not_le.1 h1)
    · exact fun _ => by norm_num

private theorem cos_pi12 : Real.cos (Real.pi / 12) < 0.97 := by
  have h := Real.cos_two_mul (Real.pi / 12)
  rw [show 2 * (Real.pi / 12) = Real.pi / 6 by ring, Real.cos_pi_div_six] at h
  have hs : Real.sqrt 3 < 1.74 := by
    rw [Real.sqrt_lt' (by norm_num)]; norm_num
  by_contra hle
  rw [not_lt] at hle
  nlinarith

/-- C33: the identity passes, whatever the data. -/
theorem C33_identity (lib : Lib) (h0 : 0 ≤ lib.eps) (h1 : lib.eps ≤ 0.01) : Accepted lib 1 := by
  rw [C33_accepted_iff lib h0 1 IsRigid.one 0 (by
    have : projRot (1 : Mat4 ℝ) = 1 := by
      have := projRot_RT2Proj (1 : Mat3 ℝ) (fun _ => 0)
      rwa [RT2Proj_one] at this
    rw [this]; simp; norm_num)]
  right
  have := cos_pi12
  simp
  linarith

/-! ### C34 -/

/-- C34: with enough clusters the selection gives distinct clusters; with too few it reads out of range. -/
theorem C34_clusters (shuffle : List Nat → List Nat) (hs : ∀ l, (shuffle l).Perm l) (numClusters nbPick : Nat) :
    (nbPick ≤ numClusters → ∃ cs, selectClusters shuffle numClusters nbPick = .ok cs ∧ cs.length = nbPick ∧
      cs.Nodup ∧ ∀ c ∈ cs, c < numClusters) ∧
    (numClusters < nbPick → selectClusters shuffle numClusters nbPick = .ub) := by
  have hl : (shuffle (List.range numClusters)).length = numClusters := by
    rw [(hs _).length_eq, List.length_range]
  constructor
  · intro h
    refine ⟨_, selectClusters_ok _ nbPick (by omega), by rw [List.length_take, hl]; omega, ?_, ?_⟩
    · exact (((hs _).nodup_iff).2 List.nodup_range).sublist (List.take_sublist _ _)
    · intro c hc
      exact List.mem_range.1 ((hs _).mem_iff.1 (List.mem_of_mem_take hc))
  · intro h
    exact selectClusters_ub _ nbPick (by omega)

private theorem forall2_nodup (labels : List Nat) : ∀ (cs sel : List Nat),
    List.Forall₂ (fun c s => labels[s]? = some c) cs sel → cs.Nodup → sel.Nodup := by
  intro cs sel h
  induction h with
  | nil => simp
  | @cons c s cs sel h hf ih =>
    intro hn
    rw [List.nodup_cons] at hn ⊢
    refine ⟨fun hm => hn.1 ?_, ih hn.2⟩
    obtain ⟨i, hi⟩ := List.mem_iff_getElem?.1 hm
    obtain ⟨hi', rfl⟩ := List.getElem?_eq_some_iff.1 hi
    have := hf.get (by rw [hf.length_eq]; exact hi') hi'
    simp only [List.get_eq_getElem] at this
    rw [h] at this
    simp only [Option.some.injEq] at this
    rw [this]
    exact List.getElem_mem _

/-- C34: when every selected cluster has a member, one member of each is picked, in order; so the picked
poses are distinct if the clusters are. -/
theorem C34_poses (labels : List Nat) (pick : Nat → Nat → Nat) (hp : ∀ k n, 0 < n → pick k n < n)
    (cs : List Nat) (h : ∀ c ∈ cs, c ∈ labels) :
    ∃ sel, selectPoses labels pick cs = .ok sel ∧ List.Forall₂ (fun c s => labels[s]? = some c) cs sel ∧
      (cs.Nodup → sel.Nodup) := by
  obtain ⟨sel, h1, h2⟩ := selectPoses_ok labels pick hp cs [] h
  exact ⟨sel, by simpa [selectPoses] using h1, h2, forall2_nodup labels cs sel h2⟩

/-- C34: the bootstrap on fewer than six pose pairs (four or five, as it is not tried on less, C22) reads
out of range. -/
theorem C34_few_poses (lib : Lib) (hs : ∀ k l, (lib.shuffle k l).Perm l) (nbCluster nbIt : Nat) (hit : 0 < nbIt)
    (hc : 0 < nbCluster) (p1 p2 : List (Mat4 ℝ)) (h0 : 0 < min p1.length p2.length)
    (h : min p1.length p2.length < 6) : bootstrap lib nbCluster nbIt p1 p2 = .ub := by
  have hl : (translations p1 p2).length = min p1.length p2.length := by simp [translations]
  unfold bootstrap
  simp only []
  rw [hl, if_neg (by omega)]
  obtain ⟨n, rfl⟩ : ∃ n, nbIt = n + 1 := ⟨nbIt - 1, by omega⟩
  rw [List.range_succ_eq_map, Outcome.foldlM_cons]
  unfold roundStep roundSolve
  rw [(C34_clusters (lib.shuffle 0) (hs 0) _ 6).2 (by omega)]
  rfl

/-- Contracts of the libraries. -/
structure Contracts (lib : Lib) : Prop where
  ro : lib.ro.Sound
  shuffle : ∀ k l, (lib.shuffle k l).Perm l
  pick : ∀ r k n, 0 < n → lib.pick r k n < n
  /-- one label per row, and no cluster is empty -/
  kmeans : ∀ rows k, 0 < k → k ≤ rows.length → (lib.kmeans rows k).length = rows.length ∧
    (∀ c < k, c ∈ lib.kmeans rows k)
  tsai : ∀ ms, ∃ R T, lib.tsai ms = .ok (R, T) ∧ IsRot R

/-- All poses are rigid. -/
def Rigids (p : List (Mat4 ℝ)) : Prop := ∀ a ∈ p, IsRigid a

/-- `X` is the Tsai solution for six pose pairs of the lists. -/
def Solution (lib : Lib) (p1 p2 : List (Mat4 ℝ)) (X : Mat4 ℝ) : Prop :=
  ∃ sel : List Nat, sel.length = 6 ∧ sel.Nodup ∧ (∀ s ∈ sel, s < p1.length) ∧
    ∃ R T, lib.tsai ((sel.filterMap fun s => (p1.zip p2)[s]?).map fun e => motion lib.ro e.1 e.2) = .ok (R, T) ∧
      IsRot R ∧ X = RT2Proj R T

private theorem round_ok (lib : Lib) (hl : Contracts lib) (p1 p2 : List (Mat4 ℝ)) (hlen : p1.length = p2.length)
    (h1 : Rigids p1) (h2 : Rigids p2) (numClusters : Nat) (hn : 6 ≤ numClusters) (labels : List Nat)
    (hlab : labels.length = p1.length) (hin : ∀ c < numClusters, c ∈ labels) (round : Nat) :
    ∃ X, Solution lib p1 p2 X ∧ IsRigid X ∧ ∀ acc, roundStep lib p1 p2 labels numClusters acc round =
      .ok (by classical exact if Accepted lib X then acc ++ [Proj2RT lib.ro X] else acc) := by
  obtain ⟨cs, e1, e2, e3, e4⟩ := (C34_clusters (lib.shuffle round) (hl.shuffle round) numClusters 6).1 hn
  obtain ⟨sel, f1, f2, f3⟩ := C34_poses labels (lib.pick round) (hl.pick round) cs (fun c hc => hin c (e4 c hc))
  have hlt : ∀ s ∈ sel, s < p1.length := by
    intro s hs
    obtain ⟨i, hi⟩ := List.mem_iff_getElem?.1 hs
    obtain ⟨hi', rfl⟩ := List.getElem?_eq_some_iff.1 hi
    have := f2.get (by rw [f2.length_eq]; exact hi') hi'
    simp only [List.get_eq_getElem] at this
    rw [← hlab]
    exact (List.getElem?_eq_some_iff.1 this).1
  have hm := motions_ok lib.ro p1 p2 sel [] (fun s hs => ⟨hlt s hs, hlen ▸ hlt s hs⟩)
  rw [List.nil_append] at hm
  obtain ⟨R, T, g1, g2⟩ := hl.tsai ((sel.filterMap fun s => (p1.zip p2)[s]?).map fun e => motion lib.ro e.1 e.2)
  have hX : IsRigid (RT2Proj R T) := ⟨R, T, g2, rfl⟩
  have hsl : sel.length = 6 := by rw [← f2.length_eq, e2]
  refine ⟨RT2Proj R T, ⟨sel, hsl, f3 e3, hlt, R, T, g1, g2, rfl⟩, hX, fun acc => ?_⟩
  have hd : Data p1 p2 sel := by
    intro s hs
    have a := hlt s hs
    have b : s < p2.length := hlen ▸ a
    exact ⟨p1[s], p2[s], List.getElem?_eq_getElem a, List.getElem?_eq_getElem b, h1 _ (List.getElem_mem a),
      h2 _ (List.getElem_mem b)⟩
  unfold roundStep roundSolve
  rw [e1, Outcome.bind_ok, f1, Outcome.bind_ok, hm, Outcome.bind_ok, g1, Outcome.bind_ok]
  simp only [Outcome.pure_eq, Outcome.bind_ok]
  rw [C33_value lib hl.ro p1 p2 sel _ hX hd, if_pos (show 2 ≤ sel.length by omega), Outcome.bind_ok]
  by_cases hA : Accepted lib (RT2Proj R T)
  · rw [if_pos hA]
    unfold Accepted at hA
    rw [if_pos hA]
  · rw [if_neg hA]
    unfold Accepted at hA
    rw [if_neg hA]

open Classical in
/-- The solutions that pass the test of the bootstrap, in their order. -/
noncomputable def passing (lib : Lib) (sols : List (Mat4 ℝ)) : List (Mat4 ℝ) := sols.filter fun X => decide (Accepted lib X)

/-- C34, C35: on six or more pairs of rigid poses the bootstrap runs all its rounds, each on six distinct
pose pairs; the solutions that pass the test are combined if there are more than three, otherwise the
result is the plain hand-eye calibration of the first list with itself. -/
theorem C35_result (lib : Lib) (hl : Contracts lib) (nbIt nbCluster : Nat) (hc : 6 ≤ nbCluster)
    (p1 p2 : List (Mat4 ℝ)) (hlen : p1.length = p2.length) (h6 : 6 ≤ p1.length) (h1 : Rigids p1) (h2 : Rigids p2) :
    ∃ sols : List (Mat4 ℝ), sols.length = nbIt ∧ (∀ X ∈ sols, Solution lib p1 p2 X ∧ IsRigid X) ∧
      bootstrap lib nbCluster nbIt p1 p2 =
        if 3 < (passing lib sols).length then .ok (combine lib ((passing lib sols).map (Proj2RT lib.ro)))
        else handeyeCalibration lib p1 p1 := by
  classical
  have hrows : (translations p1 p2).length = p1.length := by simp [translations, hlen]
  obtain ⟨k1, k2⟩ := hl.kmeans (translations p1 p2) (min nbCluster p1.length) (by omega) (by omega)
  rw [hrows] at k1
  have key : ∀ n, ∃ sols : List (Mat4 ℝ), sols.length = n ∧ (∀ X ∈ sols, Solution lib p1 p2 X ∧ IsRigid X) ∧
      Outcome.foldlM (roundStep lib p1 p2 (lib.kmeans (translations p1 p2) (min nbCluster p1.length))
        (min nbCluster p1.length)) [] (List.range n) =
        .ok ((sols.filter fun X => decide (Accepted lib X)).map (Proj2RT lib.ro)) := by
    intro n
    induction n with
    | zero => exact ⟨[], rfl, by simp, by simp⟩
    | succ n ih =>
      obtain ⟨sols, a, b, c⟩ := ih
      obtain ⟨X, x1, x2, x3⟩ := round_ok lib hl p1 p2 hlen h1 h2 (min nbCluster p1.length) (by omega) _ k1 k2 n
      refine ⟨sols ++ [X], by simp [a], ?_, ?_⟩
      · intro Y hY
        rcases List.mem_append.1 hY with hY | hY
        · exact b Y hY
        · rw [List.mem_singleton.1 hY]; exact ⟨x1, x2⟩
      · rw [List.range_succ, Outcome.foldlM_append, c, Outcome.bind_ok, Outcome.foldlM_cons, x3, Outcome.bind_ok,
          Outcome.foldlM_nil]
        by_cases hA : Accepted lib X <;> simp [hA]
  obtain ⟨sols, a, b, c⟩ := key nbIt
  refine ⟨sols, a, b, ?_⟩
  unfold bootstrap
  simp only []
  rw [hrows, if_neg (by omega), c, Outcome.bind_ok]
  unfold conclude
  rw [List.length_map]
  rfl

theorem mem_passing {lib : Lib} {sols : List (Mat4 ℝ)} {X : Mat4 ℝ} : X ∈ passing lib sols ↔ X ∈ sols ∧ Accepted lib X := by
  classical
  unfold passing
  rw [List.mem_filter, decide_eq_true_eq]

/-! ### C35 -/

/-- C35: if no Tsai solution of any six pairs passes the test, the result does not depend on the second
list of poses. -/
theorem C35_fallback (lib : Lib) (hl : Contracts lib) (nbIt nbCluster : Nat) (hc : 6 ≤ nbCluster)
    (p1 p2 : List (Mat4 ℝ)) (hlen : p1.length = p2.length) (h6 : 6 ≤ p1.length) (h1 : Rigids p1) (h2 : Rigids p2)
    (hno : ∀ X, Solution lib p1 p2 X → ¬ Accepted lib X) :
    bootstrap lib nbCluster nbIt p1 p2 = handeyeCalibration lib p1 p1 := by
  obtain ⟨sols, -, b, e⟩ := C35_result lib hl nbIt nbCluster hc p1 p2 hlen h6 h1 h2
  have : passing lib sols = [] := by
    rw [List.eq_nil_iff_forall_not_mem]
    intro X hX
    exact hno X (b X (mem_passing.1 hX).1).1 (mem_passing.1 hX).2
  rw [e, this]
  rfl

private theorem combine_const (lib : Lib) (hro : lib.ro.Sound) (hsvd : ∀ A, TopSingular A (lib.svd A)) (X : Mat4 ℝ)
    (hX : IsRigid X) (l : List (Mat4 ℝ)) (hne : l ≠ []) (h : ∀ Y ∈ l, Y = X) :
    combine lib (l.map (Proj2RT lib.ro)) = X := by
  have hl : l.map (Proj2RT lib.ro) = l.map fun _ => Proj2RT lib.ro X :=
    List.map_congr_left fun Y hY => by rw [h Y hY]
  rw [hl]
  unfold combine
  simp only [List.map_map]
  have hm : ∀ i : Fin 3, Average.median (l.map ((fun e : Vec3 ℝ × Vec3 ℝ => e.2 i) ∘ fun _ => Proj2RT lib.ro X)) =
      projTrans X i := by
    intro i
    apply Verif.Props.Average.C31_constant _ _ (by simpa using hne)
    intro y hy
    obtain ⟨Y, -, rfl⟩ := List.mem_map.1 hy
    rfl
  have hr : lib.ro.toMat (getAverageRotation lib.ro lib.svd true
      (l.map ((fun e : Vec3 ℝ × Vec3 ℝ => e.1) ∘ fun _ => Proj2RT lib.ro X))) = projRot X := by
    have := (Verif.Props.Quaternion.C32_both lib.ro lib.svd hro hsvd true
      (l.map ((fun e : Vec3 ℝ × Vec3 ℝ => e.1) ∘ fun _ => Proj2RT lib.ro X)) (by simpa using hne)
      (Proj2RT lib.ro X).1 (by intro x hx; obtain ⟨_, -, rfl⟩ := List.mem_map.1 hx; rfl)).1
    rw [this]
    exact hro.back _ hX.rot
  unfold RVecT2Proj
  rw [hr]
  have ht : ![Average.median (l.map ((fun e : Vec3 ℝ × Vec3 ℝ => e.2 0) ∘ fun _ => Proj2RT lib.ro X)),
      Average.median (l.map ((fun e : Vec3 ℝ × Vec3 ℝ => e.2 1) ∘ fun _ => Proj2RT lib.ro X)),
      Average.median (l.map ((fun e : Vec3 ℝ × Vec3 ℝ => e.2 2) ∘ fun _ => Proj2RT lib.ro X))] = projTrans X := by
    rw [hm, hm, hm]
    ext i; fin_cases i <;> rfl
  rw [ht]
  exact hX.rebuild

/-- C35: if every Tsai solution is the same transform `X`: it is returned exactly when it passes the test
(and at least four rounds are run); otherwise the second list of poses is ignored. -/
theorem C35_exact (lib : Lib) (hl : Contracts lib) (hsvd : ∀ A, TopSingular A (lib.svd A)) (nbIt nbCluster : Nat)
    (hc : 6 ≤ nbCluster) (hit : 4 ≤ nbIt)
    (p1 p2 : List (Mat4 ℝ)) (hlen : p1.length = p2.length) (h6 : 6 ≤ p1.length) (h1 : Rigids p1) (h2 : Rigids p2)
    (X : Mat4 ℝ) (hX : IsRigid X) (hsol : ∀ Y, Solution lib p1 p2 Y → Y = X) :
    (Accepted lib X → bootstrap lib nbCluster nbIt p1 p2 = .ok X) ∧
    (¬ Accepted lib X → bootstrap lib nbCluster nbIt p1 p2 = handeyeCalibration lib p1 p1) := by
  constructor
  · intro hA
    obtain ⟨sols, a, b, e⟩ := C35_result lib hl nbIt nbCluster hc p1 p2 hlen h6 h1 h2
    have hs : ∀ Y ∈ sols, Y = X := fun Y hY => hsol Y (b Y hY).1
    have hg : passing lib sols = sols := by
      classical
      unfold passing
      rw [List.filter_eq_self]
      intro Y hY
      rw [decide_eq_true_eq, hs Y hY]
      exact hA
    rw [e, hg, if_pos (by omega)]
    congr 1
    exact combine_const lib hl.ro hsvd X hX sols (by intro h; rw [h] at a; simp at a; omega) hs
  · intro hA
    exact C35_fallback lib hl nbIt nbCluster hc p1 p2 hlen h6 h1 h2 (fun Y hY => by rw [hsol Y hY]; exact hA)

/-- C35: what the fallback asks for: the identity explains any list of rigid poses paired with itself. -/
theorem C35_self (p1 : List (Mat4 ℝ)) (h1 : Rigids p1) : Explains 1 p1 p1 := by
  refine ⟨1, fun i a b ha hb => ?_⟩
  rw [ha] at hb
  simp only [Option.some.injEq] at hb
  rw [← hb, Matrix.mul_one, (h1 a (List.mem_of_getElem? ha)).inv_mul]

private theorem all_pairs (p1 p2 : List (Mat4 ℝ)) (hlen : p1.length = p2.length) :
    (List.range p1.length).filterMap (fun s => (p1.zip p2)[s]?) = p1.zip p2 := by
  have hl : p1.length = (p1.zip p2).length := by rw [List.length_zip, ← hlen, Nat.min_self]
  rw [hl]
  generalize p1.zip p2 = l
  have e : (List.range l.length).map (fun i => l[i]?) = l.map some := by
    apply List.ext_getElem (by simp)
    intro i h1 h2
    simp at h1 h2
    simp [h1]
  have : (List.range l.length).filterMap (fun i => l[i]?) =
      ((List.range l.length).map (fun i => l[i]?)).filterMap id := by
    rw [List.filterMap_map]; rfl
  rw [this, e, List.filterMap_map]
  simp

/-- C35: the plain hand-eye calibration gives the solver one motion per pose pair: the inverse of the first
pose and the second pose; the result is the solver's. -/
theorem C35_plain (lib : Lib) (hro : lib.ro.Sound) (p1 p2 : List (Mat4 ℝ)) (hlen : p1.length = p2.length)
    (h1 : Rigids p1) (h2 : Rigids p2) :
    ∃ ms : List Motion, List.Forall₂ (fun (e : Mat4 ℝ × Mat4 ℝ) m =>
        RT2Proj m.r1 m.t1 = e.1⁻¹ ∧ RT2Proj m.r2 m.t2 = e.2) (p1.zip p2) ms ∧
      handeyeCalibration lib p1 p2 = (lib.horaud ms >>= fun x => .ok (RT2Proj x.1 x.2)) := by
  refine ⟨(p1.zip p2).map fun e => motion lib.ro e.1 e.2, ?_, ?_⟩
  · rw [List.forall₂_map_right_iff, List.forall₂_same]
    rintro ⟨a, b⟩ hab
    have ha := h1 a (List.of_mem_zip hab).1
    have hb := h2 b (List.of_mem_zip hab).2
    constructor
    · show RT2Proj (lib.ro.toMat (lib.ro.toVec (projRot a⁻¹))) (projTrans a⁻¹) = a⁻¹
      rw [hro.back _ ha.inv.rot, ha.inv.rebuild]
    · show RT2Proj (lib.ro.toMat (lib.ro.toVec (projRot b))) (projTrans b) = b
      rw [hro.back _ hb.rot, hb.rebuild]
  · unfold handeyeCalibration
    rw [motions_ok lib.ro p1 p2 _ [] (fun s hs => by rw [List.mem_range] at hs; exact ⟨hs, hlen ▸ hs⟩), Outcome.bind_ok]
    have e := all_pairs p1 p2 hlen
    rw [e]
    rfl

/-- C35: what a hand-eye solver looks for: `X` explains rigid pose pairs iff it satisfies the equation
`A X = X B` for all relative motions `A` of the first and `B` of the second list. -/
theorem C35_equation (X : Mat4 ℝ) (p1 p2 : List (Mat4 ℝ)) (hlen : p1.length = p2.length) (h1 : Rigids p1)
    (h2 : Rigids p2) :
    Explains X p1 p2 ↔ ∀ (i j : Nat) (a b c d : Mat4 ℝ), p1[i]? = some a → p2[i]? = some b → p1[j]? = some c →
      p2[j]? = some d → (c * a⁻¹) * X = X * (d * b⁻¹) := by
  have step : ∀ a b c d : Mat4 ℝ, IsRigid a → IsRigid b → IsRigid c → IsRigid d →
      (a⁻¹ * X * b = c⁻¹ * X * d ↔ (c * a⁻¹) * X = X * (d * b⁻¹)) := by
    intro a b c d _ hb hc _
    have c1 : c * c⁻¹ = 1 := mul_eq_one_comm.1 hc.inv_mul
    have b1 : b * b⁻¹ = 1 := mul_eq_one_comm.1 hb.inv_mul
    constructor
    · intro h
      have : c * (a⁻¹ * X * b) * b⁻¹ = c * (c⁻¹ * X * d) * b⁻¹ := by rw [h]
      have e1 : c * (a⁻¹ * X * b) * b⁻¹ = (c * a⁻¹) * X := by
        rw [Matrix.mul_assoc c, Matrix.mul_assoc (a⁻¹ * X), b1, Matrix.mul_one, ← Matrix.mul_assoc]
      have e2 : c * (c⁻¹ * X * d) * b⁻¹ = X * (d * b⁻¹) := by
        rw [← Matrix.mul_assoc c, ← Matrix.mul_assoc c, c1, Matrix.one_mul, Matrix.mul_assoc]
      rw [← e1, this, e2]
    · intro h
      have : c⁻¹ * ((c * a⁻¹) * X) * b = c⁻¹ * (X * (d * b⁻¹)) * b := by rw [h]
      have e1 : c⁻¹ * ((c * a⁻¹) * X) * b = a⁻¹ * X * b := by
        rw [← Matrix.mul_assoc c⁻¹, ← Matrix.mul_assoc c⁻¹, hc.inv_mul, Matrix.one_mul]
      have e2 : c⁻¹ * (X * (d * b⁻¹)) * b = c⁻¹ * X * d := by
        rw [← Matrix.mul_assoc c⁻¹, ← Matrix.mul_assoc (c⁻¹ * X), Matrix.mul_assoc _ b⁻¹ b, hb.inv_mul, Matrix.mul_one]
      rw [← e1, this, e2]
  constructor
  · rintro ⟨D, hD⟩ i j a b c d ha hb hc hd
    rw [← step a b c d (h1 a (List.mem_of_getElem? ha)) (h2 b (List.mem_of_getElem? hb))
      (h1 c (List.mem_of_getElem? hc)) (h2 d (List.mem_of_getElem? hd)), hD i a b ha hb, hD j c d hc hd]
  · intro h
    rcases p1 with _ | ⟨c, p1⟩
    · exact ⟨1, by intro i a b ha; simp at ha⟩
    rcases p2 with _ | ⟨d, p2⟩
    · simp at hlen
    refine ⟨c⁻¹ * X * d, fun i a b ha hb => ?_⟩
    rw [step a b c d (h1 a (List.mem_of_getElem? ha)) (h2 b (List.mem_of_getElem? hb)) (h1 c (by simp)) (h2 d (by simp))]
    exact h i 0 a b c d ha hb rfl rfl

/-! ### A correct transform that is never returned -/

/-- Rotation by 120 degrees: x to y to z to x. -/
def cyc : Mat3 ℝ := !![0, 0, 1; 1, 0, 0; 0, 1, 0]

/-- Half turn about x. -/
def half : Mat3 ℝ := !![1, 0, 0; 0, -1, 0; 0, 0, -1]

/-- The pose with a rotation and no translation. -/
noncomputable def turn (R : Mat3 ℝ) : Mat4 ℝ := RT2Proj R ![0, 0, 0]

theorem cyc_rot : IsRot cyc := by
  constructor
  · ext i j; fin_cases i <;> fin_cases j <;> simp [cyc, Matrix.mul_apply, Fin.sum_univ_three]
  · simp [cyc, Matrix.det_fin_three]

theorem half_rot : IsRot half := by
  constructor
  · ext i j; fin_cases i <;> fin_cases j <;> simp [half, Matrix.mul_apply, Fin.sum_univ_three]
  · simp [half, Matrix.det_fin_three]

/-- C33: the transform turning by 120 degrees does not pass the test. -/
theorem C33_cyc_rejected (lib : Lib) (h0 : 0 ≤ lib.eps) (h1 : lib.eps ≤ 0.01) : ¬ Accepted lib (turn cyc) := by
  have hcos : Real.cos (2 * Real.pi / 3) = -1 / 2 := by
    rw [show 2 * Real.pi / 3 = Real.pi - Real.pi / 3 by ring, Real.cos_pi_sub, Real.cos_pi_div_three]; norm_num
  rw [C33_accepted_iff lib h0 (turn cyc) ⟨_, _, cyc_rot, rfl⟩ (2 * Real.pi / 3) (by
    rw [turn, projRot_RT2Proj, hcos]; simp [cyc, Matrix.trace_fin_three]; norm_num)]
  rw [Real.cos_two_mul, hcos]
  have hpos : 0 < Real.cos (Real.pi / 12) := Real.cos_pos_of_mem_Ioo ⟨by linarith [Real.pi_pos], by linarith [Real.pi_pos]⟩
  rintro (h | h)
  · norm_num at h h1; linarith
  · norm_num at h; linarith

/-- A list of poses containing the identity, a half turn and a turn by 120 degrees determines the
transform: only the identity explains it paired with itself. -/
theorem only_identity (p1 : List (Mat4 ℝ)) (hi : 1 ∈ p1) (hh : turn half ∈ p1) (hc : turn cyc ∈ p1) (Y : Mat4 ℝ)
    (hY : IsRigid Y) (hE : Explains Y p1 p1) : Y = 1 := by
  obtain ⟨D, hD⟩ := hE
  have hself : ∀ a ∈ p1, a⁻¹ * Y * a = D := by
    intro a ha
    obtain ⟨i, hi⟩ := List.mem_iff_getElem?.1 ha
    exact hD i a a hi hi
  have hDY : D = Y := by have := hself 1 hi; simpa using this.symm
  have comm : ∀ R, IsRot R → turn R ∈ p1 → Y * turn R = turn R * Y := by
    intro R hR hm
    have := hself _ hm
    rw [hDY] at this
    have h2 : turn R * ((turn R)⁻¹ * Y * turn R) = turn R * Y := by rw [this]
    rw [← Matrix.mul_assoc, ← Matrix.mul_assoc, show turn R * (turn R)⁻¹ = 1 from
      mul_eq_one_comm.1 (IsRigid.inv_mul ⟨_, _, hR, rfl⟩), Matrix.one_mul] at h2
    exact h2
  obtain ⟨R, T, hR, rfl⟩ := hY
  have a := comm half half_rot hh
  have b := comm cyc cyc_rot hc
  unfold turn at a b
  rw [RT2Proj_mul, RT2Proj_mul] at a b
  obtain ⟨a1, a2⟩ := RT2Proj_inj a
  obtain ⟨b1, b2⟩ := RT2Proj_inj b
  have e : ∀ i j, (R * half) i j = (half * R) i j := fun i j => by rw [a1]
  have f : ∀ i j, (R * cyc) i j = (cyc * R) i j := fun i j => by rw [b1]
  have e01 := e 0 1
  have e02 := e 0 2
  have e10 := e 1 0
  have e20 := e 2 0
  have f00 := f 0 0
  have f01 := f 0 1
  have f02 := f 0 2
  have f10 := f 1 0
  have f11 := f 1 1
  have f12 := f 1 2
  have f20 := f 2 0
  have f21 := f 2 1
  have f22 := f 2 2
  simp only [half, cyc, Matrix.mul_apply, Fin.sum_univ_three, Matrix.of_apply, Matrix.cons_val', Matrix.cons_val_zero,
    Matrix.cons_val_one, Matrix.cons_val, Matrix.cons_val_fin_one] at e01 e02 e10 e20 f00 f01 f02 f10 f11 f12 f20 f21 f22
  have z01 : R 0 1 = 0 := by linarith
  have z02 : R 0 2 = 0 := by linarith
  have z10 : R 1 0 = 0 := by linarith
  have z20 : R 2 0 = 0 := by linarith
  have z12 : R 1 2 = 0 := by linarith
  have z21 : R 2 1 = 0 := by linarith
  have d1 : R 1 1 = R 0 0 := by linarith
  have d2 : R 2 2 = R 0 0 := by linarith
  have hdet := hR.det
  rw [Matrix.det_fin_three, z01, z02, z10, z20, z12, z21, d1, d2] at hdet
  have hr : R 0 0 = 1 := by
    have h3 : (R 0 0 - 1) * (R 0 0 ^ 2 + R 0 0 + 1) = 0 := by ring_nf; ring_nf at hdet; linarith
    rcases mul_eq_zero.1 h3 with h | h
    · linarith
    · nlinarith [sq_nonneg (R 0 0 + 1 / 2)]
  have hR1 : R = 1 := by
    ext i j
    fin_cases i <;> fin_cases j <;> simp [z01, z02, z10, z20, z12, z21, d1, d2, hr]
  have ht1 := congrFun a2 1
  have ht2 := congrFun a2 2
  have hu0 := congrFun b2 0
  simp [half, cyc, transformPt] at ht1 ht2 hu0
  have t1 : T 1 = 0 := by linarith
  have t2 : T 2 = 0 := by linarith
  have t0 : T 0 = 0 := by linarith
  rw [hR1]
  have : T = fun _ => 0 := by ext i; fin_cases i <;> simp [t0, t1, t2]
  rw [this, RT2Proj_one]

/-- C35: the groups' true transform turns by 120 degrees, the poses determine it and are exact, and the
hand-eye solvers are exact; still the bootstrap returns the identity: the round solutions, all correct, are
rejected, and the fallback is given the first list twice. -/
theorem C35_wrong (lib : Lib) (hl : Contracts lib) (hsvd : ∀ A, TopSingular A (lib.svd A)) (h0 : 0 ≤ lib.eps)
    (h1 : lib.eps ≤ 0.01) (p1 : List (Mat4 ℝ)) (hr : Rigids p1) (h6 : 6 ≤ p1.length) (hi : 1 ∈ p1)
    (hh : turn half ∈ p1) (hc : turn cyc ∈ p1)
    (hsol : ∀ Y, Solution lib p1 (p1.map ((turn cyc)⁻¹ * ·)) Y → Y = turn cyc)
    (hho : ∃ Y, handeyeCalibration lib p1 p1 = .ok Y ∧ IsRigid Y ∧ Explains Y p1 p1) :
    Explains (turn cyc) p1 (p1.map ((turn cyc)⁻¹ * ·)) ∧
    bootstrap lib 20 200 p1 (p1.map ((turn cyc)⁻¹ * ·)) = .ok 1 := by
  have hcr : IsRigid (turn cyc) := ⟨_, _, cyc_rot, rfl⟩
  have hright : turn cyc * (turn cyc)⁻¹ = 1 := mul_eq_one_comm.1 hcr.inv_mul
  refine ⟨⟨1, fun i a b ha hb => ?_⟩, ?_⟩
  · rw [List.getElem?_map, ha] at hb
    simp only [Option.map_some, Option.some.injEq] at hb
    rw [← hb, Matrix.mul_assoc, ← Matrix.mul_assoc (turn cyc), hright, Matrix.one_mul,
      (hr a (List.mem_of_getElem? ha)).inv_mul]
  · have hr2 : Rigids (p1.map ((turn cyc)⁻¹ * ·)) := by
      intro a ha
      obtain ⟨b, hb, rfl⟩ := List.mem_map.1 ha
      exact hcr.inv.mul (hr b hb)
    rw [(C35_exact lib hl hsvd 200 20 (by norm_num) (by norm_num) p1 _ (by simp) h6 hr hr2 (turn cyc) hcr hsol).2
      (C33_cyc_rejected lib h0 h1)]
    obtain ⟨Y, e1, e2, e3⟩ := hho
    rw [e1, only_identity p1 hi hh hc Y e2 e3]

/-- The hypotheses of `C35_wrong` (and so those of `C35_result`, `C35_fallback`, `C35_exact`) are met. -/
theorem C35_wrong_met : ∃ (lib : Lib) (p1 : List (Mat4 ℝ)), Contracts lib ∧ (∀ A, TopSingular A (lib.svd A)) ∧
    0 ≤ lib.eps ∧ lib.eps ≤ 0.01 ∧ Rigids p1 ∧ 6 ≤ p1.length ∧ 1 ∈ p1 ∧ turn half ∈ p1 ∧ turn cyc ∈ p1 ∧
    (∀ Y, Solution lib p1 (p1.map ((turn cyc)⁻¹ * ·)) Y → Y = turn cyc) ∧
    ∃ Y, handeyeCalibration lib p1 p1 = .ok Y ∧ IsRigid Y ∧ Explains Y p1 p1 := by
  obtain ⟨svd, hsvd⟩ := Verif.Props.Quaternion.C32_svd
  let lib : Lib :=
    { ro := Verif.Lemmas.Rodrigues.rod, svd := svd, eps := 0.0001
      kmeans := fun rows k => (List.range rows.length).map fun i => min i (k - 1)
      shuffle := fun _ l => l, pick := fun _ _ _ => 0
      tsai := fun _ => .ok (cyc, ![0, 0, 0]), horaud := fun _ => .ok (1, fun _ => 0) }
  let p1 : List (Mat4 ℝ) := [1, turn half, turn cyc, 1, 1, 1]
  have hr : Rigids p1 := by
    intro a ha
    simp only [p1, List.mem_cons, List.not_mem_nil, or_false] at ha
    rcases ha with rfl | rfl | rfl | rfl | rfl | rfl
    · exact IsRigid.one
    · exact ⟨_, _, half_rot, rfl⟩
    · exact ⟨_, _, cyc_rot, rfl⟩
    · exact IsRigid.one
    · exact IsRigid.one
    · exact IsRigid.one
  refine ⟨lib, p1, ⟨Verif.Lemmas.Rodrigues.rod_sound, fun _ _ => List.Perm.refl _, fun _ _ _ h => h, ?_, ?_⟩, hsvd,
    by norm_num [lib], by norm_num [lib], hr, by simp [p1], by simp [p1], by simp [p1], by simp [p1], ?_, ?_⟩
  · intro rows k hk hk'
    refine ⟨by simp [lib], fun c hc => List.mem_map.2 ⟨c, List.mem_range.2 (by omega), by omega⟩⟩
  · intro ms; exact ⟨cyc, _, rfl, cyc_rot⟩
  · rintro Y ⟨sel, -, -, -, R, T, h, -, rfl⟩
    simp only [lib, Outcome.ok.injEq, Prod.mk.injEq] at h
    rw [← h.1, ← h.2]; rfl
  · refine ⟨1, ?_, IsRigid.one, C35_self p1 hr⟩
    unfold handeyeCalibration
    rw [motions_ok lib.ro p1 p1 _ [] (fun s hs => by rw [List.mem_range] at hs; exact ⟨hs, hs⟩), Outcome.bind_ok]
    show Outcome.ok (RT2Proj 1 fun _ => 0) = _
    rw [RT2Proj_one]

/-- C35: the same data with the other setting: the bootstrap (`he_approach` 0) returns the identity, which does
not explain the poses; the plain calibration (any other value), with the same exact solver, returns the true
transform. -/
theorem C35_approach (lib : Lib) (hl : Contracts lib) (hsvd : ∀ A, TopSingular A (lib.svd A)) (h0 : 0 ≤ lib.eps)
    (h1 : lib.eps ≤ 0.01) (p1 : List (Mat4 ℝ)) (hr : Rigids p1) (h6 : 6 ≤ p1.length) (hi : 1 ∈ p1)
    (hh : turn half ∈ p1) (hc : turn cyc ∈ p1)
    (hsol : ∀ Y, Solution lib p1 (p1.map ((turn cyc)⁻¹ * ·)) Y → Y = turn cyc)
    (hho : ∀ p2 ∈ [p1, p1.map ((turn cyc)⁻¹ * ·)],
      ∃ R T, lib.horaud ((p1.zip p2).map fun e => motion lib.ro e.1 e.2) = .ok (R, T) ∧ IsRot R ∧
        Explains (RT2Proj R T) p1 p2) (approach : Int) :
    handEye lib approach p1 (p1.map ((turn cyc)⁻¹ * ·)) = .ok (if approach = 0 then 1 else turn cyc) ∧
    ∀ X, IsRigid X → Explains X p1 (p1.map ((turn cyc)⁻¹ * ·)) → X = turn cyc := by
  have hcr : IsRigid (turn cyc) := ⟨_, _, cyc_rot, rfl⟩
  have hright : turn cyc * (turn cyc)⁻¹ = 1 := mul_eq_one_comm.1 hcr.inv_mul
  have uniq : ∀ X, IsRigid X → Explains X p1 (p1.map ((turn cyc)⁻¹ * ·)) → X = turn cyc := by
    intro X hX hE
    obtain ⟨D, hD⟩ := hE
    have := only_identity p1 hi hh hc (X * (turn cyc)⁻¹) (hX.mul hcr.inv) ⟨D, fun i a b ha hb => by
      rw [ha] at hb
      simp only [Option.some.injEq] at hb
      subst hb
      have := hD i a ((turn cyc)⁻¹ * a) ha (by rw [List.getElem?_map, ha]; rfl)
      rw [← this]
      simp only [Matrix.mul_assoc]⟩
    calc X = X * (turn cyc)⁻¹ * turn cyc := by rw [Matrix.mul_assoc, hcr.inv_mul, Matrix.mul_one]
      _ = turn cyc := by rw [this, Matrix.one_mul]
  have plain : ∀ p2, p2.length = p1.length → handeyeCalibration lib p1 p2 =
      (lib.horaud ((p1.zip p2).map fun e => motion lib.ro e.1 e.2) >>= fun x => .ok (RT2Proj x.1 x.2)) := by
    intro p2 hlen
    unfold handeyeCalibration
    rw [motions_ok lib.ro p1 p2 _ [] (fun s hs => by rw [List.mem_range] at hs; exact ⟨hs, hlen ▸ hs⟩), Outcome.bind_ok,
      all_pairs p1 p2 hlen.symm]
    rfl
  have self : ∃ Y, handeyeCalibration lib p1 p1 = .ok Y ∧ IsRigid Y ∧ Explains Y p1 p1 := by
    obtain ⟨R, T, e1, e2, e3⟩ := hho p1 (by simp)
    refine ⟨RT2Proj R T, ?_, ⟨R, T, e2, rfl⟩, e3⟩
    rw [plain p1 rfl, e1]
    rfl
  obtain ⟨w1, w2⟩ := C35_wrong lib hl hsvd h0 h1 p1 hr h6 hi hh hc hsol self
  refine ⟨?_, uniq⟩
  by_cases ha : approach = 0
  · subst ha
    rw [if_pos rfl]
    exact w2
  · rw [if_neg ha]
    unfold handEye
    rw [if_neg ha]
    obtain ⟨R, T, e1, e2, e3⟩ := hho (p1.map ((turn cyc)⁻¹ * ·)) (by simp)
    rw [plain _ (by simp), e1, ← uniq _ ⟨R, T, e2, rfl⟩ e3]
    rfl

/-- The hypotheses of `C35_approach` are met. -/
theorem C35_approach_met : ∃ (lib : Lib) (p1 : List (Mat4 ℝ)), Contracts lib ∧ (∀ A, TopSingular A (lib.svd A)) ∧
    0 ≤ lib.eps ∧ lib.eps ≤ 0.01 ∧ Rigids p1 ∧ 6 ≤ p1.length ∧ 1 ∈ p1 ∧ turn half ∈ p1 ∧ turn cyc ∈ p1 ∧
    (∀ Y, Solution lib p1 (p1.map ((turn cyc)⁻¹ * ·)) Y → Y = turn cyc) ∧
    ∀ p2 ∈ [p1, p1.map ((turn cyc)⁻¹ * ·)],
      ∃ R T, lib.horaud ((p1.zip p2).map fun e => motion lib.ro e.1 e.2) = .ok (R, T) ∧ IsRot R ∧
        Explains (RT2Proj R T) p1 p2 := by
  classical
  obtain ⟨svd, hsvd⟩ := Verif.Props.Quaternion.C32_svd
  let lib : Lib :=
    { ro := Verif.Lemmas.Rodrigues.rod, svd := svd, eps := 0.0001
      kmeans := fun rows k => (List.range rows.length).map fun i => min i (k - 1)
      shuffle := fun _ l => l, pick := fun _ _ _ => 0
      tsai := fun _ => .ok (cyc, ![0, 0, 0])
      horaud := fun ms => if ms.head?.map (·.r2) = some 1 then .ok (1, fun _ => 0) else .ok (cyc, ![0, 0, 0]) }
  let p1 : List (Mat4 ℝ) := [1, turn half, turn cyc, 1, 1, 1]
  have hr : Rigids p1 := by
    intro a ha
    simp only [p1, List.mem_cons, List.not_mem_nil, or_false] at ha
    rcases ha with rfl | rfl | rfl | rfl | rfl | rfl
    · exact IsRigid.one
    · exact ⟨_, _, half_rot, rfl⟩
    · exact ⟨_, _, cyc_rot, rfl⟩
    · exact IsRigid.one
    · exact IsRigid.one
    · exact IsRigid.one
  have hcr : IsRigid (turn cyc) := ⟨_, _, cyc_rot, rfl⟩
  have hright : turn cyc * (turn cyc)⁻¹ = 1 := mul_eq_one_comm.1 hcr.inv_mul
  have hone : projRot (1 : Mat4 ℝ) = 1 := by
    have := projRot_RT2Proj (1 : Mat3 ℝ) (fun _ => 0)
    rwa [RT2Proj_one] at this
  have hfirst : ∀ (b : Mat4 ℝ), IsRigid b → (motion lib.ro 1 b).r2 = projRot b := fun b hb =>
    Verif.Lemmas.Rodrigues.rod_sound.back _ hb.rot
  refine ⟨lib, p1, ⟨Verif.Lemmas.Rodrigues.rod_sound, fun _ _ => List.Perm.refl _, fun _ _ _ h => h, ?_, ?_⟩, hsvd,
    by norm_num [lib], by norm_num [lib], hr, by simp [p1], by simp [p1], by simp [p1], by simp [p1], ?_, ?_⟩
  · intro rows k hk hk'
    refine ⟨by simp [lib], fun c hc => List.mem_map.2 ⟨c, List.mem_range.2 (by omega), by omega⟩⟩
  · intro ms; exact ⟨cyc, _, rfl, cyc_rot⟩
  · rintro Y ⟨sel, -, -, -, R, T, h, -, rfl⟩
    simp only [lib, Outcome.ok.injEq, Prod.mk.injEq] at h
    rw [← h.1, ← h.2]; rfl
  · intro p2 hp2
    simp only [List.mem_cons, List.not_mem_nil, or_false] at hp2
    rcases hp2 with rfl | rfl
    · refine ⟨1, fun _ => 0, ?_, ?_, ?_⟩
      · show (if _ then _ else _) = _
        rw [if_pos]
        show some (motion lib.ro 1 1).r2 = some 1
        rw [hfirst 1 IsRigid.one, hone]
      · have := (IsRigid.one (K := ℝ)).rot
        rwa [hone] at this
      · rw [RT2Proj_one]; exact C35_self p1 hr
    · refine ⟨cyc, ![0, 0, 0], ?_, cyc_rot, ?_⟩
      · show (if _ then _ else _) = _
        rw [if_neg]
        show ¬ some (motion lib.ro 1 ((turn cyc)⁻¹ * 1)).r2 = some 1
        rw [Matrix.mul_one, hfirst _ hcr.inv]
        intro h
        rw [turn, RT2Proj_inv cyc_rot _, projRot_RT2Proj, Option.some.injEq] at h
        have := congrFun (congrFun h 0) 0
        simp [cyc] at this
      · refine ⟨1, fun i a b ha hb => ?_⟩
        rw [List.getElem?_map, ha] at hb
        simp only [Option.map_some, Option.some.injEq] at hb
        rw [← hb]
        show a⁻¹ * turn cyc * ((turn cyc)⁻¹ * a) = 1
        rw [Matrix.mul_assoc, ← Matrix.mul_assoc (turn cyc), hright, Matrix.one_mul,
          (hr a (List.mem_of_getElem? ha)).inv_mul]

/-! ### In the workflow -/

/-- The hand-eye calibration of the workflow, on rigid poses (a result that is no rigid pose counts as an error). -/
noncomputable def handEyePose (lib : Lib) (approach : Int) (ps : List (Pose ℝ × Pose ℝ)) : Outcome (Pose ℝ) := by
  classical
  exact handEye lib approach (ps.map fun e => e.1.1) (ps.map fun e => e.2.1) >>= fun M =>
    if h : IsRigid M then .ok ⟨M, h⟩ else .throw

private theorem combine_rigid (lib : Lib) (hl : Contracts lib) (l : List (Vec3 ℝ × Vec3 ℝ)) : IsRigid (combine lib l) :=
  ⟨_, _, hl.ro.rot _, rfl⟩

/-- What a combination of several rigid poses should be: a rigid pose whose translation has the medians of their
coordinates and whose rotation is a mean, minimising the sum of squared distances to their rotations. -/
def Combined (good : List (Mat4 ℝ)) (X : Mat4 ℝ) : Prop :=
  IsRigid X ∧ X 0 3 = Average.median (good.map fun M => M 0 3) ∧ X 1 3 = Average.median (good.map fun M => M 1 3) ∧
  X 2 3 = Average.median (good.map fun M => M 2 3) ∧
  ∀ S : Mat3 ℝ, IsRot S → (good.map fun M => Props.Quaternion.frobenius (projRot M) (projRot X)).sum ≤
    (good.map fun M => Props.Quaternion.frobenius (projRot M) S).sum

/-- C35: with more than three accepted solutions the result is their combination. -/
theorem C35_combined (lib : Lib) (hl : Contracts lib) (hsvd : ∀ A, TopSingular A (lib.svd A)) (nbIt nbCluster : Nat)
    (hc : 6 ≤ nbCluster) (p1 p2 : List (Mat4 ℝ)) (hlen : p1.length = p2.length) (h6 : 6 ≤ p1.length) (h1 : Rigids p1)
    (h2 : Rigids p2) :
    ∃ sols : List (Mat4 ℝ), sols.length = nbIt ∧ (∀ X ∈ sols, Solution lib p1 p2 X ∧ IsRigid X) ∧
      (3 < (passing lib sols).length →
        ∃ X, bootstrap lib nbCluster nbIt p1 p2 = .ok X ∧ Combined (passing lib sols) X) ∧
      ((passing lib sols).length ≤ 3 → bootstrap lib nbCluster nbIt p1 p2 = handeyeCalibration lib p1 p1) := by
  obtain ⟨sols, a1, a2, b5⟩ := C35_result lib hl nbIt nbCluster hc p1 p2 hlen h6 h1 h2
  refine ⟨sols, a1, a2, fun h3 => ⟨_, by rw [b5, if_pos h3], ?_⟩, fun h3 => by rw [b5, if_neg (by omega)]⟩
  have hgood : ∀ M ∈ passing lib sols, IsRigid M := fun M hM => (a2 M (mem_passing.1 hM).1).2
  generalize passing lib sols = good at hgood
  have hrot : ∀ M ∈ good, lib.ro.toMat (lib.ro.toVec (projRot M)) = projRot M := by
    intro M hM
    obtain ⟨R, T, hR, rfl⟩ := hgood M hM
    rw [projRot_RT2Proj]
    exact hl.ro.back R hR
  refine ⟨combine_rigid lib hl _, ?_, ?_, ?_, ?_⟩
  · simp only [combine, RVecT2Proj, RT2Proj, List.map_map]
    rfl
  · simp only [combine, RVecT2Proj, RT2Proj, List.map_map]
    rfl
  · simp only [combine, RVecT2Proj, RT2Proj, List.map_map]
    rfl
  · intro S hS
    have hm := (Props.Quaternion.C32_mean lib.ro lib.svd hl.ro hsvd (good.map fun M => lib.ro.toVec (projRot M))).2 S hS
    have e : projRot (combine lib (good.map (Proj2RT lib.ro))) =
        lib.ro.toMat (Quaternion.quaternionAverage lib.ro lib.svd (good.map fun M => lib.ro.toVec (projRot M))) := by
      unfold combine RVecT2Proj
      rw [projRot_RT2Proj, List.map_map]
      rfl
    rw [e]
    simp only [List.map_map] at hm
    have e1 : ∀ Y : Mat3 ℝ, (good.map fun M => Props.Quaternion.frobenius (projRot M) Y) =
        good.map ((fun r => Props.Quaternion.frobenius (lib.ro.toMat r) Y) ∘ fun M => lib.ro.toVec (projRot M)) := by
      intro Y
      apply List.map_congr_left
      intro M hM
      rw [Function.comp_apply, hrot M hM]
    rw [e1, e1]
    exact hm

/-- C34: the bootstrap meets the hypotheses of `NonOverlap.C34_pairs`: undefined on four or five pose pairs,
returning on six or more (if the plain hand-eye calibration does). -/
theorem C34_bootstrap (lib : Lib) (hl : Contracts lib) (hho : ∀ ms, ∃ R T, lib.horaud ms = .ok (R, T) ∧ IsRot R) :
    (∀ ps, 3 < ps.length → ps.length < 6 → handEyePose lib 0 ps = .ub) ∧
    (∀ ps, 6 ≤ ps.length → ∃ x, handEyePose lib 0 ps = .ok x) := by
  constructor
  · intro ps h4 h6
    unfold handEyePose handEye
    rw [if_pos rfl]
    rw [C34_few_poses lib hl.shuffle 20 200 (by norm_num) (by norm_num) _ _ (by simp; omega) (by simp; omega)]
    rfl
  · intro ps h6
    have r1 : Rigids (ps.map fun e => e.1.1) := by
      intro a ha
      obtain ⟨e, -, rfl⟩ := List.mem_map.1 ha
      exact e.1.2
    have r2 : Rigids (ps.map fun e => e.2.1) := by
      intro a ha
      obtain ⟨e, -, rfl⟩ := List.mem_map.1 ha
      exact e.2.2
    obtain ⟨sols, -, -, e⟩ := C35_result lib hl 200 20 (by norm_num) _ _ (by simp)
      (by simpa using h6) r1 r2
    have : ∃ M, bootstrap lib 20 200 (ps.map fun e => e.1.1) (ps.map fun e => e.2.1) = .ok M ∧ IsRigid M := by
      rw [e]
      split_ifs
      · exact ⟨_, rfl, combine_rigid lib hl _⟩
      · unfold handeyeCalibration
        rw [motions_ok lib.ro _ _ _ [] (fun s hs => by rw [List.mem_range] at hs; exact ⟨hs, hs⟩), Outcome.bind_ok]
        obtain ⟨R, T, h1, h2⟩ := hho _
        rw [h1]
        exact ⟨_, rfl, R, T, h2, rfl⟩
    obtain ⟨M, h1, h2⟩ := this
    unfold handEyePose handEye
    rw [if_pos rfl]
    rw [h1, Outcome.bind_ok, dif_pos h2]
    exact ⟨_, rfl⟩

/-- C34: with the plain calibration no number of pose pairs is an error (if the solver returns a rotation). -/
theorem C34_plain (lib : Lib) (hho : ∀ ms, ∃ R T, lib.horaud ms = .ok (R, T) ∧ IsRot R) (approach : Int)
    (ha : approach ≠ 0) (ps : List (Pose ℝ × Pose ℝ)) : ∃ x, handEyePose lib approach ps = .ok x := by
  unfold handEyePose handEye handeyeCalibration
  rw [if_neg ha, motions_ok lib.ro _ _ _ [] (fun s hs => by rw [List.mem_range] at hs; simpa using hs), Outcome.bind_ok]
  obtain ⟨R, T, h1, h2⟩ := hho _
  rw [h1]
  have hp : (pure (RT2Proj R T) : Outcome (Mat4 ℝ)) = .ok (RT2Proj R T) := rfl
  simp only [Outcome.bind_ok, hp]
  rw [dif_pos ⟨R, T, h2, rfl⟩]
  exact ⟨_, rfl⟩

/-- C34: the poses are clustered by where they are: of the answers of `cv::kmeans`, only the one for the rows of six
numbers, position of the first and position of the second pose of each pair, has an effect. -/
theorem C34_rows (lib : Lib) (km : List (List ℝ) → Nat → List Nat) (nbCluster nbIt : Nat) (p1 p2 : List (Mat4 ℝ))
    (h : ∀ k, km ((p1.zip p2).map fun e => [e.1 0 3, e.1 1 3, e.1 2 3, e.2 0 3, e.2 1 3, e.2 2 3]) k =
      lib.kmeans ((p1.zip p2).map fun e => [e.1 0 3, e.1 1 3, e.1 2 3, e.2 0 3, e.2 1 3, e.2 2 3]) k) :
    bootstrap { lib with kmeans := km } nbCluster nbIt p1 p2 = bootstrap lib nbCluster nbIt p1 p2 := by
  have e : translations p1 p2 =
      (p1.zip p2).map fun e => [e.1 0 3, e.1 1 3, e.1 2 3, e.2 0 3, e.2 1 3, e.2 2 3] := rfl
  rw [← e] at h
  unfold bootstrap
  simp only [h]
  rfl

end Verif.Props.HandEye
