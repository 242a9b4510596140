import Verif.Lemmas.Scripts
import Verif.Lemmas.Rodrigues
import Verif.Props.Output

/-!
C73: the script that compares the calibration with the ground truth.
-/
namespace Verif.Props.ScriptsTruth
open Verif Verif.Output Verif.Groups Verif.Scripts Verif.Lemmas.Scripts Verif.Rigid Verif.Lemmas.Rigid
open Verif.Lemmas.Rodrigues Verif.Quaternion Verif.Lemmas.Quaternion Verif.Props.Output

/-! ### The error of a rotation -/

theorem trace_rodMat (r : Vec3 ℝ) : (rodMat r).trace = 1 + 2 * Real.cos (angle r) := by
  unfold rodMat
  by_cases h : angle r = 0
  · simp only [h, if_true, Real.cos_zero]
    rw [Matrix.trace_one]; norm_num
  · have hu := axis_unit h
    simp only [h, if_false]
    rw [Matrix.trace_fin_three]
    simp
    linear_combination (1 - Real.cos (angle r)) * hu

theorem angle_le_pi (R : Mat3 ℝ) : angle (rodVec R) ≤ Real.pi := by
  unfold rodVec
  have hw := antipodal_nonneg (toQuat R)
  generalize antipodal (toQuat R) = q at *
  set l := Real.sqrt (q 0 * q 0 + q 1 * q 1 + q 2 * q 2) with hl
  show angle (fun i : Fin 3 => 2 * Real.arccos (q 3) * (q i.castSucc / l)) ≤ Real.pi
  by_cases h0 : l = 0
  · have : angle (fun i : Fin 3 => 2 * Real.arccos (q 3) * (q i.castSucc / l)) = 0 := by simp [angle, h0]
    rw [this]; exact Real.pi_pos.le
  · rw [angle_rodVec (fun i : Fin 3 => q i.castSucc) hl h0 (by have := Real.arccos_nonneg (q 3); linarith)]
    have : Real.arccos (q 3) ≤ Real.pi / 2 := by rwa [Real.arccos_le_pi_div_two]
    linarith

theorem angle_nonneg (r : Vec3 ℝ) : 0 ≤ angle r := Real.sqrt_nonneg _

private theorem inv_rot {R : Mat3 ℝ} (h : IsRot R) : R⁻¹ = R.transpose := Matrix.inv_eq_right_inv h.orth

/-- C73: if the true rotation is the estimated one followed by a turn about an axis of at most half a turn, the error
is the angle of that turn, in degrees. -/
theorem C73_angle (E : Mat3 ℝ) (hE : IsRot E) (r : Vec3 ℝ) (hr : angle r ≤ Real.pi) :
    rotationError E (E * rodMat r) = .ok (some (angle r * (180 / Real.pi))) := by
  have hc : cosine E (E * rodMat r) = Real.cos (angle r) := by
    unfold cosine
    rw [inv_rot hE, ← Matrix.mul_assoc, hE.orth', Matrix.one_mul, trace_rodMat]
    norm_num
    ring
  unfold rotationError
  rw [if_neg (by rw [hE.det]; norm_num), hc]
  have : npArccos (Real.cos (angle r)) = some (angle r) := by
    unfold npArccos
    rw [if_pos ⟨Real.neg_one_le_cos _, Real.cos_le_one _⟩, Real.arccos_cos (angle_nonneg r) hr]
  rw [this]
  rfl

/-- C73: any two rotations differ by such a turn; so the error of a rotation is always a number, between 0 and 180. -/
theorem C73_rotation (E T : Mat3 ℝ) (hE : IsRot E) (hT : IsRot T) :
    ∃ r, T = E * rodMat r ∧ angle r ≤ Real.pi ∧ rotationError E T = .ok (some (angle r * (180 / Real.pi))) ∧
      0 ≤ angle r * (180 / Real.pi) ∧ angle r * (180 / Real.pi) ≤ 180 := by
  have hR : IsRot (E.transpose * T) := hE.transpose.mul hT
  have h1 : T = E * rodMat (rodVec (E.transpose * T)) := by
    rw [rodMat_rodVec _ hR, ← Matrix.mul_assoc, hE.orth, Matrix.one_mul]
  have hpi := Real.pi_pos
  have h2 := angle_le_pi (E.transpose * T)
  have h3 := angle_nonneg (rodVec (E.transpose * T))
  refine ⟨_, h1, h2, ?_, by positivity, ?_⟩
  · conv_lhs => rw [h1]
    exact C73_angle E hE _ h2
  · rw [← mul_div_assoc, div_le_iff₀ hpi]
    nlinarith

theorem rodMat_zero {r : Vec3 ℝ} (h : angle r = 0) : rodMat r = 1 := by
  unfold rodMat; simp [h]

/-- C73: the error of a rotation is 0 exactly if the rotations are equal. -/
theorem C73_zero (E T : Mat3 ℝ) (hE : IsRot E) (hT : IsRot T) : rotationError E T = .ok (some 0) ↔ E = T := by
  obtain ⟨r, h1, h2, h3, _⟩ := C73_rotation E T hE hT
  have hpi := Real.pi_pos
  rw [h3]
  constructor
  · intro h
    simp only [Outcome.ok.injEq, Option.some.injEq, mul_eq_zero, div_eq_zero_iff] at h
    have : angle r = 0 := by
      rcases h with h | h | h
      · exact h
      · norm_num at h
      · exact absurd h hpi.ne'
    rw [h1, rodMat_zero this, Matrix.mul_one]
  · intro h
    have h4 := C73_angle E hE 0 (by simp [angle]; exact hpi.le)
    rw [rodMat_zero (by simp [angle]), Matrix.mul_one] at h4
    rw [← h, h4] at h3
    rw [← h3]
    simp [angle]

/-- C73: it does not matter which of the two is called the estimate, nor in which frame both are given. -/
theorem C73_symmetric (E T S : Mat3 ℝ) (hE : IsRot E) (hT : IsRot T) (hS : IsRot S) :
    rotationError E T = rotationError T E ∧ rotationError (S * E) (S * T) = rotationError E T := by
  have hd : ∀ R : Mat3 ℝ, IsRot R → ¬R.det = 0 := fun R h => by rw [h.det]; norm_num
  have key : ∀ A B C D : Mat3 ℝ, IsRot A → IsRot C → cosine A B = cosine C D →
      rotationError A B = rotationError C D := by
    intro A B C D hA hC h
    unfold rotationError
    rw [if_neg (hd A hA), if_neg (hd C hC), h]
  constructor
  · apply key _ _ _ _ hE hT
    unfold cosine
    rw [inv_rot hE, inv_rot hT, ← Matrix.trace_transpose (E.transpose * T), Matrix.transpose_mul,
      Matrix.transpose_transpose]
  · apply key _ _ _ _ (hS.mul hE) hE
    unfold cosine
    rw [inv_rot (hS.mul hE), inv_rot hE, Matrix.transpose_mul, Matrix.mul_assoc, ← Matrix.mul_assoc S.transpose,
      hS.orth', Matrix.one_mul]

/-- C73, the second formula: it is used only if the matrices are not both rotations.  It mends a cosine above 1 (up
to 3), but for a cosine below -1 it is the same formula again, and the error is not a number. -/
theorem C73_fallback (E T : Mat3 ℝ) (hE : E.det ≠ 0) :
    (1 < cosine E T → cosine E T ≤ 3 →
      rotationError E T = .ok (some (Real.arccos (2 - cosine E T) * (180 / Real.pi)))) ∧
    (cosine E T < -1 → rotationError E T = .ok none) := by
  constructor
  · intro h1 h3
    unfold rotationError npArccos
    rw [if_neg hE, if_neg (by intro h; linarith [h.2]), abs_of_neg (by linarith)]
    have : 1 - -(1 - cosine E T) = 2 - cosine E T := by ring
    rw [this, if_pos ⟨by linarith, by linarith⟩]
    rfl
  · intro h1
    unfold rotationError npArccos
    rw [if_neg hE, if_neg (by intro h; linarith [h.1]), abs_of_pos (by linarith)]
    have : 1 - (1 - cosine E T) = cosine E T := by ring
    rw [this, if_neg (by intro h; linarith [h.1])]
    rfl

/-! ### The whole script -/

theorem translation_zero (a b : Vec3 ℝ) : translationError a b = 0 ↔ a = b := by
  unfold translationError
  rw [Real.sqrt_eq_zero (by positivity)]
  constructor
  · intro h
    have h0 := sq_nonneg (b 0 - a 0); have h1 := sq_nonneg (b 1 - a 1); have h2 := sq_nonneg (b 2 - a 2)
    have e0 : b 0 - a 0 = 0 := by have : (b 0 - a 0) ^ 2 = 0 := by linarith
                                  simpa using this
    have e1 : b 1 - a 1 = 0 := by have : (b 1 - a 1) ^ 2 = 0 := by linarith
                                  simpa using this
    have e2 : b 2 - a 2 = 0 := by have : (b 2 - a 2) ^ 2 = 0 := by linarith
                                  simpa using this
    ext i; fin_cases i
    · simp; linarith
    · simp; linarith
    · simp; linarith
  · rintro rfl; simp

theorem entry_zero (a b : Mat3 ℝ) (i j : Fin 3) : entryError a b i j = 0 ↔ a i j = b i j := by
  unfold entryError
  rw [Real.sqrt_sq_eq_abs, abs_eq_zero, sub_eq_zero]

private theorem mean_zero (l : List ℝ) (hl : ∀ x ∈ l, 0 ≤ x) (hne : l ≠ []) : npMean l = 0 ↔ ∀ x ∈ l, x = 0 := by
  have hn : (l.length : ℝ) ≠ 0 := by
    have : l.length ≠ 0 := by simpa using hne
    exact_mod_cast this
  unfold npMean
  rw [div_eq_zero_iff, or_iff_left hn]
  clear hne hn
  induction l with
  | nil => simp
  | cons a l ih =>
    have ih := ih fun x hx => hl x (by simp [hx])
    have h0 : 0 ≤ l.sum := List.sum_nonneg fun x hx => hl x (by simp [hx])
    have ha := hl a (by simp)
    simp only [List.sum_cons, List.mem_cons, forall_eq_or_imp, ← ih]
    constructor
    · intro h; constructor <;> linarith
    · rintro ⟨h1, h2⟩; rw [h1, h2]; simp

private theorem mean_some {α : Type} (l : List α) (hne : l ≠ []) (f : α → ℝ) :
    npMean? (l.map fun a => some (f a)) = some (npMean (l.map f)) := by
  unfold npMean?
  rw [if_neg (by simpa using hne)]
  have : (l.map fun a => some (f a)).mapM id = some (l.map f) := by
    clear hne
    induction l with
    | nil => rfl
    | cons a l ih => simp [List.mapM_cons, ih]
  rw [this]; rfl

theorem flip_flip : flipYZ * flipYZ = 1 := by
  ext i j
  fin_cases i <;> fin_cases j <;> simp [flipYZ, Matrix.mul_apply, Fin.sum_univ_succ]

/-- The ground truth with the axes of the calibration. -/
theorem flip_rigid (P : Mat4 ℝ) (h : IsRigid P) : IsRigid (flipYZ * P * flipYZ) := by
  have hf : IsRigid flipYZ := by
    refine ⟨!![1, 0, 0; 0, -1, 0; 0, 0, -1], fun _ => 0, ⟨?_, ?_⟩, ?_⟩
    · ext i j
      fin_cases i <;> fin_cases j <;> simp [Matrix.mul_apply, Fin.sum_univ_succ]
    · simp [Matrix.det_fin_three]
    · ext i j
      fin_cases i <;> fin_cases j <;> simp [flipYZ, RT2Proj]
  exact (hf.mul h).mul hf

private theorem rigid_det {M : Mat4 ℝ} (h : IsRigid M) : M.det ≠ 0 := by
  intro h0
  have := congrArg Matrix.det h.inv_mul
  rw [Matrix.det_mul, h0, mul_zero, Matrix.det_one] at this
  norm_num at this

private theorem rigid_ext {M N : Mat4 ℝ} (hM : IsRigid M) (hN : IsRigid N) (h1 : projRot M = projRot N)
    (h2 : projTrans M = projTrans N) : M = N := by rw [← hM.rebuild, ← hN.rebuild, h1, h2]

private theorem numCameras_file (n : Nat) (l : List (CamEntry ℝ (Pose ℝ))) :
    numCameras (.nbCamera n :: l) = n := rfl

private theorem est_ok (n : Nat) (l : List Nat) (node : Nat → CamNode ℝ (Pose ℝ)) (hall : ∀ c < n, c ∈ l) :
    readEstimate (.nbCamera n :: l.map fun c => .camera c (node c)) =
      .ok ((List.range n).map fun c => view (node c).pose.1 (node c).matrix) := by
  unfold readEstimate
  rw [numCameras_file]
  apply each_ok
  intro c hc
  unfold readCamera
  rw [lookup_cams, if_pos (hall c (List.mem_range.1 hc))]
  rfl

private theorem truth_ok (truth : List (Pose ℝ × Mat3 ℝ)) :
    each readTruth (truth.map fun t => (t.1.1, t.2)) =
      .ok (truth.map fun t => view (flipYZ * t.1.1 * flipYZ)⁻¹ t.2) := by
  rw [each_ok _ (fun e => view (flipYZ * e.1 * flipYZ)⁻¹ e.2)]
  · rw [List.map_map]; rfl
  · intro e he
    obtain ⟨t, _, rfl⟩ := List.mem_map.1 he
    unfold readTruth
    rw [if_neg (rigid_det (flip_rigid _ t.1.2))]

/-- The change of axes: y and z point the other way. -/
def axes : Mat4 ℝ := Matrix.diagonal ![1, -1, -1, 1]

theorem axes_eq : axes = flipYZ := by
  ext i j
  fin_cases i <;> fin_cases j <;> simp [axes, flipYZ, Matrix.diagonal]

/-- What the ground truth file says about a camera agrees with the result: the pose, up to the direction of two axes,
is the pose of the camera in the group, and the focal lengths and the principal point are those found. -/
structure Agrees (cam : CamData ℝ) (x : Pose ℝ) (t : Pose ℝ × Mat3 ℝ) : Prop where
  pose : axes * t.1.1 * axes = x.1
  fx : cam.intr 0 = t.2 0 0
  fy : cam.intr 1 = t.2 1 1
  u0 : cam.intr 2 = t.2 0 2
  v0 : cam.intr 3 = t.2 1 2

private theorem each_means (l : List (View × View)) (hne : l ≠ [])
    (hl : ∀ e ∈ l, IsRot e.1.rot ∧ IsRot e.2.rot) :
    ∃ es p, each cameraErrors l = .ok es ∧ printed es = p ∧
      (∀ x ∈ [p.rot, p.trans, p.fx, p.fy, p.u0, p.v0], ∃ v, x = some v) ∧
      (p.rot = some 0 ↔ ∀ e ∈ l, e.2.rot = e.1.rot) ∧ (p.trans = some 0 ↔ ∀ e ∈ l, e.2.trans = e.1.trans) ∧
      (p.fx = some 0 ↔ ∀ e ∈ l, e.2.intr 0 0 = e.1.intr 0 0) ∧
      (p.fy = some 0 ↔ ∀ e ∈ l, e.2.intr 1 1 = e.1.intr 1 1) ∧
      (p.u0 = some 0 ↔ ∀ e ∈ l, e.2.intr 0 2 = e.1.intr 0 2) ∧
      (p.v0 = some 0 ↔ ∀ e ∈ l, e.2.intr 1 2 = e.1.intr 1 2) := by
  have hr : ∀ e : View × View, ∃ v : ℝ, e ∈ l → rotationError e.2.rot e.1.rot = .ok (some v) ∧ 0 ≤ v := by
    intro e
    by_cases he : e ∈ l
    · obtain ⟨r, _, _, h, h0, _⟩ := C73_rotation e.2.rot e.1.rot (hl e he).2 (hl e he).1
      exact ⟨_, fun _ => ⟨h, h0⟩⟩
    · exact ⟨0, fun h => absurd h he⟩
  choose v hv using hr
  have hes : each cameraErrors l = .ok (l.map fun e =>
      { rot := some (v e), trans := translationError e.2.trans e.1.trans
        fx := entryError e.2.intr e.1.intr 0 0, fy := entryError e.2.intr e.1.intr 1 1
        u0 := entryError e.2.intr e.1.intr 0 2, v0 := entryError e.2.intr e.1.intr 1 2 }) := by
    apply each_ok
    intro e he
    unfold cameraErrors
    rw [(hv e he).1]; rfl
  refine ⟨_, _, hes, rfl, ?_, ?_, ?_, ?_, ?_, ?_, ?_⟩
  · simp only [printed, List.map_map, Function.comp_def, mean_some l hne]
    simp
  all_goals
    simp only [printed, List.map_map, Function.comp_def]
    rw [mean_some l hne, Option.some.injEq, mean_zero _ _ (by simpa using hne)]
    simp only [List.forall_mem_map]
  · refine forall₂_congr fun e he => ?_
    have := C73_zero e.2.rot e.1.rot (hl e he).2 (hl e he).1
    rw [(hv e he).1] at this
    simpa using this
  · intro x hx
    obtain ⟨e, he, rfl⟩ := List.mem_map.1 hx
    exact (hv e he).2
  · exact forall₂_congr fun e _ => translation_zero _ _
  · intro x hx
    obtain ⟨e, he, rfl⟩ := List.mem_map.1 hx
    exact Real.sqrt_nonneg _
  all_goals
    first
    | exact forall₂_congr fun e _ => entry_zero _ _ _ _
    | (intro x hx
       obtain ⟨e, he, rfl⟩ := List.mem_map.1 hx
       exact Real.sqrt_nonneg _)

/-- The script on a parameter file. -/
theorem exact_file (cams : List (CamData ℝ)) (i : Nat) (g : CamGroup (Pose ℝ)) (node : Nat → CamNode ℝ (Pose ℝ))
    (h2 : ∀ c ∈ OMap.keys g.cameras, NodeOf cams i g c (node c)) (hall : ∀ c < cams.length, c ∈ OMap.keys g.cameras)
    (hne : cams ≠ []) (truth : List (Pose ℝ × Mat3 ℝ)) (ht : truth.length = cams.length) :
    ∃ p, poseErrors (.nbCamera cams.length :: (OMap.keys g.cameras).map fun c => .camera c (node c))
        (truth.map fun t => (t.1.1, t.2)) = .ok p ∧
      (∀ x ∈ [p.rot, p.trans, p.fx, p.fy, p.u0, p.v0], ∃ v, x = some v) ∧
      ((∀ x ∈ [p.rot, p.trans, p.fx, p.fy, p.u0, p.v0], x = some 0) ↔
        ∀ c cam x t, cams[c]? = some cam → OMap.get? g.poses c = some x → truth[c]? = some t → Agrees cam x t) := by
  have hest := est_ok cams.length (OMap.keys g.cameras) node hall
  have hgt := truth_ok truth
  let l := (truth.map fun t => view (flipYZ * t.1.1 * flipYZ)⁻¹ t.2).zip
    ((List.range cams.length).map fun c => view (node c).pose.1 (node c).matrix)
  have hmem : ∀ e, e ∈ l ↔ ∃ c t, c < cams.length ∧ truth[c]? = some t ∧
      e = (view (flipYZ * t.1.1 * flipYZ)⁻¹ t.2, view (node c).pose.1 (node c).matrix) := by
    intro e
    rw [List.mem_iff_getElem?]
    constructor
    · rintro ⟨c, hc⟩
      rw [List.getElem?_zip_eq_some, List.getElem?_map, List.getElem?_map] at hc
      obtain ⟨k1, k2⟩ := hc
      obtain ⟨t, k3, k4⟩ := Option.map_eq_some_iff.1 k1
      obtain ⟨c', k5, k6⟩ := Option.map_eq_some_iff.1 k2
      have hlt : c < cams.length := by rw [← ht]; exact (List.getElem?_eq_some_iff.1 k3).1
      rw [List.getElem?_range hlt] at k5
      cases k5
      exact ⟨c, t, hlt, k3, by rw [k4, k6]⟩
    · rintro ⟨c, t, hlt, k3, rfl⟩
      refine ⟨c, ?_⟩
      rw [List.getElem?_zip_eq_some, List.getElem?_map, List.getElem?_map, k3, List.getElem?_range hlt]
      exact ⟨rfl, rfl⟩
  have hpos : 0 < cams.length := List.length_pos_iff.2 hne
  have hlne : l ≠ [] := by
    have : 0 < truth.length := by omega
    exact List.ne_nil_of_mem ((hmem _).2 ⟨0, truth[0], hpos, List.getElem?_eq_getElem this, rfl⟩)
  obtain ⟨es, p, q1, rfl, q2, q3, q4, q5, q6, q7, q8⟩ := each_means l hlne (by
    intro e he
    obtain ⟨c, t, hlt, k3, rfl⟩ := (hmem e).1 he
    exact ⟨(flip_rigid _ t.1.2).inv.rot, (node c).pose.2.rot⟩)
  refine ⟨printed es, ?_, q2, ?_⟩
  · unfold poseErrors
    rw [hest, Outcome.bind_ok, hgt, Outcome.bind_ok, if_pos (by simp [ht]), q1]
    rfl
  · simp only [List.mem_cons, List.not_mem_nil, or_false, forall_eq_or_imp, forall_eq, q3, q4, q5, q6, q7, q8]
    constructor
    · rintro ⟨a1, a2, a3, a4, a5, a6⟩ c cam x t hc hx htc
      have hlt : c < cams.length := (List.getElem?_eq_some_iff.1 hc).1
      have hm := (hmem _).2 ⟨c, t, hlt, htc, rfl⟩
      have hn := h2 c (hall c hlt)
      obtain ⟨cam', c1, _, c2, _⟩ := hn.camera
      obtain ⟨x', x1, x2⟩ := hn.pose
      rw [hc] at c1; cases c1
      rw [hx] at x1; cases x1
      have hpose : (node c).pose.1 = (flipYZ * t.1.1 * flipYZ)⁻¹ :=
        rigid_ext (node c).pose.2 (flip_rigid _ t.1.2).inv (a1 _ hm) (a2 _ hm)
      have h3 := a3 _ hm; have h4 := a4 _ hm; have h5 := a5 _ hm; have h6 := a6 _ hm
      simp only [view, c2] at h3 h4 h5 h6
      refine ⟨?_, by simpa using h3, by simpa using h4, by simpa using h5, by simpa using h6⟩
      rw [axes_eq]
      have h7 : (flipYZ * t.1.1 * flipYZ)⁻¹ * x.1 = 1 := by
        rw [← hpose]; exact congrArg Subtype.val x2
      have h8 := (flip_rigid _ t.1.2).inv_mul
      have hu : IsUnit (flipYZ * t.1.1 * flipYZ).det := isUnit_iff_ne_zero.2 (rigid_det (flip_rigid _ t.1.2))
      calc flipYZ * t.1.1 * flipYZ = flipYZ * t.1.1 * flipYZ * ((flipYZ * t.1.1 * flipYZ)⁻¹ * x.1) := by
              rw [h7, Matrix.mul_one]
        _ = x.1 := by rw [← Matrix.mul_assoc, Matrix.mul_nonsing_inv _ hu, Matrix.one_mul]
    · intro h
      have key : ∀ e ∈ l, e.2.rot = e.1.rot ∧ e.2.trans = e.1.trans ∧ e.2.intr 0 0 = e.1.intr 0 0 ∧
          e.2.intr 1 1 = e.1.intr 1 1 ∧ e.2.intr 0 2 = e.1.intr 0 2 ∧ e.2.intr 1 2 = e.1.intr 1 2 := by
        intro e he
        obtain ⟨c, t, hlt, htc, rfl⟩ := (hmem e).1 he
        have hn := h2 c (hall c hlt)
        obtain ⟨cam, c1, _, c2, _⟩ := hn.camera
        obtain ⟨x, x1, x2⟩ := hn.pose
        have hA := h c cam x t c1 x1 htc
        have hpose : (node c).pose.1 = (flipYZ * t.1.1 * flipYZ)⁻¹ := by
          rw [← axes_eq, hA.pose]
          have : (node c).pose = x⁻¹ := eq_inv_of_mul_eq_one_left x2
          rw [this]; rfl
        simp only [view, hpose, c2, true_and]
        exact ⟨hA.fx, hA.fy, hA.u0, hA.v0⟩
      exact ⟨fun e he => (key e he).1, fun e he => (key e he).2.1, fun e he => (key e he).2.2.1,
        fun e he => (key e he).2.2.2.1, fun e he => (key e he).2.2.2.2.1, fun e he => (key e he).2.2.2.2.2⟩

/-- C73: if the calibration ends with one group that holds all cameras, the script reads the saved file and a ground
truth of as many rigid poses, and prints numbers; all of them are 0 exactly if the ground truth agrees with the
result for every camera. -/
theorem C73_exact (cams : List (CamData ℝ)) (i : Nat) (g : CamGroup (Pose ℝ))
    (hC : Spec.Groups.Collection ([(i, g)] : OMap Nat (CamGroup (Pose ℝ))))
    (hcam : CamsKnown cams ([(i, g)] : OMap Nat (CamGroup (Pose ℝ)))) (hall : ∀ c < cams.length, c ∈ OMap.keys g.cameras)
    (hne : cams ≠ []) (truth : List (Pose ℝ × Mat3 ℝ)) (ht : truth.length = cams.length) :
    ∃ file p, saveCamerasParams cams ([(i, g)] : OMap Nat (CamGroup (Pose ℝ))) = .ok file ∧
      poseErrors file (truth.map fun t => (t.1.1, t.2)) = .ok p ∧
      (∀ x ∈ [p.rot, p.trans, p.fx, p.fy, p.u0, p.v0], ∃ v, x = some v) ∧
      ((∀ x ∈ [p.rot, p.trans, p.fx, p.fy, p.u0, p.v0], x = some 0) ↔
        ∀ c cam x t, cams[c]? = some cam → OMap.get? g.poses c = some x → truth[c]? = some t → Agrees cam x t) := by
  obtain ⟨node, h1, h2⟩ := C39_first_group cams i g [] hC hcam
  obtain ⟨p, h3, h4⟩ := exact_file cams i g node h2 hall hne truth ht
  exact ⟨_, p, h1, h3, h4⟩

/-- Where the camera of a pose stands: the point that the pose maps to the origin. -/
noncomputable def centre (x : Pose ℝ) : Vec3 ℝ := x⁻¹ • (0 : Vec3 ℝ)

theorem centre_spec (x : Pose ℝ) : x • centre x = 0 := by
  unfold centre; rw [smul_inv_smul]

/-- The ground truth pose with the axes of the calibration. -/
def turned (x : Pose ℝ) : Pose ℝ := ⟨axes * x.1 * axes, by rw [axes_eq]; exact flip_rigid _ x.2⟩

/-- The distance of two points. -/
noncomputable def dist3 (a b : Vec3 ℝ) : ℝ := Real.sqrt ((a 0 - b 0) ^ 2 + (a 1 - b 1) ^ 2 + (a 2 - b 2) ^ 2)

/-- Arithmetic mean. -/
noncomputable def mean (l : List ℝ) : ℝ := l.sum / l.length

theorem trans_centre (x : Pose ℝ) : projTrans (x⁻¹).1 = centre x := by
  unfold centre
  rw [smul_def, transformPt_eq, Matrix.mulVec_zero, zero_add]

set_option maxHeartbeats 1000000 in
/-- C73: what is printed, under the same conditions: the means, over the cameras, of the distance between the places
of the camera, of the angle of the turn between its two orientations, and of the absolute differences of the focal
lengths and of the coordinates of the principal point.  `xs` are the poses found, camera by camera. -/
theorem C73_values (cams : List (CamData ℝ)) (i : Nat) (g : CamGroup (Pose ℝ))
    (hC : Spec.Groups.Collection ([(i, g)] : OMap Nat (CamGroup (Pose ℝ))))
    (hcam : CamsKnown cams ([(i, g)] : OMap Nat (CamGroup (Pose ℝ)))) (hall : ∀ c < cams.length, c ∈ OMap.keys g.cameras)
    (hne : cams ≠ []) (truth : List (Pose ℝ × Mat3 ℝ)) (ht : truth.length = cams.length)
    (xs : List (Pose ℝ)) (hx : ∀ c < cams.length, OMap.get? g.poses c = xs[c]?) :
    ∃ file p, ∃ turn : List (Vec3 ℝ), saveCamerasParams cams ([(i, g)] : OMap Nat (CamGroup (Pose ℝ))) = .ok file ∧
      poseErrors file (truth.map fun t => (t.1.1, t.2)) = .ok p ∧
      p.trans = some (mean (((xs.take cams.length).zip truth).map fun e =>
        dist3 (centre e.1) (centre (turned e.2.1)))) ∧
      p.rot = some (mean (turn.map fun r => angle r * (180 / Real.pi))) ∧
      turn.length = cams.length ∧
      (∀ (c : Nat) (x : Pose ℝ) (t : Pose ℝ × Mat3 ℝ) (r : Vec3 ℝ), xs[c]? = some x → truth[c]? = some t → turn[c]? = some r → angle r ≤ Real.pi ∧
        projRot ((turned t.1)⁻¹).1 = projRot (x⁻¹).1 * rodMat r) ∧
      p.fx = some (mean ((cams.zip truth).map fun e => |e.1.intr 0 - e.2.2 0 0|)) ∧
      p.fy = some (mean ((cams.zip truth).map fun e => |e.1.intr 1 - e.2.2 1 1|)) ∧
      p.u0 = some (mean ((cams.zip truth).map fun e => |e.1.intr 2 - e.2.2 0 2|)) ∧
      p.v0 = some (mean ((cams.zip truth).map fun e => |e.1.intr 3 - e.2.2 1 2|)) := by
  obtain ⟨node, h1, h2⟩ := C39_first_group cams i g [] hC hcam
  -- the turns
  have hturn : ∀ c : Nat, ∃ r, ∀ (x : Pose ℝ) (t : Pose ℝ × Mat3 ℝ), xs[c]? = some x → truth[c]? = some t → angle r ≤ Real.pi ∧
      projRot ((turned t.1)⁻¹).1 = projRot (x⁻¹).1 * rodMat r ∧
      rotationError (projRot (x⁻¹).1) (projRot ((turned t.1)⁻¹).1) = .ok (some (angle r * (180 / Real.pi))) := by
    intro c
    cases hx : xs[c]? with
    | none => exact ⟨0, by simp⟩
    | some x =>
      cases htc : truth[c]? with
      | none => exact ⟨0, by simp⟩
      | some t =>
        obtain ⟨r, r1, r2, r3, _⟩ := C73_rotation (projRot (x⁻¹).1) (projRot ((turned t.1)⁻¹).1) (x⁻¹).2.rot
          ((turned t.1)⁻¹).2.rot
        refine ⟨r, ?_⟩
        intro x' t' e1 e2
        cases e1; cases e2
        exact ⟨r2, r1, r3⟩
  choose turn hturn using hturn
  have hxs : cams.length ≤ xs.length := by
    by_contra hlt
    have hlt : xs.length < cams.length := by omega
    obtain ⟨x, hx', _⟩ := (h2 _ (hall _ hlt)).pose
    rw [hx _ hlt, List.getElem?_eq_none (le_refl _)] at hx'
    cases hx'
  have hnode : ∀ c : Nat, ∀ hc : c < cams.length, (node c).pose = (xs[c]'(by omega))⁻¹ ∧
      (node c).matrix = !![cams[c].intr 0, 0, cams[c].intr 2; 0, cams[c].intr 1, cams[c].intr 3; 0, 0, 1] := by
    intro c hc
    have hn := h2 c (hall c hc)
    obtain ⟨x, x1, x2⟩ := hn.pose
    obtain ⟨cam, c1, _, c2, _⟩ := hn.camera
    rw [hx c hc, List.getElem?_eq_getElem (by omega)] at x1
    rw [List.getElem?_eq_getElem hc] at c1
    cases x1; cases c1
    exact ⟨eq_inv_of_mul_eq_one_left x2, c2⟩
  have hest := est_ok cams.length (OMap.keys g.cameras) node hall
  have hgt : each readTruth (truth.map fun t => (t.1.1, t.2)) =
      .ok (truth.map fun t => view ((turned t.1)⁻¹).1 t.2) := by
    rw [truth_ok]
    simp only [← axes_eq]
    rfl
  let E : Nat → Errors := fun c =>
    if hc : c < cams.length then
      { rot := some (angle (turn c) * (180 / Real.pi))
        trans := dist3 (centre (xs[c]'(by omega))) (centre (turned (truth[c]'(by omega)).1))
        fx := |cams[c].intr 0 - (truth[c]'(by omega)).2 0 0|, fy := |cams[c].intr 1 - (truth[c]'(by omega)).2 1 1|
        u0 := |cams[c].intr 2 - (truth[c]'(by omega)).2 0 2|, v0 := |cams[c].intr 3 - (truth[c]'(by omega)).2 1 2| }
    else ⟨none, 0, 0, 0, 0, 0⟩
  have hl : (truth.map fun t => view ((turned t.1)⁻¹).1 t.2).zip
      ((List.range cams.length).map fun c => view (node c).pose.1 (node c).matrix) =
      (List.range cams.length).attach.map fun c =>
        (view ((turned (truth[c.1]'(by have := List.mem_range.1 c.2; omega)).1)⁻¹).1
          (truth[c.1]'(by have := List.mem_range.1 c.2; omega)).2, view (node c.1).pose.1 (node c.1).matrix) := by
    apply List.ext_getElem
    · simp [ht]
    · intro c k1 k2
      simp
  have hes : each cameraErrors ((truth.map fun t => view ((turned t.1)⁻¹).1 t.2).zip
      ((List.range cams.length).map fun c => view (node c).pose.1 (node c).matrix)) =
      .ok ((List.range cams.length).map E) := by
    rw [hl]
    have hatt : (List.range cams.length).map E = (List.range cams.length).attach.map fun c => E c.1 := by
      simp
    rw [hatt]
    unfold each
    have key : ∀ (L : List {c // c ∈ List.range cams.length}) (acc : List Errors),
        Outcome.foldlM (collect cameraErrors) acc (L.map fun c =>
          (view ((turned (truth[c.1]'(by have := List.mem_range.1 c.2; omega)).1)⁻¹).1
            (truth[c.1]'(by have := List.mem_range.1 c.2; omega)).2, view (node c.1).pose.1 (node c.1).matrix)) =
          .ok (acc ++ L.map fun c => E c.1) := by
      intro L
      induction L with
      | nil => intro acc; simp
      | cons c L ih =>
        intro acc
        rw [List.map_cons, Outcome.foldlM_cons]
        have hc := List.mem_range.1 c.2
        have : cameraErrors (view ((turned (truth[c.1]'(by omega)).1)⁻¹).1 (truth[c.1]'(by omega)).2,
            view (node c.1).pose.1 (node c.1).matrix) = .ok (E c.1) := by
          unfold cameraErrors
          obtain ⟨n1, n2⟩ := hnode c.1 hc
          have hr := (hturn c.1 (xs[c.1]'(by omega)) (truth[c.1]'(by omega)) (List.getElem?_eq_getElem (by omega))
            (List.getElem?_eq_getElem (by omega))).2.2
          simp only [view, n1, n2]
          rw [hr, Outcome.bind_ok]
          simp only [E, hc, dif_pos, trans_centre, entryError, Real.sqrt_sq_eq_abs]
          have ht : ∀ a b : Vec3 ℝ, translationError a b = dist3 a b := by
            intro a b
            unfold translationError dist3
            congr 1; ring
          rw [ht]
          rfl
        unfold collect
        rw [this, Outcome.bind_ok]
        show Outcome.foldlM (collect cameraErrors) (acc ++ [E c.1]) _ = _
        rw [ih]
        simp
    rw [key]
    rfl
  have hr0 : List.range cams.length ≠ [] := by simpa using hne
  have hfields : ∀ (f : Errors → ℝ), npMean? ((List.range cams.length).map fun c => some (f (E c))) =
      some (npMean ((List.range cams.length).map fun c => f (E c))) := fun f => mean_some _ hr0 _
  have hzip : ∀ (f : Errors → ℝ) (q : CamData ℝ × Pose ℝ × Mat3 ℝ → ℝ),
      (∀ c : Nat, ∀ hc : c < cams.length, f (E c) = q (cams[c], truth[c]'(by omega))) →
      ((List.range cams.length).map fun c => f (E c)) = (cams.zip truth).map q := by
    intro f q hq
    apply List.ext_getElem
    · simp; omega
    · intro c k1 k2
      have hc : c < cams.length := by simpa using k1
      simp [hq c hc]
  refine ⟨_, printed ((List.range cams.length).map E), (List.range cams.length).map turn, h1, ?_, ?_, ?_, by simp, ?_,
    ?_, ?_, ?_, ?_⟩
  · unfold poseErrors
    rw [hest, Outcome.bind_ok, hgt, Outcome.bind_ok, if_pos (by simp [ht]), hes]
    rfl
  · simp only [printed, List.map_map, Function.comp_def]
    rw [hfields fun e => e.trans]
    congr 1
    show mean _ = mean _
    congr 1
    apply List.ext_getElem
    · simp; omega
    · intro c k1 k2
      have hc : c < cams.length := by simpa using k1
      simp [E, hc]
  · simp only [printed, List.map_map, Function.comp_def]
    have : ((List.range cams.length).map fun c => (E c).rot) =
        (List.range cams.length).map fun c => some (angle (turn c) * (180 / Real.pi)) := by
      apply List.map_congr_left
      intro c hc
      simp only [E, List.mem_range.1 hc, dif_pos]
    rw [this, mean_some _ hr0]
    rfl
  · intro c x t r k1 k2 k3
    have hc : c < cams.length := by rw [← ht]; exact (List.getElem?_eq_some_iff.1 k2).1
    rw [List.getElem?_map, List.getElem?_range hc] at k3
    cases k3
    exact ⟨(hturn c x t k1 k2).1, (hturn c x t k1 k2).2.1⟩
  all_goals
    simp only [printed, List.map_map, Function.comp_def]
  · rw [hfields fun e => e.fx]
    exact congrArg some (congrArg mean (hzip (fun e => e.fx) (fun e => |e.1.intr 0 - e.2.2 0 0|) fun c hc => by
      simp only [E, hc, dif_pos]))
  · rw [hfields fun e => e.fy]
    exact congrArg some (congrArg mean (hzip (fun e => e.fy) (fun e => |e.1.intr 1 - e.2.2 1 1|) fun c hc => by
      simp only [E, hc, dif_pos]))
  · rw [hfields fun e => e.u0]
    exact congrArg some (congrArg mean (hzip (fun e => e.u0) (fun e => |e.1.intr 2 - e.2.2 0 2|) fun c hc => by
      simp only [E, hc, dif_pos]))
  · rw [hfields fun e => e.v0]
    exact congrArg some (congrArg mean (hzip (fun e => e.v0) (fun e => |e.1.intr 3 - e.2.2 1 2|) fun c hc => by
      simp only [E, hc, dif_pos]))

/-- C73, failure: if a camera is not in the first group, the script stops with an exception. -/
theorem C73_missing (cams : List (CamData ℝ)) (gs : OMap Nat (CamGroup (Pose ℝ)))
    (hC : Spec.Groups.Collection gs) (hcam : CamsKnown cams gs) (file : List (CamEntry ℝ (Pose ℝ)))
    (h : saveCamerasParams cams gs = .ok file) (hgs : gs ≠ []) (c : Nat) (hc : c < cams.length)
    (hmiss : ∀ i g, OMap.get? gs i = some g → (∀ j ∈ OMap.keys gs, i ≤ j) → c ∉ OMap.keys g.cameras)
    (truth : List (Mat4 ℝ × Mat3 ℝ)) : poseErrors file truth = .throw := by
  have hno : lookup file c = none := by
    by_contra hne
    obtain ⟨n, hn⟩ := Option.ne_none_iff_exists'.1 hne
    obtain ⟨i, g, k1, k2, k3⟩ := (C39_found_iff cams gs hC hcam file h c).1 ⟨n, hn⟩
    exact hmiss i g k1 k2 k3
  have hn : numCameras file = cams.length := by
    match gs, hC, hcam, h, hgs with
    | (i, g) :: rest, hC, hcam, h, _ =>
      obtain ⟨node, h1, _⟩ := C39_first_group cams i g rest hC hcam
      rw [h1] at h
      cases h
      rfl
  unfold poseErrors
  have : readEstimate file = .throw := by
    unfold readEstimate
    rw [hn]
    have ho : ∀ d, readCamera file d = .throw ∨ ∃ b, readCamera file d = .ok b := by
      intro d
      unfold readCamera
      cases lookup file d with
      | none => exact Or.inl rfl
      | some n => exact Or.inr ⟨_, rfl⟩
    apply each_throw _ _ fun d _ => ho d
    exact ⟨c, List.mem_range.2 hc, by unfold readCamera; rw [hno]; rfl⟩
  rw [this]
  rfl

/-! ### The hypotheses are met -/

/-- One camera, with focal lengths 500 and 600. -/
noncomputable def demoCam : List (CamData ℝ) := [⟨0, fun i => if i = 0 then 500 else if i = 1 then 600 else 0, some (640, 480)⟩]

/-- Its group. -/
noncomputable def demoGroup : CamGroup (Pose ℝ) :=
  { id := 0, refCam := 0, cameras := [(0, ())], camIdx := [0], poses := [(0, 1)], objObs := [], frames := [] }

/-- With a true focal length of 503 the printed error of fx is 3, all others are 0. -/
theorem C73_example : ∃ file p, saveCamerasParams demoCam ([(0, demoGroup)] : OMap Nat (CamGroup (Pose ℝ))) = .ok file ∧
    poseErrors file [(1, !![503, 0, 0; 0, 600, 0; 0, 0, 1])] = .ok p ∧ p.fx = some 3 ∧ p.fy = some 0 ∧
    p.trans = some 0 := by
  obtain ⟨file, p, turn, h1, h2, h3, _, _, _, h4, h5, _⟩ := C73_values demoCam 0 demoGroup
    (by
      constructor
      · simp [OMap.Sorted]
      all_goals
        intro i
        first
        | (intro j g g' hg hg'
           simp only [OMap.get?] at hg hg'
           split at hg
           · split at hg'
             · rename_i a b; simp_all
             · cases hg'
           · cases hg)
        | (intro g hg
           simp only [OMap.get?] at hg
           split at hg
           · rename_i a
             cases hg
             simp_all [demoGroup, OMap.keys, OMap.Sorted, OMap.get?]
           · cases hg))
    (by
      intro i g hg c hc
      simp only [OMap.get?] at hg
      split at hg
      · cases hg
        simp only [demoGroup, OMap.keys, List.map_cons, List.map_nil, List.mem_singleton] at hc
        subst hc
        exact ⟨_, _, rfl, rfl⟩
      · cases hg)
    (by simp [demoCam, demoGroup, OMap.keys]) (by simp [demoCam])
    [(1, !![503, 0, 0; 0, 600, 0; 0, 0, 1])] rfl [1] (by
      intro c hc
      have : c = 0 := by simpa [demoCam] using hc
      subst this; rfl)
  refine ⟨file, p, h1, h2, ?_, ?_, ?_⟩
  · rw [h4]
    simp [demoCam, mean]
    norm_num
  · rw [h5]
    simp [demoCam, mean]
  · rw [h3]
    have : turned 1 = 1 := by
      apply Subtype.ext
      show axes * (1 : Mat4 ℝ) * axes = 1
      rw [Matrix.mul_one, axes_eq, flip_flip]
    simp [demoCam, mean, this, dist3]

/-- A half turn about the x axis is an error of 180 degrees. -/
example : rotationError 1 (1 * rodMat ![Real.pi, 0, 0]) = .ok (some 180) := by
  have hpi := Real.pi_pos
  have ha : angle ![Real.pi, 0, 0] = Real.pi := by
    simp [angle, Real.sqrt_mul_self hpi.le]
  rw [C73_angle 1 IsRot.one _ (by rw [ha]), ha]
  congr 2
  field_simp

end Verif.Props.ScriptsTruth
