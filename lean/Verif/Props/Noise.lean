import Verif.Lemmas.Noise
import Verif.Props.Majority

/-!
C95: how far off the initial structure can be. Poses are rigid 4x4 matrices, stored as rotation vector and translation
with Rodrigues' formula; `len` and `Off` are in Spec/Noise, `Most` and `Near` in Spec/Majority, `boardMeasures` and
`cameraMeasures` in Spec/Trust.
-/
namespace Verif.Props.Noise
open Verif Verif.Objects Verif.Groups Verif.Structure Verif.Spec.Objects Verif.Spec.Groups Verif.Spec.Structure
open Verif.Spec.Store Verif.Spec.Trust Verif.Spec.Majority Verif.Spec.Noise Verif.Average Verif.Props.Trust Verif.Props.Majority
open Verif.Rigid Verif.Quaternion Verif.Lemmas.Rodrigues Verif.Lemmas.Noise

variable {P Path : Type}

/-- C95 (rotations): rotations are at most as far apart as their rotation vectors: the results for a vector `v` differ by at
most `|r - r'| |v|`. -/
theorem C95_rotation (r r' v : Vec3 ℝ) : len ((rod.toMat r).mulVec v - (rod.toMat r').mulVec v) ≤ len (r - r') * len v :=
  rodMat_near r r' v

/-- C95 (averages): if more than half of the measured poses are within `δ` of a pose in each of the six numbers, the average
moves no point `p` further than `√3 δ (1 + |p|)` from where that pose moves it. -/
theorem C95_average (zs : List (Pose ℝ)) (x : Pose ℝ) (δ : ℝ) (h : Most (fun z => Near δ (Pose.toVec rod z) (Pose.toVec rod x)) zs) :
    Off (Real.sqrt 3 * δ) (Real.sqrt 3 * δ) (interAverage (Pose.toVec rod) (Pose.ofVec rod rod_sound) zs) x := by
  have := off_of_near (C94_average _ (Pose.toVec rod x) δ (h.map (Pose.toVec rod) fun z hz => hz))
  rw [Pose.ofVec_toVec] at this
  exact this

theorem chain_off {α τ D : ℝ} (hα : 0 ≤ α) (Q : Nat → Pose ℝ) (φ : Nat × Nat → Pose ℝ) (p : List Nat) (a b : Nat)
    (ha : p.head? = some a) (hb : p.getLast? = some b) (hφ : ∀ e ∈ p.zip p.tail, Off α τ (φ e) ((Q e.1)⁻¹ * Q e.2))
    (hD : ∀ x ∈ p, ∀ y ∈ p, len (((Q x)⁻¹ * Q y) • (0 : Vec3 ℝ)) ≤ D) :
    Off ((p.length - 1 : Nat) * α) ((p.length - 1 : Nat) * (τ + α * D)) ((p.zip p.tail).map φ).prod ((Q a)⁻¹ * Q b) := by
  induction p generalizing a with
  | nil => cases ha
  | cons x p ih =>
    simp only [List.head?_cons, Option.some.injEq] at ha
    subst ha
    cases p with
    | nil =>
      simp only [List.getLast?_singleton, Option.some.injEq] at hb
      subst hb
      simp only [List.length_singleton, Nat.sub_self, Nat.cast_zero, zero_mul, List.tail_cons, List.zip_nil_right, List.map_nil,
        List.prod_nil, inv_mul_cancel]
      exact Off.refl 1
    | cons y p =>
      rw [List.getLast?_cons_cons] at hb
      have h1 := ih y rfl hb (fun e he => hφ e (by simp only [List.tail_cons, List.zip_cons_cons, List.mem_cons]; exact .inr he))
        (fun u hu v hv => hD u (List.mem_cons_of_mem _ hu) v (List.mem_cons_of_mem _ hv))
      have hbm : b ∈ x :: y :: p := List.mem_cons_of_mem _ (List.mem_of_getLast? hb)
      have h2 := (hφ (x, y) (by simp)).right hα ((Q y)⁻¹ * Q b) D (hD y (by simp) b hbm)
      have h3 := (h1.left (φ (x, y))).trans h2
      have e : (Q x)⁻¹ * Q y * ((Q y)⁻¹ * Q b) = (Q x)⁻¹ * Q b := by group
      rw [e] at h3
      simp only [List.tail_cons, List.zip_cons_cons, List.map_cons, List.prod_cons, List.length_cons, Nat.add_sub_cancel] at h3 ⊢
      refine h3.mono (le_of_eq ?_) (le_of_eq ?_)
      · push_cast; ring
      · push_cast; ring

theorem chain_reach {r : Nat → Nat → Prop} {p : List Nat} (h : p.IsChain r) {a : Nat} (ha : p.head? = some a) :
    ∀ x ∈ p, Relation.ReflTransGen r a x := by
  induction p generalizing a with
  | nil => cases ha
  | cons y p ih =>
    simp only [List.head?_cons, Option.some.injEq] at ha
    subst ha
    intro x hx
    rcases List.mem_cons.1 hx with rfl | hx
    · exact .refl
    · cases p with
      | nil => cases hx
      | cons z p =>
        rw [List.isChain_cons_cons] at h
        exact .head h.1 (ih h.2 rfl x hx)

section Boards
variable (nCam nBoard : Nat)
  (l : List (Insertion P Path)) (hl : ∀ a ∈ l, a.obs.cam < nCam ∧ a.obs.board < nBoard) (s : Store P Path)
  (hs : Store.run nCam nBoard l = .ok s) (pose : Nat → Pose ℝ) (bpts : List (List (Vec3 ℝ))) (hb : bpts.length = nBoard)
  (choose : Nat → Nat → Graph.DState → Nat)

include hl hs hb in
/-- C95 (boards): let more than half of the measured relative poses of any two boards seen together be within `δ` of the true
one, in each of the six numbers, and the boards of an object be no further than `D` apart. Then every point `p` of a board is
placed in the object at most `(n - 1) √3 δ (1 + 2 D + |p|)` from its true place, where `n` is the number of boards. -/
theorem C95_boards (Q : Nat → Pose ℝ) (δ : ℝ) (hδ : 0 ≤ δ)
    (hQ : ∀ a b, CoSeen l a b → Most (fun z => Near δ (Pose.toVec rod z) (Pose.toVec rod ((Q b)⁻¹ * Q a))) (boardMeasures l pose a b))
    (objs : OMap Nat (Object (Pose ℝ) (Vec3 ℝ)))
    (ho : buildObjects s pose (interAverage (Pose.toVec rod) (Pose.ofVec rod rod_sound)) bpts choose = .ok objs) (i : Nat)
    (o : Object (Pose ℝ) (Vec3 ℝ)) (hio : OMap.get? objs i = some o) (D : ℝ)
    (hD : ∀ a ∈ OMap.keys o.boards, ∀ b ∈ OMap.keys o.boards, len (((Q a)⁻¹ * Q b) • (0 : Vec3 ℝ)) ≤ D)
    (b : Nat) (hbo : b ∈ OMap.keys o.boards) :
    ∃ x, OMap.get? o.poses b = some x ∧ ∀ p, len (x • p - ((Q o.refBoard)⁻¹ * Q b) • p) ≤
      ((OMap.keys o.boards).length - 1 : Nat) * (Real.sqrt 3 * δ * (1 + 2 * D + len p)) := by
  obtain ⟨p, h1, _, h3⟩ := C79_boards nCam nBoard l hl s hs pose _ bpts hb choose
    (C79_average (Pose.toVec rod) (Pose.ofVec rod rod_sound) (Pose.ofVec_toVec rod rod_sound)).1 objs ho i o hio b hbo
  have hmem := (Props.Objects.C11_member nCam nBoard l hl s hs pose _ bpts hb choose objs ho).2.2 i o hio
  have hin : ∀ x ∈ p, x ∈ OMap.keys o.boards := by
    intro x hx
    have hr := ((Props.Objects.C12_reference nCam nBoard l hl s hs pose _ bpts hb choose objs ho).2.1 i o hio).2.1
    exact (hmem b hbo x).2 (((hmem b hbo o.refBoard).1 hr).trans (chain_reach h1.chain h1.head x hx))
  have hlen : p.length - 1 ≤ (OMap.keys o.boards).length - 1 :=
    Nat.sub_le_sub_right ((h1.nodup.subperm fun x hx => hin x hx).length_le) 1
  have hs3 : 0 ≤ Real.sqrt 3 * δ := mul_nonneg (Real.sqrt_nonneg _) hδ
  have hD0 : 0 ≤ D := (len_nonneg _).trans (hD b hbo b hbo)
  have h := chain_off (τ := Real.sqrt 3 * δ + Real.sqrt 3 * δ * D) (D := D) hs3 Q
    (fun e => (interAverage (Pose.toVec rod) (Pose.ofVec rod rod_sound) (boardMeasures l pose e.1 e.2))⁻¹) p _ _ h1.head h1.last
    (by
      intro e he
      have hco := chain_zip h1.chain e he
      have hm := List.of_mem_zip he
      have := (C95_average _ _ δ (hQ e.1 e.2 hco)).inv hs3 D (by
        rw [mul_inv_rev, inv_inv]
        exact hD _ (hin _ hm.1) _ (hin _ (List.mem_of_mem_tail hm.2)))
      rwa [mul_inv_rev, inv_inv] at this)
    (fun x hx y hy => hD x (hin x hx) y (hin y hy))
  refine ⟨_, h3, fun q => (h q).trans ?_⟩
  have hq := len_nonneg q
  have hk : ((p.length - 1 : Nat) : ℝ) ≤ ((OMap.keys o.boards).length - 1 : Nat) := by exact_mod_cast hlen
  have : (0 : ℝ) ≤ Real.sqrt 3 * δ * (1 + 2 * D + len q) := mul_nonneg hs3 (by linarith)
  refine le_trans (le_of_eq ?_) (mul_le_mul_of_nonneg_right hk this)
  ring

end Boards

section Cameras
variable (nCam nBoard : Nat) (l : List (Insertion P Path)) (hl : ∀ a ∈ l, a.obs.cam < nCam ∧ a.obs.board < nBoard) (s : Store P Path)
  (hs : Store.run nCam nBoard l = .ok s) (obs' : List (BoardObs P)) (hobs : Spec.Objects.SameViews s.obs obs')
  (bpts : List (List (Vec3 ℝ))) (objs : OMap Nat (Object (Pose ℝ) (Vec3 ℝ))) (hC : Spec.Objects.Collection bpts objs)
  (oo : List (ObjObs P)) (hoo : initAllObjectObs { s with obs := obs' } objs [] = .ok oo) (pose : Nat → Pose ℝ)
  (choose : Nat → Nat → Graph.DState → Nat)

include hl hs hobs hC hoo in
/-- C95 (cameras): let a camera have seen objects together with the reference camera of its group at least twice, and more than
half of the measured relative poses be within `δ` of the true one in each of the six numbers. Then a point `p` in the frame
of the reference camera is seen by the camera at most `√3 δ (1 + |p|)` from its true place. -/
theorem C95_cameras (gs : OMap Nat (CamGroup (Pose ℝ)))
    (hg : buildGroups s oo pose (interAverage (Pose.toVec rod) (Pose.ofVec rod rod_sound)) choose = .ok gs) (i : Nat)
    (g : CamGroup (Pose ℝ)) (hi : OMap.get? gs i = some g) (c : Nat) (hne : c ≠ g.refCam)
    (hdir : 2 ≤ (cameraMeasures oo pose g.refCam c).length) (C : Nat → Pose ℝ) (δ : ℝ)
    (hx : Most (fun z => Near δ (Pose.toVec rod z) (Pose.toVec rod (C c * (C g.refCam)⁻¹))) (cameraMeasures oo pose g.refCam c)) :
    ∃ x, OMap.get? g.poses c = some x ∧ ∀ p, len (x • p - (C c * (C g.refCam)⁻¹) • p) ≤ Real.sqrt 3 * δ * (1 + len p) := by
  have h := C80_cameras nCam nBoard l hl s hs obs' hobs bpts objs hC oo hoo pose _ choose
    (C79_average (Pose.toVec rod) (Pose.ofVec rod rod_sound) (Pose.ofVec_toVec rod rod_sound)).1 gs hg i g hi c hne (.inl hdir)
  refine ⟨_, h, fun p => (C95_average _ _ δ hx p).trans (le_of_eq ?_)⟩
  ring

end Cameras

/-! A concrete case: three boards seen in pairs, with measured poses off by up to a tenth in one direction, and one gross
error. -/

/-- The pose with the given shift along the first axis and no rotation. -/
noncomputable def shift (x : ℝ) : Pose ℝ := Pose.ofVec rod rod_sound ⟨0, 0, 0, x, 0, 0⟩

theorem shift_val (x : ℝ) : (shift x).1 = RT2Proj 1 ![x, 0, 0] := by
  show RT2Proj (rodMat ![0, 0, 0]) ![x, 0, 0] = _
  have : rodMat ![0, 0, 0] = 1 := by
    have h : angle ![(0 : ℝ), 0, 0] = 0 := by simp [angle]
    unfold rodMat
    simp only [h, if_true]
  rw [this]

theorem shift_mul (x y : ℝ) : shift x * shift y = shift (x + y) := by
  apply Subtype.ext
  show (shift x).1 * (shift y).1 = _
  rw [shift_val, shift_val, shift_val, Lemmas.Rigid.RT2Proj_mul, Lemmas.Rigid.transformPt_eq]
  congr 1
  · simp
  · ext i
    fin_cases i <;> simp [add_comm]

theorem shift_zero : shift 0 = 1 := by
  apply Subtype.ext
  rw [shift_val]
  refine Eq.trans ?_ Lemmas.Rigid.RT2Proj_one
  congr 1
  ext i
  fin_cases i <;> rfl

theorem shift_inv (x : ℝ) : (shift x)⁻¹ = shift (-x) := by
  rw [inv_eq_iff_mul_eq_one, shift_mul, add_neg_cancel, shift_zero]

theorem shift_toVec (x : ℝ) : Pose.toVec rod (shift x) = ⟨0, 0, 0, x, 0, 0⟩ := by
  have hr : rodVec 1 = ![0, 0, 0] := by
    have hq : toQuat 1 = ![0, 0, 0, 1] := by
      unfold toQuat
      have h3 : (0 : ℝ) < 1 + 1 + 1 := by norm_num
      have h4 : Real.sqrt (1 + 1 + 1 + 1) = 2 := by
        rw [show (1 : ℝ) + 1 + 1 + 1 = 2 * 2 by norm_num, Real.sqrt_mul_self (by norm_num)]
      simp only [Matrix.one_apply_eq, if_pos h3, h4]
      ext i
      fin_cases i
      · simp
      · simp
      · simp
      · show (2 : ℝ) * 0.5 = 1
        norm_num
    have ha : antipodal ![(0 : ℝ), 0, 0, 1] = ![0, 0, 0, 1] := by
      unfold antipodal
      rw [if_neg (by simp)]
    unfold rodVec
    rw [hq, ha]
    ext i
    fin_cases i <;> simp
  show (⟨rodVec (projRot (shift x).1) 0, rodVec (projRot (shift x).1) 1, rodVec (projRot (shift x).1) 2,
    projTrans (shift x).1 0, projTrans (shift x).1 1, projTrans (shift x).1 2⟩ : Vec6 ℝ) = _
  rw [shift_val, Lemmas.Rigid.projRot_RT2Proj, Lemmas.Rigid.projTrans_RT2Proj, hr]
  rfl

theorem shift_len (x : ℝ) : len (shift x • (0 : Vec3 ℝ)) = |x| := by
  rw [smul_eq, shift_val, Lemmas.Rigid.projRot_RT2Proj, Lemmas.Rigid.projTrans_RT2Proj]
  unfold len
  simp [Real.sqrt_sq_eq_abs]

/-- Measured poses in the views of `Majority.demo`: the last joint view of boards 0 and 1 is grossly wrong. -/
noncomputable def poses (i : Nat) : Pose ℝ := shift (([0, 101 / 10, 5, 149 / 10, 0, 1000, 7, 191 / 10] : List ℝ)[i]?.getD 0)

noncomputable def place (b : Nat) : Pose ℝ := shift (([0, 10, 22] : List ℝ)[b]?.getD 0)

theorem near_shift {x y δ : ℝ} (h : |x - y| ≤ δ) : Near δ (Pose.toVec rod (shift x)) (Pose.toVec rod (shift y)) := by
  have hδ : 0 ≤ δ := (abs_nonneg _).trans h
  rw [shift_toVec, shift_toVec]
  constructor <;> simp [hδ, h]

theorem measures {G : Type} [Group G] (pose : Nat → G) :
    boardMeasures demo pose 0 1 = [(pose 1)⁻¹ * pose 0, (pose 3)⁻¹ * pose 2] ++ [(pose 5)⁻¹ * pose 4] ∧
    boardMeasures demo pose 1 0 = [(pose 0)⁻¹ * pose 1, (pose 2)⁻¹ * pose 3] ++ [(pose 4)⁻¹ * pose 5] ∧
    boardMeasures demo pose 1 2 = [(pose 7)⁻¹ * pose 6] ++ [] ∧
    boardMeasures demo pose 2 1 = [(pose 6)⁻¹ * pose 7] ++ [] := ⟨rfl, rfl, rfl, rfl⟩

theorem most (a b : Nat) (h : CoSeen demo a b) :
    Most (fun z => Near (1 / 10) (Pose.toVec rod z) (Pose.toVec rod ((place b)⁻¹ * place a))) (boardMeasures demo poses a b) := by
  obtain ⟨hne, x, hx, y, hy, e1, e2, rfl, rfl⟩ := h
  have : ∀ x ∈ demo, ∀ y ∈ demo, x.obs.cam = y.obs.cam → x.obs.frame = y.obs.frame → x.obs.board ≠ y.obs.board →
      (x.obs.board, y.obs.board) = (0, 1) ∨ (x.obs.board, y.obs.board) = (1, 0) ∨ (x.obs.board, y.obs.board) = (1, 2) ∨
      (x.obs.board, y.obs.board) = (2, 1) := by decide
  have hk := this x hx y hy (by omega) (by omega) (by omega)
  simp only [Prod.mk.injEq] at hk
  obtain ⟨g01, g10, g12, g21⟩ := measures poses
  rcases hk with ⟨h1, h2⟩ | ⟨h1, h2⟩ | ⟨h1, h2⟩ | ⟨h1, h2⟩ <;> rw [h1, h2]
  · rw [g01]
    refine ⟨_, _, List.Perm.refl _, by simp, fun z hz => ?_⟩
    simp only [List.mem_cons, List.not_mem_nil, or_false] at hz
    rcases hz with rfl | rfl <;> simp only [poses, place, shift_inv, shift_mul] <;> apply near_shift <;> norm_num [abs_le]
  · rw [g10]
    refine ⟨_, _, List.Perm.refl _, by simp, fun z hz => ?_⟩
    simp only [List.mem_cons, List.not_mem_nil, or_false] at hz
    rcases hz with rfl | rfl <;> simp only [poses, place, shift_inv, shift_mul] <;> apply near_shift <;> norm_num [abs_le]
  · rw [g12]
    refine ⟨_, _, List.Perm.refl _, by simp, fun z hz => ?_⟩
    simp only [List.mem_cons, List.not_mem_nil, or_false] at hz
    subst hz
    simp only [poses, place, shift_inv, shift_mul]
    apply near_shift
    norm_num [abs_le]
  · rw [g21]
    refine ⟨_, _, List.Perm.refl _, by simp, fun z hz => ?_⟩
    simp only [List.mem_cons, List.not_mem_nil, or_false] at hz
    subst hz
    simp only [poses, place, shift_inv, shift_mul]
    apply near_shift
    norm_num [abs_le]

theorem apart (a b : Nat) : len (((place a)⁻¹ * place b) • (0 : Vec3 ℝ)) ≤ 22 := by
  have h : ∀ a : Nat, 0 ≤ ([0, 10, 22] : List ℝ)[a]?.getD 0 ∧ ([0, 10, 22] : List ℝ)[a]?.getD 0 ≤ 22 := by
    intro a
    match a with
    | 0 | 1 | 2 | _ + 3 => norm_num
  unfold place
  rw [shift_inv, shift_mul, shift_len, abs_le]
  constructor <;> linarith [(h a).1, (h a).2, (h b).1, (h b).2]

/-- The hypotheses of the theorem about boards hold. -/
example : ∃ s objs, Store.run 1 3 demo = .ok s ∧
    buildObjects s poses (interAverage (Pose.toVec rod) (Pose.ofVec rod rod_sound)) [[(0 : Vec3 ℝ)], [0], [0]] (fun _ _ _ => 0) = .ok objs ∧
    ∀ i o, OMap.get? objs i = some o → ∀ b ∈ OMap.keys o.boards, ∃ x, OMap.get? o.poses b = some x ∧
      ∀ p, len (x • p - ((place o.refBoard)⁻¹ * place b) • p) ≤
        ((OMap.keys o.boards).length - 1 : Nat) * (Real.sqrt 3 * (1 / 10) * (1 + 2 * 22 + len p)) := by
  have hl : ∀ a ∈ demo, a.obs.cam < 1 ∧ a.obs.board < 3 := by decide
  obtain ⟨s, hs, hd⟩ := Props.Store.C06_indexes 1 3 demo hl
  obtain ⟨objs, h1, _⟩ := Lemmas.Objects.buildObjects_ok (G := Pose ℝ) (Pt := Vec3 ℝ) hl hd poses
    (interAverage (Pose.toVec rod) (Pose.ofVec rod rod_sound)) [[0], [0], [0]] rfl (fun _ _ _ => 0)
  exact ⟨s, objs, hs, h1, fun i o hi b hb => C95_boards 1 3 demo hl s hs poses _ rfl _ place (1 / 10) (by norm_num) most objs h1 i o hi 22
    (fun a _ b _ => apart a b) b hb⟩

end Verif.Props.Noise
