import Verif.Lemmas.Rigid
import Mathlib.Algebra.Group.Action.Defs

/-!
The rigid poses (4x4 matrices built from a rotation and a translation) form a group under matrix
product and inverse, and act on points: the concrete instance of the group `G` of poses over which the
rest of the model is written.
-/
namespace Verif.Rigid
open Verif Verif.Lemmas.Rigid

variable {K : Type} [Field K]

/-- A 4x4 matrix that is a rotation and a translation. -/
def IsRigid (M : Mat4 K) : Prop := ∃ R T, IsRot R ∧ M = RT2Proj R T

theorem IsRigid.mul {M N : Mat4 K} (h : IsRigid M) (h' : IsRigid N) : IsRigid (M * N) := by
  obtain ⟨R, T, hR, rfl⟩ := h
  obtain ⟨S, U, hS, rfl⟩ := h'
  exact ⟨_, _, hR.mul hS, RT2Proj_mul R S T U⟩

theorem IsRigid.inv {M : Mat4 K} (h : IsRigid M) : IsRigid M⁻¹ := by
  obtain ⟨R, T, hR, rfl⟩ := h
  exact ⟨_, _, hR.transpose, RT2Proj_inv hR T⟩

theorem IsRigid.one : IsRigid (1 : Mat4 K) := ⟨1, fun _ => 0, IsRot.one, RT2Proj_one.symm⟩

theorem IsRigid.inv_mul {M : Mat4 K} (h : IsRigid M) : M⁻¹ * M = 1 := by
  obtain ⟨R, T, hR, rfl⟩ := h
  rw [RT2Proj_inv hR]; exact RT2Proj_inv_left hR T

theorem IsRigid.rebuild {M : Mat4 K} (h : IsRigid M) : RT2Proj (projRot M) (projTrans M) = M := by
  obtain ⟨R, T, hR, rfl⟩ := h
  rw [projRot_RT2Proj, projTrans_RT2Proj]

theorem IsRigid.rot {M : Mat4 K} (h : IsRigid M) : IsRot (projRot M) := by
  obtain ⟨R, T, hR, rfl⟩ := h
  rw [projRot_RT2Proj]; exact hR

/-- Rigid poses. -/
def Pose (K : Type) [Field K] := {M : Mat4 K // IsRigid M}

instance : Mul (Pose K) := ⟨fun a b => ⟨a.1 * b.1, a.2.mul b.2⟩⟩
instance : One (Pose K) := ⟨⟨1, IsRigid.one⟩⟩
noncomputable instance : Inv (Pose K) := ⟨fun a => ⟨a.1⁻¹, a.2.inv⟩⟩

noncomputable instance : Group (Pose K) where
  mul_assoc a b c := Subtype.ext (Matrix.mul_assoc a.1 b.1 c.1)
  one_mul a := Subtype.ext (Matrix.one_mul a.1)
  mul_one a := Subtype.ext (Matrix.mul_one a.1)
  inv_mul_cancel a := Subtype.ext a.2.inv_mul

/-- A pose moves a point as `transform3DPts` does. -/
instance : SMul (Pose K) (Vec3 K) := ⟨fun a p => transformPt (projRot a.1) (projTrans a.1) p⟩

theorem smul_def (a : Pose K) (p : Vec3 K) : a • p = transformPt (projRot a.1) (projTrans a.1) p := rfl

instance : MulAction (Pose K) (Vec3 K) where
  one_smul p := by
    rw [smul_def]
    have h : (1 : Pose K).1 = RT2Proj 1 (fun _ => 0) := RT2Proj_one.symm
    rw [h, projRot_RT2Proj, projTrans_RT2Proj, transformPt_one]
  mul_smul a b p := by
    rw [smul_def, smul_def, smul_def]
    have h : (a * b).1 = RT2Proj (projRot a.1) (projTrans a.1) * RT2Proj (projRot b.1) (projTrans b.1) := by
      rw [a.2.rebuild, b.2.rebuild]; rfl
    rw [h, RT2Proj_mul, projRot_RT2Proj, projTrans_RT2Proj, transformPt_comp]

/-- The pose of six numbers, for a sound `cv::Rodrigues`. -/
def Pose.ofVec (ro : Rodrigues K) (hro : ro.Sound) (v : Average.Vec6 K) : Pose K :=
  ⟨Rigid.ofVec ro v, _, _, hro.rot _, rfl⟩

/-- The six numbers of a pose. -/
def Pose.toVec (ro : Rodrigues K) (g : Pose K) : Average.Vec6 K := Rigid.toVec ro g.1

theorem ofVec_toVec (ro : Rodrigues K) (hro : ro.Sound) (M : Mat4 K) (h : IsRigid M) :
    Rigid.ofVec ro (Rigid.toVec ro M) = M := by
  unfold Rigid.ofVec Rigid.toVec RVecT2Proj Proj2RT
  have e1 : ∀ f : Vec3 K, ![f 0, f 1, f 2] = f := by
    intro f; ext i; fin_cases i <;> rfl
  simp only [e1]
  rw [hro.back _ h.rot, h.rebuild]

theorem Pose.ofVec_toVec (ro : Rodrigues K) (hro : ro.Sound) (g : Pose K) :
    Pose.ofVec ro hro (Pose.toVec ro g) = g := Subtype.ext (Rigid.ofVec_toVec ro hro g.1 g.2)

end Verif.Rigid
