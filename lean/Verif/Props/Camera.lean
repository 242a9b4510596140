import Verif.Model.Camera

/-!
C37: the intrinsic parameter vector of a camera.
-/
namespace Verif.Props.Camera
open Verif Verif.Camera Rigid

variable {K : Type}

/-- A pinhole camera matrix: no skew, last row (0, 0, 1). -/
def pinhole [Zero K] [One K] (fx fy cx cy : K) : Mat3 K := !![fx, 0, cx; 0, fy, cy; 0, 0, 1]

/-- Number of distortion coefficients of a model: five for Brown (0), four for Kannala (1). -/
def nbCoeffs : Int → Option Nat
  | 0 => some 5
  | 1 => some 4
  | _ => none

/-- C37: reading the camera matrix after setting it gives it back, if it is a pinhole matrix. -/
theorem C37_camera_matrix [Zero K] [One K] (I : Intr K) (fx fy cx cy : K) :
    getCameraMat (setCameraMat I (pinhole fx fy cx cy)) = pinhole fx fy cx cy := by
  simp [getCameraMat, setCameraMat, put, pinhole]

/-- C37: any other matrix is stored without its skew and with last row (0, 0, 1). -/
theorem C37_camera_matrix_any [Zero K] [One K] (I : Intr K) (M : Mat3 K) :
    getCameraMat (setCameraMat I M) = pinhole (M 0 0) (M 1 1) (M 0 2) (M 1 2) := by
  simp [getCameraMat, setCameraMat, put, pinhole]

/-- C37: setting a distortion vector of the right size (or longer) and reading it back gives its
coefficients, for both models, and leaves the camera matrix alone. -/
theorem C37_distortion [Zero K] [One K] (model : Int) (n : Nat) (hn : nbCoeffs model = some n)
    (I : Intr K) (d : List K) (hd : n ≤ d.length) :
    ∃ I', setDistortionVector model I d = .ok I' ∧ getDistortionVector model I' = d.take n ∧
      getCameraMat I' = getCameraMat I := by
  have hm : (model = 0 ∧ n = 5) ∨ (model = 1 ∧ n = 4) := by
    unfold nbCoeffs at hn
    split at hn <;> simp_all
  rcases hm with ⟨rfl, rfl⟩ | ⟨rfl, rfl⟩
  · match d, hd with
    | a :: b :: c :: e :: f :: r, _ =>
      refine ⟨_, by simp [setDistortionVector, Outcome.foldlM_cons, setStep, Outcome.idx, Outcome.foldlM]; rfl, ?_, ?_⟩
      · simp [getDistortionVector, put]
      · simp [getCameraMat, put]
  · match d, hd with
    | a :: b :: c :: e :: r, _ =>
      refine ⟨_, by simp [setDistortionVector, Outcome.foldlM_cons, setStep, Outcome.idx, Outcome.foldlM]; rfl, ?_, ?_⟩
      · simp [getDistortionVector, put]
      · simp [getCameraMat, put]

/-- C37: a distortion vector that is too short (an entry missing from the parameter file, or four
coefficients for a Brown camera) is read out of bounds. -/
theorem C37_distortion_short (model : Int) (n : Nat) (hn : nbCoeffs model = some n)
    (I : Intr K) (d : List K) (hd : d.length < n) : setDistortionVector model I d = .ub := by
  have hm : (model = 0 ∧ n = 5) ∨ (model = 1 ∧ n = 4) := by
    unfold nbCoeffs at hn
    split at hn <;> simp_all
  rcases hm with ⟨rfl, rfl⟩ | ⟨rfl, rfl⟩
  · match d, hd with
    | [], _ => simp [setDistortionVector, Outcome.foldlM_cons, setStep, Outcome.idx]
    | [_], _ => simp [setDistortionVector, Outcome.foldlM_cons, setStep, Outcome.idx]
    | [_, _], _ => simp [setDistortionVector, Outcome.foldlM_cons, setStep, Outcome.idx]
    | [_, _, _], _ => simp [setDistortionVector, Outcome.foldlM_cons, setStep, Outcome.idx]
    | [_, _, _, _], _ => simp [setDistortionVector, Outcome.foldlM_cons, setStep, Outcome.idx]
    | _ :: _ :: _ :: _ :: _ :: _, h => simp at h; omega
  · match d, hd with
    | [], _ => simp [setDistortionVector, Outcome.foldlM_cons, setStep, Outcome.idx]
    | [_], _ => simp [setDistortionVector, Outcome.foldlM_cons, setStep, Outcome.idx]
    | [_, _], _ => simp [setDistortionVector, Outcome.foldlM_cons, setStep, Outcome.idx]
    | [_, _, _], _ => simp [setDistortionVector, Outcome.foldlM_cons, setStep, Outcome.idx]
    | _ :: _ :: _ :: _ :: _, h => simp at h; omega

/-- C37: setting the camera matrix leaves the distortion coefficients alone. -/
theorem C37_matrix_keeps_distortion [Zero K] (model : Int) (I : Intr K) (M : Mat3 K) :
    getDistortionVector model (setCameraMat I M) = getDistortionVector model I := by
  unfold getDistortionVector
  split
  · simp [setCameraMat, put]
  · split
    · simp [setCameraMat, put]
    · rfl

/-- C37: what `setIntrinsics` stores, `getIntrinsics` returns. -/
theorem C37_intrinsics [Zero K] [One K] (model : Int) (n : Nat) (hn : nbCoeffs model = some n)
    (I : Intr K) (fx fy cx cy : K) (d : List K) (hd : d.length = n) :
    ∃ I', setIntrinsics model I (pinhole fx fy cx cy) d = .ok I' ∧
      getIntrinsics model I' = (pinhole fx fy cx cy, d) := by
  obtain ⟨I', h1, h2, h3⟩ := C37_distortion model n hn (setCameraMat I (pinhole fx fy cx cy)) d hd.ge
  refine ⟨I', h1, ?_⟩
  simp only [getIntrinsics, h2, h3, C37_camera_matrix, ← hd, List.take_length]

/-- C37: with an unsupported distortion model the coefficients are ignored and read as zeros. -/
theorem C37_unsupported [Zero K] (model : Int) (h : nbCoeffs model = none) (I : Intr K) (d : List K) :
    setDistortionVector model I d = .ok I ∧ getDistortionVector model I = List.replicate 5 0 := by
  have : model ≠ 0 ∧ model ≠ 1 := by
    constructor <;> rintro rfl <;> simp [nbCoeffs] at h
  simp [setDistortionVector, getDistortionVector, this.1, this.2]

/-- A Brown camera: matrix and coefficients are kept; four coefficients are not enough. -/
example : ∃ I', setIntrinsics 0 (fun _ => (0 : Rat)) (pinhole 800 810 320 240) [1, 2, 3, 4, 5] = .ok I' ∧
    getIntrinsics 0 I' = (pinhole 800 810 320 240, [1, 2, 3, 4, 5]) :=
  C37_intrinsics 0 5 rfl _ _ _ _ _ _ rfl

example : setDistortionVector 0 (fun _ => (0 : Rat)) [1, 2, 3, 4] = .ub :=
  C37_distortion_short 0 5 rfl _ _ (by decide)

end Verif.Props.Camera
