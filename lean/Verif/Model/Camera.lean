import Verif.Core.Outcome
import Verif.Model.Rigid

/-!
Model of the intrinsic parameter vector of a camera (Camera.cpp:24-126).  `std::array<double, 9>` is a
function of the index, of which 0..8 are used; rounding is not modelled.  A `cv::Mat` of a distortion
vector is the list of its entries (`at<double>(i)` beyond its end is undefined behaviour, the check being
compiled out of release builds).
-/
namespace Verif.Camera
open Rigid

variable {K : Type}

/-- `std::array<double, 9> intrinsics_` (Camera.hpp:46). -/
abbrev Intr (K : Type) := Nat → K

/-- `intrinsics_[i] = x`. -/
def put (I : Intr K) (i : Nat) (x : K) : Intr K := fun j => if j = i then x else I j

/-- Camera.cpp:24-32 `getCameraMat`. -/
def getCameraMat [Zero K] [One K] (I : Intr K) : Mat3 K :=
  !![I 0, 0, I 2; 0, I 1, I 3; 0, 0, 1]

/-- Camera.cpp:39-44 `setCameraMat`. -/
def setCameraMat (I : Intr K) (M : Mat3 K) : Intr K :=
  put (put (put (put I 0 (M 0 0)) 1 (M 1 1)) 2 (M 0 2)) 3 (M 1 2)

/-- Camera.cpp:59-60, 65-66: body of the loops of `setDistortionVector`. -/
def setStep (d : List K) (I : Intr K) (i : Nat) : Outcome (Intr K) := do
  let x ← Outcome.idx d (i - 4)
  pure (put I i x)

/-- Camera.cpp:56-69 `setDistortionVector` for a camera of distortion model `model`. -/
def setDistortionVector (model : Int) (I : Intr K) (d : List K) : Outcome (Intr K) :=
  if model = 0 then Outcome.foldlM (setStep d) I [4, 5, 6, 7, 8]
  else if model = 1 then Outcome.foldlM (setStep d) I [4, 5, 6, 7]
  else .ok I

/-- Camera.cpp:78-101 `getDistortionVectorVector`. -/
def getDistortionVector [Zero K] (model : Int) (I : Intr K) : List K :=
  if model = 0 then [4, 5, 6, 7, 8].map I
  else if model = 1 then [4, 5, 6, 7].map I
  else List.replicate 5 0

/-- Camera.cpp:122-126 `setIntrinsics`. -/
def setIntrinsics (model : Int) (I : Intr K) (M : Mat3 K) (d : List K) : Outcome (Intr K) :=
  setDistortionVector model (setCameraMat I M) d

/-- Camera.cpp:111-114 `getIntrinsics`. -/
def getIntrinsics [Zero K] [One K] (model : Int) (I : Intr K) : Mat3 K × List K :=
  (getCameraMat I, getDistortionVector model I)

end Verif.Camera
