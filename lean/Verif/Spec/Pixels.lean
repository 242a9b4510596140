import Verif.Spec.Exact
import Verif.Model.Ransac

/-! Exact pixels: what the cameras see when detection and projection have no error. -/
namespace Verif.Spec.Pixels
open Verif Verif.Spec.Exact Verif.Ransac

variable {G Pt P : Type} [Group G] [SMul G Pt]

/-- The pose `g` takes every scene point to its pixel. -/
def Explains (pix : Pt → P) (g : G) (scene : List Pt) (image : List P) : Prop :=
  ∀ e ∈ scene.zip image, e.2 = pix (g • e.1)

/-- A robust pose search that is exact on exact data: if only one pose explains all points, it finds it and removes
none of them. -/
def ExactSearch (pix : Nat → Pt → P) (search : Search Pt P G) : Prop :=
  ∀ k c scene image g, scene.length = image.length → 4 ≤ image.length → Explains (pix c) g scene image →
    (∀ g', Explains (pix c) g' scene image → g' = g) → search k c scene image = .ok (List.range image.length, g)

/-- The true pose of a board in the camera that observes it. -/
def seenAt (w : World G) (bo : BoardObs P) : G := w.cam bo.cam * (w.motion bo.frame * w.board bo.board)

/-- A detection of four or more corners at the pixels where the camera sees them, and that only the true pose of the
board explains. -/
structure ExactDetection (w : World G) (pix : Nat → Pt → P) (bpts : List (List Pt)) (bo : BoardObs P) : Prop where
  aligned : bo.pts.length = bo.ids.length
  four : 4 ≤ bo.pts.length
  exact : ∀ p k, (p, k) ∈ bo.pts.zip bo.ids →
    ∃ ps x, bpts[bo.board]? = some ps ∧ ps[k]? = some x ∧ p = pix bo.cam (seenAt w bo • x)
  only : ∀ g : G, (∀ p k ps x, (p, k) ∈ bo.pts.zip bo.ids → bpts[bo.board]? = some ps → ps[k]? = some x →
    p = pix bo.cam (g • x)) → g = seenAt w bo

end Verif.Spec.Pixels
