import Verif.Spec.Hang
import Verif.Model.FromConfig

/-! Parts of the program that are not modelled and come back. -/
namespace Verif.Spec.Hang
open Verif.Ransac

variable {V G Pt K K' Path Img : Type}

/-- Projections that end. -/
structure Projects {P2 Pose : Type} (pr : ReproErr.Projection P2 Pose Pt K) : Prop where
  brown : ∀ c p l, Ends (pr.brown c p l)
  kannala : ∀ c p l, Ends (pr.kannala c p l)

/-- Projections of the reports that end. -/
structure Draws (en : Finish.Env V G Pt K Path Img) : Prop where
  brown : ∀ c p l, Ends (en.projBrown c p l)
  kannala : ∀ c p l, Ends (en.projKannala c p l)

/-- What is not modelled of the numerical parts ends. -/
structure SteadyNumeric (y : FromConfig.Numeric V G Pt K K' Img) : Prop where
  search : ∀ n c ps qs, Ends (y.search n c ps qs)
  refine : ∀ l, Ends (y.refine l) ∧ ∀ x, y.refine l = .ok x → Projects x.2
  pr : Projects y.pr
  later : ∀ j n c ps qs, Ends (y.e.search j n c ps qs)
  he : ∀ l, Ends (y.n.he l)
  en : Draws y.en

end Verif.Spec.Hang
