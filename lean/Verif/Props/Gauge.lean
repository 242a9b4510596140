import Verif.Props.Pipeline

/-!
C51 in the workflow: reference boards and reference cameras have the identity pose after every stage.
-/
namespace Verif.Props.Gauge
open Verif Verif.Pipeline Verif.NonOverlap Verif.Spec.Pipeline

variable {V G Pt P Path : Type} [Group G] [SMul G Pt] [DecidableEq P]

/-- Every object has its reference board, its least board, at the identity, and every group its reference
camera, its least camera. -/
structure AtIdentity (st : State G Pt P) : Prop where
  board : ∀ i o, OMap.get? st.objs i = some o → o.refBoard ∈ OMap.keys o.boards ∧
    (∀ b ∈ OMap.keys o.boards, o.refBoard ≤ b) ∧ OMap.get? o.poses o.refBoard = some 1
  cam : ∀ i g, OMap.get? st.t.groups i = some g → g.refCam ∈ OMap.keys g.cameras ∧
    (∀ c ∈ OMap.keys g.cameras, g.refCam ≤ c) ∧ OMap.get? g.poses g.refCam = some 1

theorem atIdentity {bpts : List (List Pt)} {frames : List Nat} {obs : List (BoardObs P)}
    {st : State G Pt P} (h : Consistent bpts frames obs st) : AtIdentity st :=
  ⟨fun i o ho => ⟨h.objs.ref_mem i o ho, h.objs.ref_least i o ho, h.objs.ref_pose i o ho⟩,
   fun i g hg => ⟨h.groups.ref_mem i g hg, h.groups.ref_least i g hg, h.groups.ref_pose i g hg⟩⟩

variable (nCam nBoard : Nat) (l : List (Insertion P Path))
  (hl : ∀ a ∈ l, a.obs.cam < nCam ∧ a.obs.board < nBoard) (s : Store P Path)
  (hs : Store.run nCam nBoard l = .ok s) (obs : List (BoardObs P))
  (hobs : Spec.Objects.SameViews s.obs obs) (bpts : List (List Pt)) (hb : bpts.length = nBoard)
  (n : Numerics V G)

include hl hs hobs hb in
/-- C51: after the stages up to the search for non-overlapping groups. -/
theorem C51_overlapping : ∃ st, overlapping n bpts s obs = .ok st ∧ AtIdentity st := by
  obtain ⟨st, h1, h2, _⟩ := Props.Pipeline.C52_overlapping nCam nBoard l hl s hs obs hobs bpts hb n
  exact ⟨st, h1, atIdentity h2⟩

include hl hs hobs hb in
/-- C51: and, whenever the first merge of camera groups and the merge of objects after it succeed, after
them. -/
theorem C51_merged (st st' : State G Pt P) (pp : PairPoses G) (h1 : overlapping n bpts s obs = .ok st)
    (h2 : nonOverlapping n st = .ok pp) (h3 : afterMerge n bpts s obs pp st = .ok st') : AtIdentity st' := by
  obtain ⟨st0, k1, k2, _⟩ := Props.Pipeline.C52_overlapping nCam nBoard l hl s hs obs hobs bpts hb n
  rw [h1] at k1
  simp only [Outcome.ok.injEq] at k1
  subst k1
  rcases Props.Pipeline.C52_merge nCam nBoard l hl s hs obs hobs bpts n st k2 pp h2 with
    ⟨st2, cs, m1, m2, _⟩ | ⟨m1, _⟩
  · rw [h3] at m1
    simp only [Outcome.ok.injEq] at m1
    subst m1
    exact atIdentity m2
  · rw [h3] at m1
    cases m1

end Verif.Props.Gauge
