import Verif.Lemmas.Schedule
import Verif.Model.Program

/-! The workflow with pose estimation does not look at the numbers of board observations. -/
set_option linter.unusedSectionVars false
set_option linter.unusedSimpArgs false
namespace Verif.Lemmas.ProgramSame
open Verif Verif.Objects Verif.Groups Verif.GroupPose Verif.NonOverlap Verif.Pipeline Verif.Structure Verif.Ransac
open Verif.Spec.Schedule Verif.Lemmas.Schedule Verif.Program

variable {V G Pt P Path : Type}

theorem foldlM_map {σ α β : Type} (f : σ → β → Outcome σ) (k : α → β) :
    ∀ (l : List α) (s : σ), Outcome.foldlM f s (l.map k) = Outcome.foldlM (fun s x => f s (k x)) s l
  | [], _ => rfl
  | x :: l, s => by
    rw [List.map_cons, Outcome.foldlM_cons, Outcome.foldlM_cons]
    congr 1
    funext s'
    exact foldlM_map f k l s'

theorem estimateAllObjects_un (search : Search Pt P G) (garbage : G) (objs : OMap Nat (Object G Pt)) (oo : List (ObjObs P)) :
    estimateAllObjects search garbage objs (oo.map unnumbered) = estimateAllObjects search garbage objs oo := by
  unfold estimateAllObjects
  rw [foldlM_map]
  rfl

theorem estimate_same (search : Search Pt P G) (garbage : G) {a b : State G Pt P} (hab : shown a = shown b) :
    estimateAllObjects search garbage a.objs a.oo = estimateAllObjects search garbage b.objs b.oo := by
  obtain ⟨h1, h2, h3⟩ := shown_eq hab
  rw [← estimateAllObjects_un _ _ _ a.oo, ← estimateAllObjects_un _ _ _ b.oo, h1, h3]

section
variable {nCam nBoard : Nat} {l₁ l₂ : List (Insertion P Path)} {s₁ s₂ : Store P Path}
  (d₁ : Spec.Store.Describes nCam nBoard l₁ s₁) (d₂ : Spec.Store.Describes nCam nBoard l₂ s₂)
  (h : SameFrames l₁ l₂) (e : Estimator Pt P G)
  (n : Numerics V G) (bpts : List (List Pt)) (p₁ p₂ : Nat → G) (q : BoardObs P → G)
  (out : BoardObs P → BoardObs P)

include d₁ d₂ h in
theorem calibrateObjects_same [Group G] [SMul G Pt]
    (h₁ : ∀ i a, l₁[i]? = some a → p₁ i = q a.obs) (h₂ : ∀ i a, l₂[i]? = some a → p₂ i = q a.obs) :
    omap (fun r => (r.1, r.2.1.map unnumbered, r.2.2))
      (Program.calibrateObjects e { n with boardPose := p₁ } bpts s₁ (l₁.map (out ·.obs))) =
    omap (fun r => (r.1, r.2.1.map unnumbered, r.2.2))
      (Program.calibrateObjects e { n with boardPose := p₂ } bpts s₂ (l₂.map (out ·.obs))) := by
  unfold Program.calibrateObjects
  apply bind_same_id
  · exact buildObjects_same d₁ d₂ h p₁ p₂ q h₁ h₂ _ _ _
  · intro objs
    apply bind_same _ _ (initAllObjectObs_same d₁ d₂ h out objs)
    intro oo₁ oo₂ ho
    apply bind_same_id
    · rw [← estimateAllObjects_un _ _ _ oo₁, ← estimateAllObjects_un _ _ _ oo₂, ho]
    intro ps
    apply bind_same_id _ rfl
    intro o
    show Outcome.ok _ = Outcome.ok _
    simp only [ho]

include d₁ d₂ h in
theorem joinObjects_same [Group G] [SMul G Pt] (k : Nat) {a b : State G Pt P} (hab : shown a = shown b) :
    omap shown (joinObjects { n with boardPose := p₁ } k bpts s₁ (l₁.map (out ·.obs)) a) =
    omap shown (joinObjects { n with boardPose := p₂ } k bpts s₂ (l₂.map (out ·.obs)) b) := by
  obtain ⟨h1, h2, h3⟩ := shown_eq hab
  unfold joinObjects
  apply bind_same_id
  · rw [← merge3DObjects_un a.oo, ← merge3DObjects_un b.oo, h1, h2, h3]
  · intro objs
    apply bind_same _ _ (mergeAllObjectObs_same d₁ d₂ h out objs)
    intro oo₁ oo₂ ho
    apply bind_same_id
    · rw [← mergeAllCameraGroupObs_un oo₁, ← mergeAllCameraGroupObs_un oo₂, ho, keys_frames d₁ d₂ h, h2]
    · intro t
      exact congrArg Outcome.ok (shown_mk rfl rfl ho)

/-- Tables without numbers, and poses. -/
def shownPoses {β : Type} (r : State G Pt P × β) : State G Pt P × β := (shown r.1, r.2)

theorem shownPoses_eq {β : Type} {a b : State G Pt P × β} (h : shownPoses a = shownPoses b) : shown a.1 = shown b.1 ∧ a.2 = b.2 :=
  Prod.mk.inj h

include d₁ d₂ h in
theorem mergeStage_same [Group G] [SMul G Pt] (k j : Nat) {a b : State G Pt P} (hab : shown a = shown b) :
    omap shownPoses (Program.mergeStage e { n with boardPose := p₁ } k j bpts s₁ (l₁.map (out ·.obs)) a) =
    omap shownPoses (Program.mergeStage e { n with boardPose := p₂ } k j bpts s₂ (l₂.map (out ·.obs)) b) := by
  unfold Program.mergeStage
  apply bind_same_id _ (estimate_same _ _ hab)
  intro ps
  refine bind_same shown _ (joinObjects_same d₁ d₂ h (withPoses n fun _ => poseAt ps) bpts p₁ p₂ out k hab) ?_
  intro a b hab
  apply bind_same_id _ (estimate_same _ _ hab)
  intro qs
  refine bind_same shown _ (refineAll_same rfl rfl k bpts hab) ?_
  intro a b hab
  show Outcome.ok _ = Outcome.ok _
  unfold shownPoses
  simp only [hab]

include d₁ d₂ h in
theorem overlapping_same [Group G] [SMul G Pt]
    (h₁ : ∀ i a, l₁[i]? = some a → p₁ i = q a.obs) (h₂ : ∀ i a, l₂[i]? = some a → p₂ i = q a.obs) :
    omap shownPoses (Program.overlapping e { n with boardPose := p₁ } bpts s₁ (l₁.map (out ·.obs))) =
    omap shownPoses (Program.overlapping e { n with boardPose := p₂ } bpts s₂ (l₂.map (out ·.obs))) := by
  unfold Program.overlapping
  apply bind_same _ _ (calibrateObjects_same d₁ d₂ h e n bpts p₁ p₂ q out h₁ h₂)
  rintro ⟨o₁, oo₁, ps₁⟩ ⟨o₂, oo₂, ps₂⟩ ho
  simp only [Prod.mk.injEq] at ho
  obtain ⟨rfl, ho, rfl⟩ := ho
  apply bind_same _ _ (calibrateGroups_same d₁ d₂ h (withPoses n fun _ => ps₁) bpts p₁ p₂ o₁ oo₁ oo₂ ho)
  intro a b hab
  exact mergeStage_same d₁ d₂ h e n bpts p₁ p₂ out 2 1 hab

theorem finalStage_same [Group G] [SMul G Pt] (fix : Int) {a b : State G Pt P} (hab : shown a = shown b) :
    omap shownPoses (Finish.finalStage { n with boardPose := p₁ } fix bpts a) =
    omap shownPoses (Finish.finalStage { n with boardPose := p₂ } fix bpts b) := by
  unfold Finish.finalStage
  refine bind_same shown _ (refineAll_same rfl rfl 5 bpts hab) ?_
  intro a' b' hab'
  obtain ⟨h1, h2, h3⟩ := shown_eq hab
  simp only
  rw [← objectPoses_un a.oo, ← objectPoses_un b.oo, h2, h3]
  generalize refinePoses _ _ = op
  unfold Finish.lastRefine
  by_cases hf : fix = 0
  · rw [if_pos hf, if_pos hf]
    refine bind_same shown _ (refineAll_same rfl rfl 6 bpts hab') ?_
    intro a b hab
    show Outcome.ok _ = Outcome.ok _
    unfold shownPoses
    simp only [hab]
  · rw [if_neg hf, if_neg hf]
    show Outcome.ok _ = Outcome.ok _
    unfold shownPoses
    simp only [hab']

include d₁ d₂ h in
theorem merging_same [Group G] [SMul G Pt] (fix : Int) (pose : Nat → G) {a b : State G Pt P} (hab : shown a = shown b) :
    omap shownPoses (merging e { n with boardPose := p₁ } fix bpts s₁ (l₁.map (out ·.obs)) a pose) =
    omap shownPoses (merging e { n with boardPose := p₂ } fix bpts s₂ (l₂.map (out ·.obs)) b pose) := by
  unfold merging
  apply bind_same_id _ (nonOverlapping_same (withPoses n fun _ => pose) p₁ p₂ hab)
  intro pp
  apply bind_same _ _ (mergeGroups1_same d₁ d₂ h n p₁ p₂ pp hab)
  intro a b hab
  apply bind_same _ _ (mergeStage_same d₁ d₂ h e n bpts p₁ p₂ out 4 3 hab)
  intro a b hab
  apply bind_same _ _ (mergeGroups2_same d₁ d₂ h n p₁ p₂ pp (shownPoses_eq hab).1)
  intro a b hab
  unfold Program.finalStage
  apply bind_same_id _ (estimate_same _ _ hab)
  intro ps
  exact finalStage_same (withPoses n fun _ => poseAt ps) bpts p₁ p₂ fix hab

include d₁ d₂ h in
/-- The workflow with pose estimation. -/
theorem run_same [Group G] [SMul G Pt] (fix : Int)
    (h₁ : ∀ i a, l₁[i]? = some a → p₁ i = q a.obs) (h₂ : ∀ i a, l₂[i]? = some a → p₂ i = q a.obs) :
    omap shownPoses (Program.run e { n with boardPose := p₁ } fix bpts s₁ (l₁.map (out ·.obs))) =
    omap shownPoses (Program.run e { n with boardPose := p₂ } fix bpts s₂ (l₂.map (out ·.obs))) := by
  unfold Program.run
  apply bind_same _ _ (overlapping_same d₁ d₂ h e n bpts p₁ p₂ q out h₁ h₂)
  rintro ⟨a, pa⟩ ⟨b, pb⟩ hab
  obtain ⟨h1, h2⟩ := shownPoses_eq hab
  simp only at h2
  subst h2
  exact merging_same d₁ d₂ h e n bpts p₁ p₂ out fix pa h1

end
end Verif.Lemmas.ProgramSame
