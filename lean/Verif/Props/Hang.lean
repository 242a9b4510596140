import Verif.Lemmas.HangProgram

/-!
C105: the program never hangs.  The only loop of the program that need not end is the one that follows the predecessors
of a vertex (Graph.cpp:140-153, C05): it runs for ever if the two vertices are not linked.  No use of it does that, for
any tables whatsoever: it is only called for members of one connected component, and the weights are never negative.
-/
set_option linter.unusedSectionVars false
namespace Verif.Props.Hang
open Spec.Hang Verif.Structure Objects Groups GroupPose NonOverlap Pipeline Ransac Program Folders Start Verif.Disk

variable {V G Pt K K' Q P Path Img : Type} [Group G] [SMul G Pt]

/-- C105, the calibration: for every content of the tables, every choice of boards and options, and all results of the
numerical parts, the sequence of calls of `runCalibrationWorkflow` that places and merges objects and camera groups ends,
if the hand-eye calibration does. -/
theorem C105_calibration (n : Numerics V G) (hhe : ∀ l, n.he l ≠ .diverge) (fix : Int) (bpts : List (List Pt))
    (s : Store P Path) (obs : List (BoardObs P)) : Finish.run n fix bpts s obs ≠ .diverge :=
  (Hang.run_ends n (fun l => ⟨hhe l⟩) fix bpts s obs).back

/-- C105, the pose searches: for every image, every random choice and every answer of the solver, the search for a pose
ends: each turn of its loop uses up one of the trials allowed. -/
theorem C105_search {P3 P2 Pose E : Type} [LinearOrder E] (lib0 lib1 : Lib P3 P2 Pose E) (undist : P2 → P2) (model : Int)
    (scene : List P3) (image : List P2) (it : Nat) (init cur : Pose) :
    ransacP3PDistortion lib0 lib1 undist model scene image it init cur ≠ .diverge := by
  have hat : ∀ i, Ends (sampleAt scene image i) := fun i => Hang.bind (Hang.idx _ _) fun _ _ => Hang.bind (Hang.idx _ _)
    fun _ _ => Hang.pure' _
  have key : ∀ (lib : Lib P3 P2 Pose E) (im : List P2), Ends (ransacP3P lib scene im it true init cur) := by
    intro lib im
    have hat : ∀ i, Ends (sampleAt scene im i) := fun i => Hang.bind (Hang.idx _ _) fun _ _ => Hang.bind (Hang.idx _ _)
      fun _ _ => Hang.pure' _
    unfold ransacP3P
    refine Hang.bind ?_ fun st _ => ?_
    · have hl : ∀ n st, Ends (loop lib scene im n st) := by
        intro n
        induction n with
        | zero => exact fun st => Hang.ok st
        | succ n ih =>
          intro st
          unfold loop
          split
          · refine Hang.bind ?_ fun t _ => ih t
            unfold step
            refine Hang.bind ?_ fun _ _ => Hang.bind ?_ fun _ _ => Hang.pure' _
            · unfold sample
              exact Hang.bind (Hang.idx _ _) fun _ _ => Hang.bind (Hang.idx _ _) fun _ _ => Hang.bind (Hang.idx _ _)
                fun _ _ => Hang.bind (Hang.idx _ _) fun _ _ => Hang.bind (hat _) fun _ _ => Hang.bind (hat _) fun _ _ =>
                Hang.bind (hat _) fun _ _ => Hang.bind (hat _) fun _ _ => Hang.pure' _
            · unfold countInliers
              exact Hang.fold (fun _ _ _ => Hang.bind (Hang.idx _ _) fun _ _ => Hang.pure' _) _
          · exact Hang.ok _
      exact hl _ _
    · unfold finish
      split
      · exact Hang.bind (Hang.fold (fun _ _ _ => Hang.bind (hat _) fun _ _ => Hang.pure' _) _) fun _ _ => Hang.pure' _
      · exact Hang.ok _
  unfold ransacP3PDistortion
  split
  · exact (key _ _).back
  · split
    · exact (key _ _).back
    · exact (Hang.ok _).back

/-- C105, the hand-eye calibration: it ends, with either approach, if the two solvers of OpenCV do. -/
theorem C105_handEye (lib : HandEye.Lib) (ht : ∀ l, lib.tsai l ≠ .diverge) (hh : ∀ l, lib.horaud l ≠ .diverge)
    (approach : Int) (p1 p2 : List (Rigid.Mat4 ℝ)) : HandEye.handEye lib approach p1 p2 ≠ .diverge := by
  have hm : ∀ p1 p2 l, Ends (Outcome.foldlM (HandEye.motionStep lib.ro p1 p2) [] l) := fun p1 p2 l =>
    Hang.fold (fun _ _ _ => Hang.bind (Hang.idx _ _) fun _ _ => Hang.bind (Hang.idx _ _) fun _ _ => Hang.pure' _) _
  have hc : ∀ p1 p2, Ends (HandEye.handeyeCalibration lib p1 p2) := fun p1 p2 => by
    unfold HandEye.handeyeCalibration
    exact Hang.bind (hm _ _ _) fun _ _ => Hang.bind ⟨hh _⟩ fun _ _ => Hang.pure' _
  unfold HandEye.handEye
  split
  · unfold HandEye.bootstrap
    simp only
    split
    · exact Hang.throw.back
    · refine (Hang.bind (Hang.fold (fun acc r _ => ?_) _) fun _ _ => ?_).back
      · unfold HandEye.roundStep
        refine Hang.bind ?_ fun _ _ => Hang.bind ?_ fun _ _ => Hang.pure' _
        · unfold HandEye.roundSolve
          refine Hang.bind (Hang.fold (fun _ _ _ => Hang.bind (Hang.idx _ _) fun _ _ => Hang.pure' _) _) fun _ _ =>
            Hang.bind (Hang.fold (fun _ _ _ => ?_) _) fun _ _ => Hang.bind (hm _ _ _) fun _ _ =>
            Hang.bind ⟨ht _⟩ fun _ _ => Hang.pure' _
          unfold HandEye.selectPoseStep
          simp only
          split
          · exact Hang.ub
          · exact Hang.bind (Hang.idx _ _) fun _ _ => Hang.pure' _
        · unfold HandEye.checkSetConsistency
          refine Hang.fold (fun _ _ _ => ?_) _
          unfold HandEye.outerStep
          refine Hang.bind (Hang.idx _ _) fun _ _ => Hang.bind (Hang.idx _ _) fun _ _ => Hang.bind (Hang.idx _ _)
            fun _ _ => Hang.fold (fun _ _ _ => ?_) _
          unfold HandEye.innerStep
          split
          · exact Hang.bind (Hang.idx _ _) fun _ _ => Hang.bind (Hang.idx _ _) fun _ _ => Hang.bind (Hang.idx _ _)
              fun _ _ => Hang.pure' _
          · exact Hang.ok _
      · unfold HandEye.conclude
        split
        · exact Hang.ok _
        · exact hc _ _
  · exact (hc _ _).back

/-- C105: whatever the arguments, the files there are, the configuration, and what is seen in the images, `main` comes
back: it returns, throws, or has undefined behaviour, but it never runs for ever, provided that the parts that are not
modelled (the optimisations, the projections of OpenCV, reading a file) do not. -/
theorem C105_program [Zero K] [One K] [Field K'] [LinearOrder K'] {x : FromConfig.Parts V G Pt K K' Q Img}
    (hx : ∀ t i, SteadyNumeric (x.numeric t i)) (ho : ∀ c, Ends (x.other c))
    {parse : Content V G Pt K Img (KeyFile (ℝ × ℝ) Str) → Outcome Config.File} (hp : ∀ c, Ends (parse c))
    (half : Str → Content V G Pt K Img (KeyFile (ℝ × ℝ) Str)) (l : List (Insertion (ℝ × ℝ) Str)) (argv : List Str)
    (d : Whole.Files V G Pt K Img) : (FromConfig.main x parse half l argv d).2 ≠ .diverge :=
  ((Hang.main_stops hx ho hp half l argv).ends d).back

/-- The loop does hang on members of two components: the theorems above rest on where it is called. -/
theorem C105_unlinked : placement (G := ℚˣ) id [] (Graph.run (graphCalls [0, 1] [])) (fun _ => 0) 0 1 = .diverge := by
  have h := Props.Graph.C05_unlinked_diverges (graphCalls [0, 1] []) (noFreshSelf_graphCalls fun e h => nomatch h)
    (fun _ => 0) 0 1 (by decide +kernel) (by decide +kernel) (fun h => by
      rcases Relation.ReflTransGen.cases_head h with h | ⟨c, ⟨w, hw⟩, -⟩
      · exact absurd h (by decide)
      · rcases (step_graphCalls ..).1 hw with h | h <;> exact absurd h List.not_mem_nil)
    (fun x y w hw => by rcases (step_graphCalls ..).1 hw with h | h <;> exact absurd h List.not_mem_nil)
  unfold placement
  rw [h]
  rfl

end Verif.Props.Hang
