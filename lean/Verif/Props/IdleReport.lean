import Verif.Props.Idle
import Verif.Props.Finish

/-! C102, continued: all files of results of a run with cameras and boards that are never seen. -/
namespace Verif.Props.IdleReport
open Verif Verif.Objects Verif.Groups Verif.Pipeline Verif.Spec.Store Verif.Spec.Idle Verif.Props.Finish

variable {V G Pt K Img Path : Type}

theorem range_more (a b : Nat) : List.range (a + b) = List.range a ++ (List.range b).map (a + ·) := List.range_add

/-- A loop over the cameras that appends what it has for each, run with further cameras for which there is nothing. -/
theorem more_cameras {β : Type} (f : List (List β) → Nat → Outcome (List (List β))) (a b : Nat) (out : List (List β))
    (h : Outcome.foldlM f [] (List.range a) = .ok out) (hidle : ∀ acc c, a ≤ c → f acc c = .ok (acc ++ [[]])) :
    Outcome.foldlM f [] (List.range (a + b)) = .ok (out ++ List.replicate b []) := by
  rw [range_more, Outcome.foldlM_append, h, Outcome.bind_ok]
  have : ∀ (ks : List Nat) (acc : List (List β)), (∀ c ∈ ks, a ≤ c) →
      Outcome.foldlM f acc ks = .ok (acc ++ List.replicate ks.length []) := by
    intro ks
    induction ks with
    | nil => intro acc _; simp [Outcome.foldlM]
    | cons c ks ih =>
      intro acc hc
      rw [Outcome.foldlM_cons, hidle acc c (hc c (by simp)), Outcome.bind_ok, ih _ fun x hx => hc x (by simp [hx]),
        List.append_assoc, List.length_cons, List.replicate_succ]
      rfl
  rw [this _ _ (by simp), List.length_map, List.length_range]

/-- C102: the whole of the results.  The run with further cameras and boards ends as well and leaves the same results, but for the
number of cameras in the parameter file; no images are written for the further cameras. -/
theorem C102_report [Group G] [MulAction G Pt] [Inhabited Pt] [Zero K] [One K] (nCam nBoard : Nat)
    (l : List (Insertion (ℝ × ℝ) Path))
    (hl : ∀ a ∈ l, a.obs.cam < nCam ∧ a.obs.board < nBoard) (s : Store (ℝ × ℝ) Path) (hs : Store.run nCam nBoard l = .ok s)
    (moreCam moreBoard : Nat) (obs : List (BoardObs (ℝ × ℝ))) (hobs : Spec.Objects.SameViews s.obs obs)
    (bpts more : List (List Pt)) (hb : bpts.length = nBoard) (hmb : more.length = moreBoard) (n : Numerics V G) (fix : Int)
    (r : State G Pt (ℝ × ℝ) × OMap (Nat × Nat) (OMap Nat V)) (hr : Finish.run n fix bpts s obs = .ok r)
    (hids : ∀ bo ∈ obs, ∀ k ∈ bo.ids, k < Spec.Objects.cornerCount bpts bo.board)
    (en : Finish.Env V G Pt K Path Img) (hc : en.cams.length = nCam) (hm : ∀ c < nCam, en.model c = 0 ∨ en.model c = 1)
    (pix : Nat → Pt → ℝ × ℝ)
    (hbr : ∀ c g ps, ps ≠ [] → en.projBrown c g ps = .ok (ps.map fun p => pix c (g • p)))
    (hka : ∀ c g ps, ps ≠ [] → en.projKannala c g ps = .ok (ps.map fun p => pix c (g • p)))
    (hempty : en.imread en.emptyPath = none)
    (idle : List (Output.CamData K)) (hi : idle.length = moreCam)
    (rep : Finish.Reports V G Pt K Img) (hrep : Finish.report en bpts s.frames r = .ok rep) :
    ∃ s', Store.run (nCam + moreCam) (nBoard + moreBoard) l = .ok s' ∧
      Finish.run n fix (bpts ++ more) s' obs = .ok r ∧
      Finish.report { en with cams := en.cams ++ idle } (bpts ++ more) s'.frames r = .ok { rep with
        cameras := rep.cameras.map (recount (nCam + moreCam))
        detections := rep.detections ++ if en.saveDetect = 1 then List.replicate moreCam [] else []
        reprojections := rep.reprojections ++ if en.saveRepro = 1 then List.replicate moreCam [] else [] } := by
  obtain ⟨s', hs', -, hrun, hsaved⟩ := Idle.C102_saved nCam nBoard l hl s hs moreCam moreBoard obs hobs bpts more hb hmb n fix
    en.cams idle hc hi
  have hsame := Lemmas.Idle.sameReads (Nat.le_add_right _ _) (Nat.le_add_right _ _) hl hs hs'
  obtain ⟨hobj, hcam⟩ := hsaved r hr
  refine ⟨s', hs', hrun.trans hr, ?_⟩
  rw [hsame.frames]
  have h := C76_holds nCam nBoard l hl s hs obs hobs bpts hb n fix r hr hids en hm pix hbr hka
  have D := (Lemmas.Schedule.describes_of_run hs).1
  -- no camera beyond the configured ones has an image
  have hno : ∀ kind c draw, nCam ≤ c → Spec.Images.files en.imread en.emptyPath en.save kind s.frames c draw = [] := by
    intro kind c draw hlt
    unfold Spec.Images.files
    rw [List.filterMap_eq_nil_iff]
    intro e he
    have hp := (D.frame_paths e.1 e.2 ((OMap.get?_eq_some D.frames_sorted).2 he)).2 c
    have hnil : l.filter (byCamFrame c e.1) = [] := by
      rw [List.filter_eq_nil_iff]
      intro a ha hp
      have h1 := (hl a ha).1
      have h2 : a.obs.cam = c := by
        unfold byCamFrame at hp
        simp only [Bool.and_eq_true, beq_iff_eq] at hp
        exact hp.1
      omega
    rw [hnil] at hp
    rw [hp]
    show (en.imread en.emptyPath).map _ = none
    rw [hempty]
    rfl
  unfold Finish.report at hrep ⊢
  obtain ⟨gp, h1, hrep⟩ := Outcome.bind_eq_ok.1 hrep
  obtain ⟨log, h2, hrep⟩ := Outcome.bind_eq_ok.1 hrep
  obtain ⟨det, h3, hrep⟩ := Outcome.bind_eq_ok.1 hrep
  obtain ⟨rp, h4, hrep⟩ := Outcome.bind_eq_ok.1 hrep
  obtain ⟨cams, h5, hrep⟩ := Outcome.bind_eq_ok.1 hrep
  obtain ⟨objs, h6, hrep⟩ := Outcome.bind_eq_ok.1 hrep
  obtain ⟨errs, h7, hrep⟩ := Outcome.bind_eq_ok.1 hrep
  obtain ⟨avg, h8, hrep⟩ := Outcome.bind_eq_ok.1 hrep
  simp only [Outcome.pure_eq, Outcome.ok.injEq] at hrep
  subst hrep
  obtain ⟨gp', g1, g2⟩ := Images.C64_poses h en.zero en.gp
  have hgp : gp' = gp := by
    rw [h1] at g1
    exact (Outcome.ok.inj g1).symm
  subst hgp
  have k3 : Finish.detectAll { en with cams := en.cams ++ idle } (Finish.scene en r) s.frames =
      .ok (det ++ if en.saveDetect = 1 then List.replicate moreCam [] else []) := by
    unfold Finish.detectAll at h3 ⊢
    by_cases hd : en.saveDetect = 1
    · rw [if_pos hd] at h3
      rw [if_pos hd, if_pos hd]
      show Outcome.foldlM _ [] (List.range (en.cams ++ idle).length) = _
      rw [List.length_append, hi]
      refine more_cameras _ _ _ _ h3 fun acc c hlt => ?_
      unfold Finish.detectCam
      show (Images.saveDetectionImages _ en.colour en.imread en.emptyPath en.save s.frames c).bind _ = _
      rw [Images.C65_images h, hno _ _ _ (by omega)]
      rfl
    · rw [if_neg hd] at h3
      rw [if_neg hd, if_neg hd, List.append_nil]
      exact h3
  have k4 : Finish.reproAll { en with cams := en.cams ++ idle } (Finish.scene en r) gp' s.frames =
      .ok (rp ++ if en.saveRepro = 1 then List.replicate moreCam [] else []) := by
    unfold Finish.reproAll at h4 ⊢
    by_cases hd : en.saveRepro = 1
    · rw [if_pos hd] at h4
      rw [if_pos hd, if_pos hd]
      show Outcome.foldlM _ [] (List.range (en.cams ++ idle).length) = _
      rw [List.length_append, hi]
      refine more_cameras _ _ _ _ h4 fun acc c hlt => ?_
      unfold Finish.reproCam
      show (Images.saveReprojectionImages _ gp' en.imread en.emptyPath en.save s.frames c).bind _ = _
      rw [Images.C64_images h g2, hno _ _ _ (by omega)]
      rfl
    · rw [if_neg hd] at h4
      rw [if_neg hd, if_neg hd, List.append_nil]
      exact h4
  have k5 : Output.saveCamerasParams (en.cams ++ idle) r.1.t.groups = .ok (cams.map (recount (nCam + moreCam))) := by
    rw [hcam, h5]
    rfl
  show (Images.updateAll (Finish.scene en r) en.zero en.gp).bind _ = _
  rw [h1]
  show (Finish.reproErrorAllCamGroup (Finish.scene en r)).bind _ = _
  rw [h2]
  show (Finish.detectAll _ (Finish.scene en r) s.frames).bind _ = _
  rw [k3]
  show (Finish.reproAll _ (Finish.scene en r) gp' s.frames).bind _ = _
  rw [k4]
  show (Output.saveCamerasParams (en.cams ++ idle) r.1.t.groups).bind _ = _
  rw [k5]
  show (Output.save3DObj (bpts ++ more) r.1.objs).bind _ = _
  rw [hobj, h6]
  show (Output.saveReprojectionError (Finish.scene en r)).bind _ = _
  rw [h7]
  show (Output.computeAvgReprojectionError (Finish.scene en r)).bind _ = _
  rw [h8]
  rfl

end Verif.Props.IdleReport
