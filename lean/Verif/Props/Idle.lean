import Verif.Lemmas.Idle

/-! C102: cameras and boards that are never seen change nothing. -/
namespace Verif.Props.Idle
open Verif Verif.Objects Verif.Groups Verif.Pipeline Verif.Spec.Store Verif.Spec.Idle

variable {V G Pt P Path : Type}

/-- C102: with further cameras that detect nothing and further boards that are never detected, numbered after the others, the detections
are stored as well, and the calibration (calibrate.cpp:38-75) is the same: it fails in the same way, or gives the same objects, the
same observations and the same camera groups with the same poses. -/
theorem C102_workflow [Group G] [SMul G Pt] (nCam nBoard : Nat) (l : List (Insertion P Path))
    (hl : ∀ a ∈ l, a.obs.cam < nCam ∧ a.obs.board < nBoard) (s : Store P Path) (hs : Store.run nCam nBoard l = .ok s)
    (moreCam moreBoard : Nat) (obs : List (BoardObs P)) (hobs : Spec.Objects.SameViews s.obs obs)
    (bpts more : List (List Pt)) (hb : bpts.length = nBoard) (hm : more.length = moreBoard) (n : Numerics V G) :
    ∃ s', Store.run (nCam + moreCam) (nBoard + moreBoard) l = .ok s' ∧ s'.obs = s.obs ∧
      workflow n (bpts ++ more) s' obs = workflow n bpts s obs := by
  obtain ⟨s', hs'⟩ : ∃ s' : Store P Path, Store.run (nCam + moreCam) (nBoard + moreBoard) l = .ok s' :=
    (Props.Store.C06_run_ok_iff _ _ l).2 fun a ha => ⟨by have := hl a ha; omega, by have := hl a ha; omega⟩
  have h := Lemmas.Idle.sameReads (Nat.le_add_right _ _) (Nat.le_add_right _ _) hl hs hs'
  exact ⟨s', hs', h.obs, Lemmas.Idle.workflow_eq nCam nBoard l hl hs h obs hobs bpts more hb n⟩

/-- C102: and so is the run to the end, with the last refinements (calibrate.cpp:38-61).  The file of objects (McCalib.cpp:414-449) is
the same; the file of cameras (McCalib.cpp:374-405) has another number of cameras, and the same entries. -/
theorem C102_saved {K : Type} [Zero K] [One K] [Group G] [SMul G Pt] (nCam nBoard : Nat) (l : List (Insertion P Path))
    (hl : ∀ a ∈ l, a.obs.cam < nCam ∧ a.obs.board < nBoard) (s : Store P Path) (hs : Store.run nCam nBoard l = .ok s)
    (moreCam moreBoard : Nat) (obs : List (BoardObs P)) (hobs : Spec.Objects.SameViews s.obs obs)
    (bpts more : List (List Pt)) (hb : bpts.length = nBoard) (hm : more.length = moreBoard) (n : Numerics V G) (fix : Int)
    (cams idle : List (Output.CamData K)) (hc : cams.length = nCam) (hi : idle.length = moreCam) :
    ∃ s', Store.run (nCam + moreCam) (nBoard + moreBoard) l = .ok s' ∧ s'.obs = s.obs ∧
      Finish.run n fix (bpts ++ more) s' obs = Finish.run n fix bpts s obs ∧
      ∀ r, Finish.run n fix bpts s obs = .ok r →
        Output.save3DObj (bpts ++ more) r.1.objs = Output.save3DObj bpts r.1.objs ∧
        Output.saveCamerasParams (cams ++ idle) r.1.t.groups =
          Spec.Units.result (List.map (recount (nCam + moreCam))) (Output.saveCamerasParams cams r.1.t.groups) := by
  obtain ⟨s', hs'⟩ : ∃ s' : Store P Path, Store.run (nCam + moreCam) (nBoard + moreBoard) l = .ok s' :=
    (Props.Store.C06_run_ok_iff _ _ l).2 fun a ha => ⟨by have := hl a ha; omega, by have := hl a ha; omega⟩
  have h := Lemmas.Idle.sameReads (Nat.le_add_right _ _) (Nat.le_add_right _ _) hl hs hs'
  refine ⟨s', hs', h.obs, Lemmas.Idle.run_eq nCam nBoard l hl hs h obs hobs bpts more hb n fix, fun r hr => ?_⟩
  obtain ⟨h1, h2⟩ := Lemmas.Idle.run_saved nCam nBoard l hl hs obs hobs bpts hb n fix r hr
  exact ⟨Lemmas.Idle.save3DObj_same bpts more _ h1,
    by rw [← hc, ← hi]; exact Lemmas.Idle.saveCameras_idle cams idle _ fun e he c hk => hc ▸ h2 e he c hk⟩

/-! ### A case -/

open Verif.Props.Pipeline (runAll twoCams storeOf num S3)

/- Two cameras in one group, two boards in one object, each seen by one camera; two more cameras and one more board are never used. -/
example : (∀ a ∈ twoCams, a.obs.cam < 2 ∧ a.obs.board < 2) ∧ (∃ s, Store.run 2 2 twoCams = .ok s) := by
  refine ⟨by decide, (Props.Store.C06_run_ok_iff _ _ _).2 (by decide)⟩

example : runAll 4 3 twoCams = runAll 2 2 twoCams ∧ ∃ st, runAll 2 2 twoCams = .ok st ∧
    st.t.groups.map (fun e => OMap.keys e.2.cameras) = [[0, 1]] := by
  have hl : ∀ a ∈ twoCams, a.obs.cam < 2 ∧ a.obs.board < 2 := by decide
  obtain ⟨s, hs⟩ := (Props.Store.C06_run_ok_iff 2 2 twoCams).2 hl
  constructor
  · have hd := Lemmas.Pipeline.store_desc 2 2 twoCams hl s hs
    have h1 : ∀ a ∈ twoCams, a.obs.pts.length = a.obs.ids.length := by decide
    have h2 : ∀ o ∈ s.obs, o.pts.length = o.ids.length := by
      rw [hd.obs]
      intro o ho
      obtain ⟨a, ha, rfl⟩ := List.mem_map.1 ho
      exact h1 a ha
    obtain ⟨s', hs', ho, h⟩ := C102_workflow 2 2 twoCams hl s hs 2 1 s.obs ⟨rfl, h2⟩
      ([[2], [2]] : List (List (Fin 3))) [[2]] rfl rfl num
    unfold runAll storeOf
    rw [hs, hs']
    dsimp only
    rw [ho]
    exact h
  · have h := Props.Pipeline.C52_two_cameras
    generalize runAll 2 2 twoCams = x at h ⊢
    cases x with
    | ok st =>
      refine ⟨st, rfl, ?_⟩
      have := (Prod.ext_iff.1 h).1
      unfold Spec.Pipeline.groupCams at this
      have h2 := congrArg (List.map Prod.snd) this
      rw [List.map_map] at h2
      exact h2
    | _ => cases h

end Verif.Props.Idle
