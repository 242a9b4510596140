import Verif.Model.Analysis
import Verif.Lemmas.ObjectNumbers
import Verif.Props.Finish
import Verif.Props.Disk
import Verif.Props.ScriptsDraw
import Verif.Props.ScriptsStat
import Verif.Props.ScriptsTruth

/-! C107: the analysis of the results of a run. -/
namespace Verif.Props.Analysis
open Verif Verif.Structure Verif.Objects Verif.Groups Verif.Pipeline Verif.Folders Verif.Disk Verif.Scripts Verif.Output
open Verif.Analysis Verif.Rigid Verif.Spec.Groups Verif.Spec.Disk Verif.Props.Finish Verif.Lemmas.Scripts

variable {V Pt Path Img KP : Type}

/-! ### What `report` puts into the files -/

theorem report_files {G K : Type} [Zero K] [One K] [Group G] [SMul G Pt] {en : Finish.Env V G Pt K Path Img} {bpts : List (List Pt)}
    {frames : OMap Nat (FrameRec Path)} {r : State G Pt (ℝ × ℝ) × OMap (Nat × Nat) (OMap Nat V)}
    {rep : Finish.Reports V G Pt K Img} (h : Finish.report en bpts frames r = .ok rep) :
    saveCamerasParams en.cams r.1.t.groups = .ok rep.cameras ∧ save3DObj bpts r.1.objs = .ok rep.objects ∧
    rep.poses = save3DObjPose r.1.objs r.1.oo en.camPose ∧ saveReprojectionError (Finish.scene en r) = .ok rep.errors := by
  unfold Finish.report at h
  obtain ⟨gp, _, h⟩ := Outcome.bind_eq_ok.1 h
  obtain ⟨log, _, h⟩ := Outcome.bind_eq_ok.1 h
  obtain ⟨det, _, h⟩ := Outcome.bind_eq_ok.1 h
  obtain ⟨rp, _, h⟩ := Outcome.bind_eq_ok.1 h
  obtain ⟨cams, h1, h⟩ := Outcome.bind_eq_ok.1 h
  obtain ⟨objs, h2, h⟩ := Outcome.bind_eq_ok.1 h
  obtain ⟨errs, h3, h⟩ := Outcome.bind_eq_ok.1 h
  obtain ⟨avg, _, h⟩ := Outcome.bind_eq_ok.1 h
  simp only [Outcome.pure_eq, Outcome.ok.injEq] at h
  subst h
  exact ⟨h1, h2, rfl, h3⟩

theorem inside_eq (p b : Str) : inside p b = below p [b] := rfl

section
variable [MulAction (Pose ℝ) Pt] (nCam nBoard : Nat)
  (l : List (Insertion (ℝ × ℝ) Path))
  (hl : ∀ a ∈ l, a.obs.cam < nCam ∧ a.obs.board < nBoard) (s : Store (ℝ × ℝ) Path)
  (hs : Store.run nCam nBoard l = .ok s) (obs : List (BoardObs (ℝ × ℝ)))
  (hobs : Spec.Objects.SameViews s.obs obs) (bpts : List (List Pt)) (hb : bpts.length = nBoard)
  (n : Numerics V (Pose ℝ)) (fix : Int) (r : State (Pose ℝ) Pt (ℝ × ℝ) × OMap (Nat × Nat) (OMap Nat V))
  (hr : Finish.run n fix bpts s obs = .ok r)
  (hids : ∀ bo ∈ obs, ∀ k ∈ bo.ids, k < Spec.Objects.cornerCount bpts bo.board)
  (en : Finish.Env V (Pose ℝ) Pt ℝ Path Img) (hm : ∀ c < nCam, en.model c = 0 ∨ en.model c = 1)
  (pix : Nat → Pt → ℝ × ℝ)
  (hbr : ∀ c g ps, ps ≠ [] → en.projBrown c g ps = .ok (ps.map fun p => pix c (g • p)))
  (hka : ∀ c g ps, ps ≠ [] → en.projKannala c g ps = .ok (ps.map fun p => pix c (g • p)))

include hl hs hobs hb hr hids in
/-- A run with an object leaves object 0, seen, with a corner. -/
theorem object_zero (hsome : r.1.oo ≠ []) : ∃ o, OMap.get? r.1.objs 0 = some o ∧ (∃ x ∈ r.1.oo, x.obj = 0) ∧
    ∃ b ∈ OMap.keys o.boards, ∃ ps p, bpts[b]? = some ps ∧ p ∈ ps := by
  have hT := C76_tables nCam nBoard l hl s hs obs hobs bpts hb n fix r hr
  have hN := Lemmas.ObjectNumbers.run_numbered nCam nBoard l hl s hs obs hobs bpts hb n fix r hr
  obtain ⟨x, hx⟩ := List.exists_mem_of_ne_nil _ hsome
  obtain ⟨o1, ho1, _⟩ := (hT.consistent.sees x.obj x.cam x.frame).1 ⟨x, hx, rfl, rfl, rfl⟩
  have hkx : x.obj ∈ OMap.keys r.1.objs := OMap.mem_keys.2 ⟨o1, ho1⟩
  obtain ⟨k, hk⟩ := hN.keys
  have h0 : 0 ∈ OMap.keys r.1.objs := by
    rw [hk, List.mem_range] at hkx ⊢
    omega
  obtain ⟨y, hy, hy0⟩ := hN.seen 0 h0
  obtain ⟨o, ho, bo, hbo, e1, e2, e3, e4⟩ := (hT.consistent.sees y.obj y.cam y.frame).1 ⟨y, hy, rfl, rfl, rfl⟩
  rw [hy0] at ho
  refine ⟨o, ho, ⟨y, hy, hy0⟩, bo.board, e3, ?_⟩
  have hids' : bo.ids ≠ [] := by
    intro h
    have := hobs.aligned bo hbo
    rw [h, List.length_nil, List.length_eq_zero_iff] at this
    exact e4 this
  obtain ⟨q, hq⟩ := List.exists_mem_of_ne_nil _ hids'
  have hlt := hids bo hbo q hq
  unfold Spec.Objects.cornerCount at hlt
  have hlen := (hT.consistent.objs.good 0 o ho).boards_valid _ e3
  rw [List.getElem?_eq_getElem hlen] at hlt
  simp only [Option.map_some, Option.getD_some] at hlt
  exact ⟨_, (bpts[bo.board])[q], List.getElem?_eq_getElem hlen, List.getElem_mem hlt⟩

include hl hs hobs hb hr hids hm hbr hka in
/-- C107: a run that ends with one group that has all cameras (at most 100), and leaves its results under the default
names, leaves a directory on which the analysis script works to the end, given a ground truth of as many rigid poses. -/
theorem C107_complete [Inhabited Pt] (hcams : ∀ c ∈ observingCams nCam l, ∃ cam sz, en.cams[c]? = some cam ∧ cam.size = some sz)
    (rep : Finish.Reports V (Pose ℝ) Pt ℝ Img) (hrep : Finish.report en bpts s.frames r = .ok rep)
    (i : Nat) (g : CamGroup (Pose ℝ)) (hg : r.1.t.groups = [(i, g)]) (hall : ∀ c < en.cams.length, c ∈ OMap.keys g.cameras)
    (hne : en.cams ≠ []) (h100 : en.cams.length ≤ 100)
    (save : Str) (kp : KP) (d d' : Disk (Stored V Pt Img KP)) (hw : Props.Disk.Written save [] rep kp d d')
    (hgt : d.hasLoc ⟨(loc save).abs, (loc save).parent.names ++ ["GroundTruth.yml".toList]⟩ = true)
    (ofVec : V → Pose ℝ) (truthOf : Option (Stored V Pt Img KP) → Outcome (List (Mat4 ℝ × Mat3 ℝ)))
    (truth : List (Pose ℝ × Mat3 ℝ)) (hlen : truth.length = en.cams.length)
    (htruth : truthOf (d'.file ⟨(loc save).abs, (loc save).parent.names ++ ["GroundTruth.yml".toList]⟩) =
      .ok (truth.map fun t => (t.1.1, t.2))) :
    ∃ a, analyse ofVec truthOf d' save = .ok a ∧ a.cameras.length = en.cams.length ∧ a.smallCameras.length = en.cams.length ∧
      a.bars.length = (OMap.keys g.frames).length ∧ a.bars ≠ [] ∧ a.boards ≠ [] ∧ a.object ≠ [] ∧
      ∀ x ∈ [a.printed.rot, a.printed.trans, a.printed.fx, a.printed.fy, a.printed.u0, a.printed.v0], ∃ v, x = some v := by
  have hT := C76_tables nCam nBoard l hl s hs obs hobs bpts hb n fix r hr
  have hH := C76_holds nCam nBoard l hl s hs obs hobs bpts hb n fix r hr hids en hm pix hbr hka
  obtain ⟨hE, _⟩ := ends nCam nBoard l hl s hs obs hobs bpts hb n fix r hr
  obtain ⟨f1, f2, f3, f4⟩ := report_files hrep
  have hi : i = 0 := by
    obtain ⟨k, hk⟩ := hT.numbered
    rw [hg] at hk
    have : (OMap.keys ([(i, g)] : OMap Nat (CamGroup (Pose ℝ))))[0]? = some i := rfl
    rw [hk] at this
    obtain ⟨_, h0⟩ := List.getElem?_eq_some_iff.1 this
    simpa using h0.symm
  subst hi
  have hget : OMap.get? r.1.t.groups 0 = some g :=
    (OMap.get?_eq_some hT.consistent.groups.sorted).2 (by rw [hg]; exact List.mem_singleton.2 rfl)
  have hknown : Output.CamsKnown en.cams r.1.t.groups := fun i g hg c hc => hcams c (hE.known i g hg c hc)
  have hCg := hT.consistent.groups
  rw [hg] at hCg hknown f1
  -- an observation
  have hobsd : ∀ f ∈ OMap.keys g.frames, ∃ o ∈ r.1.oo, o.frame = f := by
    intro f hf
    obtain ⟨bo, hbo, q1, q2, q3⟩ := (hT.groupFrames 0 g hget f).1 hf
    obtain ⟨o, ho, _, e2⟩ := (Lemmas.FinishRun.views hT.consistent hE.joins.boards bo.cam bo.frame).2 ⟨bo, hbo, rfl, rfl, q1⟩
    exact ⟨o, ho, e2.trans q2⟩
  have hfr : OMap.keys g.frames ≠ [] := by
    obtain ⟨f, hf⟩ := hT.observed 0 g hget
    exact List.ne_nil_of_mem ((hT.groupFrames 0 g hget f).2 hf)
  have hoo : r.1.oo ≠ [] := by
    obtain ⟨f, hf⟩ := List.exists_mem_of_ne_nil _ hfr
    obtain ⟨o, ho, _⟩ := hobsd f hf
    exact List.ne_nil_of_mem ho
  have hcam100 : ∀ o ∈ r.1.oo, o.cam < 100 := by
    intro o ho
    obtain ⟨g', h1, h2⟩ := hH.group o ho
    have h1' : OMap.get? r.1.t.groups _ = some g' := h1
    rw [hg] at h1'
    obtain ⟨cam, sz, e, _⟩ := hknown _ g' h1' _ h2
    have := (List.getElem?_eq_some_iff.1 e).1
    omega
  obtain ⟨o, ho, hseen, hcorner⟩ := object_zero nCam nBoard l hl s hs obs hobs bpts hb n fix r hr hids hoo
  -- the scripts
  obtain ⟨file, p, a1, a2, a3, _⟩ := ScriptsTruth.C73_exact en.cams 0 g hCg hknown hall hne truth hlen
  rw [f1] at a1
  cases a1
  obtain ⟨file, big, b1, b2, b3, _⟩ := ScriptsDraw.C75_cameras en.cams 0 g hCg hknown hall 0.5
  rw [f1] at b1
  cases b1
  obtain ⟨file, small, c1, c2, c3, _⟩ := ScriptsDraw.C75_cameras en.cams 0 g hCg hknown hall 0.1
  rw [f1] at c1
  cases c1
  obtain ⟨file, cols, L, d1, _, d3, d4⟩ := ScriptsDraw.C74_drawn bpts r.1.objs hT.consistent.objs o ho r.1.oo hseen hcorner
    en.camPose ofVec
  rw [f2] at d1
  cases d1
  obtain ⟨file, B, e1, e2, _, e4⟩ := ScriptsDraw.C75_boards bpts r.1.objs hT.consistent.objs o ho hcorner
  rw [f2] at e1
  cases e1
  obtain ⟨file, g1, g2⟩ := ScriptsStat.C72_bars hH (g := g) hg hfr hobsd hcam100
  rw [f4] at g1
  cases g1
  obtain ⟨bars, g3, g4⟩ : ∃ bars, errorStatistic rep.errors = .ok bars ∧ bars.length = (OMap.keys g.frames).length :=
    ⟨_, g2, List.length_map _⟩
  refine ⟨⟨p, small, L, big, B, bars⟩, ?_, b3, c3, g4, ?_, ?_, ?_, a3⟩
  · unfold analyse camObjPose
    rw [Props.Disk.C82_analysis kp hw hgt]
    have w1 : d'.file (inside save "calibrated_cameras_data.yml".toList) = some (.cameras rep.cameras) := hw.cameras
    have w2 : d'.file (inside save "calibrated_objects_data.yml".toList) = some (.objects rep.objects) := hw.objects
    have w3 : d'.file (inside save "calibrated_objects_pose_data.yml".toList) = some (.poses rep.poses) := hw.poses
    have w4 : d'.file (inside save "reprojection_error_data.yml".toList) = some (.errors rep.errors) := hw.errors
    rw [w1, w2, w3, w4, htruth, f3]
    simp only [Outcome.bind_ok, asCameras, asObjects, asPoses, asErrors, a2, b2, c2, d3, e2, g3, Outcome.pure_eq]
  · intro h
    dsimp only at h
    rw [h, List.length_nil] at g4
    exact hfr (List.length_eq_zero_iff.1 g4.symm)
  · intro h
    obtain ⟨b, hb', ps, q, hps, hq⟩ := hcorner
    have hkeys := (hT.consistent.objs.good 0 o ho).posed.keys
    rw [← hkeys] at hb'
    obtain ⟨T, hTb⟩ := OMap.mem_keys.1 hb'
    have := (e4 b (ps.map (T • ·))).2 ⟨by rw [← hkeys]; exact hb', T, ps, hTb, hps, List.ne_nil_of_mem hq, rfl⟩
    dsimp only at h
    rw [h] at this
    cases this
  · intro h
    have h0 := d4 0
    dsimp only at h
    rw [h] at h0
    obtain ⟨x, hx, hx0⟩ := hseen
    obtain ⟨k, hk⟩ := List.getElem?_of_mem hx
    have hmem : k ∈ Spec.Store.positions (fun x : ObjObs (ℝ × ℝ) => x.obj == 0) r.1.oo :=
      (Props.Store.positions_get _ _ _).2 ⟨x, hk, by simpa using hx0⟩
    obtain ⟨j, hj⟩ := List.getElem?_of_mem hmem
    have hpos : 0 < (Spec.Store.positions (fun x : ObjObs (ℝ × ℝ) => x.obj == 0) r.1.oo).length := List.length_pos_of_mem hmem
    rw [Nat.mul_zero, List.getElem?_eq_getElem hpos] at h0
    cases h0

include hl hs hobs hb hr hids hm hbr hka in
/-- C107: with no group or several groups of cameras, the analysis does not work to the end. -/
theorem C107_groups [Inhabited Pt] (rep : Finish.Reports V (Pose ℝ) Pt ℝ Img) (hrep : Finish.report en bpts s.frames r = .ok rep)
    (hg : r.1.t.groups.length ≠ 1) (save : Str) (name : Str) (kp : KP) (d d' : Disk (Stored V Pt Img KP))
    (hw : Props.Disk.Written save name rep kp d d') (ofVec : V → Pose ℝ)
    (truthOf : Option (Stored V Pt Img KP) → Outcome (List (Mat4 ℝ × Mat3 ℝ))) (a : Shown Pt) :
    analyse ofVec truthOf d' save ≠ .ok a := by
  have hH := C76_holds nCam nBoard l hl s hs obs hobs bpts hb n fix r hr hids en hm pix hbr hka
  obtain ⟨_, _, _, f4⟩ := report_files hrep
  obtain ⟨file, g1, g2⟩ := ScriptsStat.C72_groups hH hg
  rw [f4] at g1
  cases g1
  intro h
  unfold analyse at h
  obtain ⟨_, _, h⟩ := Outcome.bind_eq_ok.1 h
  obtain ⟨_, _, h⟩ := Outcome.bind_eq_ok.1 h
  obtain ⟨_, _, h⟩ := Outcome.bind_eq_ok.1 h
  obtain ⟨_, _, h⟩ := Outcome.bind_eq_ok.1 h
  obtain ⟨_, _, h⟩ := Outcome.bind_eq_ok.1 h
  obtain ⟨_, _, h⟩ := Outcome.bind_eq_ok.1 h
  obtain ⟨_, _, h⟩ := Outcome.bind_eq_ok.1 h
  obtain ⟨_, _, h⟩ := Outcome.bind_eq_ok.1 h
  obtain ⟨e, h1, h⟩ := Outcome.bind_eq_ok.1 h
  obtain ⟨_, h2, _⟩ := Outcome.bind_eq_ok.1 h
  have w4 : d'.file (inside save "reprojection_error_data.yml".toList) = some (.errors rep.errors) := hw.errors
  rw [w4] at h1
  simp only [asErrors, Outcome.ok.injEq] at h1
  subst h1
  rw [g2] at h2
  cases h2

include hl hs hobs hb hr in
/-- C107: nor does it if a camera is missing in the first group (it was never seen, or shares no view, even indirectly,
and was not joined). -/
theorem C107_missing (hcams : ∀ c ∈ observingCams nCam l, ∃ cam sz, en.cams[c]? = some cam ∧ cam.size = some sz)
    (rep : Finish.Reports V (Pose ℝ) Pt ℝ Img) (hrep : Finish.report en bpts s.frames r = .ok rep)
    (g : CamGroup (Pose ℝ)) (hg : OMap.get? r.1.t.groups 0 = some g) (c : Nat) (hc : c < en.cams.length)
    (hmiss : c ∉ OMap.keys g.cameras) (save : Str) (kp : KP) (d d' : Disk (Stored V Pt Img KP))
    (hw : Props.Disk.Written save [] rep kp d d') (ofVec : V → Pose ℝ)
    (truthOf : Option (Stored V Pt Img KP) → Outcome (List (Mat4 ℝ × Mat3 ℝ))) (a : Shown Pt) :
    analyse ofVec truthOf d' save ≠ .ok a := by
  have hT := C76_tables nCam nBoard l hl s hs obs hobs bpts hb n fix r hr
  obtain ⟨hE, _⟩ := ends nCam nBoard l hl s hs obs hobs bpts hb n fix r hr
  obtain ⟨f1, _⟩ := report_files hrep
  have hknown : Output.CamsKnown en.cams r.1.t.groups := fun i g hg c hc => hcams c (hE.known i g hg c hc)
  have hno := ScriptsTruth.C73_missing en.cams r.1.t.groups hT.consistent.groups hknown rep.cameras f1 (by
    intro h
    rw [h] at hg
    cases hg) c hc (by
    intro i g' hg' hleast
    have := hleast 0 (OMap.mem_keys.2 ⟨g, hg⟩)
    have hi : i = 0 := by omega
    subst hi
    rw [hg] at hg'
    cases hg'
    exact hmiss)
  intro h
  unfold analyse at h
  obtain ⟨_, _, h⟩ := Outcome.bind_eq_ok.1 h
  obtain ⟨cams, h1, h⟩ := Outcome.bind_eq_ok.1 h
  obtain ⟨truth, _, h⟩ := Outcome.bind_eq_ok.1 h
  obtain ⟨_, h2, _⟩ := Outcome.bind_eq_ok.1 h
  have w1 : d'.file (inside save "calibrated_cameras_data.yml".toList) = some (.cameras rep.cameras) := hw.cameras
  rw [w1] at h1
  simp only [asCameras, Outcome.ok.injEq] at h1
  subst h1
  rw [hno] at h2
  cases h2

end

/-- C107: what is shown for a directory is what each script shows of the results of the run, the cameras once small and once
large; so C72 to C75 say what it is. -/
theorem C107_shown [SMul (Pose ℝ) Pt] (save : Str) (rep : Finish.Reports V (Pose ℝ) Pt ℝ Img) (kp : KP)
    (d d' : Disk (Stored V Pt Img KP)) (hw : Props.Disk.Written save [] rep kp d d') (ofVec : V → Pose ℝ)
    (truthOf : Option (Stored V Pt Img KP) → Outcome (List (Mat4 ℝ × Mat3 ℝ))) (a : Shown Pt) :
    analyse ofVec truthOf d' save = .ok a ↔
      d'.hasLoc ⟨(loc save).abs, (loc save).parent.names ++ ["GroundTruth.yml".toList]⟩ = true ∧
      (∃ truth, truthOf (d'.file ⟨(loc save).abs, (loc save).parent.names ++ ["GroundTruth.yml".toList]⟩) = .ok truth ∧
        poseErrors rep.cameras truth = .ok a.printed) ∧
      drawnCameras rep.cameras 0.1 = .ok a.smallCameras ∧ drawnObject ofVec rep.objects rep.poses = .ok a.object ∧
      drawnCameras rep.cameras 0.5 = .ok a.cameras ∧ drawnBoards rep.objects = .ok a.boards ∧
      errorStatistic rep.errors = .ok a.bars := by
  have w1 : d'.file (inside save "calibrated_cameras_data.yml".toList) = some (.cameras rep.cameras) := hw.cameras
  have w2 : d'.file (inside save "calibrated_objects_data.yml".toList) = some (.objects rep.objects) := hw.objects
  have w3 : d'.file (inside save "calibrated_objects_pose_data.yml".toList) = some (.poses rep.poses) := hw.poses
  have w4 : d'.file (inside save "reprojection_error_data.yml".toList) = some (.errors rep.errors) := hw.errors
  have key : analysisInputs d' save = .ok () ↔
      d'.hasLoc ⟨(loc save).abs, (loc save).parent.names ++ ["GroundTruth.yml".toList]⟩ = true := by
    unfold analysisInputs
    simp only
    have e1 : d'.hasLoc (loc save) = true := by unfold Disk.hasLoc; rw [hw.place]; rfl
    have e2 : d'.hasLoc ⟨(loc save).abs, (loc save).names ++ ["calibrated_cameras_data.yml".toList]⟩ = true := by
      unfold Disk.hasLoc
      rw [show d'.file ⟨(loc save).abs, (loc save).names ++ ["calibrated_cameras_data.yml".toList]⟩ = _ from w1]
      simp
    have e3 : d'.hasLoc ⟨(loc save).abs, (loc save).names ++ ["calibrated_objects_data.yml".toList]⟩ = true := by
      unfold Disk.hasLoc
      rw [show d'.file ⟨(loc save).abs, (loc save).names ++ ["calibrated_objects_data.yml".toList]⟩ = _ from w2]
      simp
    have e4 : d'.hasLoc ⟨(loc save).abs, (loc save).names ++ ["reprojection_error_data.yml".toList]⟩ = true := by
      unfold Disk.hasLoc
      rw [show d'.file ⟨(loc save).abs, (loc save).names ++ ["reprojection_error_data.yml".toList]⟩ = _ from w4]
      simp
    rw [e1, e2, e3, e4]
    cases d'.hasLoc ⟨(loc save).abs, (loc save).parent.names ++ ["GroundTruth.yml".toList]⟩ <;> simp
  unfold analyse camObjPose
  rw [w1, w2, w3, w4]
  simp only [asCameras, asObjects, asPoses, asErrors, Outcome.bind_ok]
  constructor
  · intro h
    obtain ⟨_, h0, h⟩ := Outcome.bind_eq_ok.1 h
    obtain ⟨truth, h1, h⟩ := Outcome.bind_eq_ok.1 h
    obtain ⟨p, h2, h⟩ := Outcome.bind_eq_ok.1 h
    obtain ⟨co, h3, h⟩ := Outcome.bind_eq_ok.1 h
    obtain ⟨small, h5, h3⟩ := Outcome.bind_eq_ok.1 h3
    obtain ⟨o, h6, h3⟩ := Outcome.bind_eq_ok.1 h3
    simp only [Outcome.pure_eq, Outcome.ok.injEq] at h3
    obtain ⟨big, h7, h⟩ := Outcome.bind_eq_ok.1 h
    obtain ⟨boards, h8, h⟩ := Outcome.bind_eq_ok.1 h
    obtain ⟨bars, h9, h⟩ := Outcome.bind_eq_ok.1 h
    simp only [Outcome.pure_eq, Outcome.ok.injEq] at h
    subst h h3
    exact ⟨key.1 h0, ⟨truth, h1, h2⟩, h5, h6, h7, h8, h9⟩
  · rintro ⟨h0, ⟨truth, h1, h2⟩, h5, h6, h7, h8, h9⟩
    rw [key.2 h0, h1]
    simp only [Outcome.bind_ok]
    rw [h2, h5, h6, h7, h8, h9]
    rfl

/-! ### Several directories -/

private theorem collect_iff {α β : Type} (f : α → Outcome β) (ps : List α) : ∀ (acc out : List β),
    Outcome.foldlM (collect f) acc ps = .ok out ↔ ∃ res, out = acc ++ res ∧ List.Forall₂ (fun p a => f p = .ok a) ps res := by
  induction ps with
  | nil =>
    intro acc out
    constructor
    · intro h
      cases h
      exact ⟨[], (List.append_nil _).symm, List.Forall₂.nil⟩
    · rintro ⟨res, rfl, h⟩
      cases h
      rw [List.append_nil]
      rfl
  | cons p ps ih =>
    intro acc out
    constructor
    · intro h
      obtain ⟨st, h1, h2⟩ := Outcome.bind_eq_ok.1 h
      unfold collect at h1
      obtain ⟨a, h3, h4⟩ := Outcome.bind_eq_ok.1 h1
      simp only [Outcome.pure_eq, Outcome.ok.injEq] at h4
      subst h4
      obtain ⟨res, rfl, h5⟩ := (ih _ _).1 h2
      exact ⟨a :: res, by rw [List.append_assoc]; rfl, List.Forall₂.cons h3 h5⟩
    · rintro ⟨res, rfl, h⟩
      cases h with
      | @cons _ a _ res h1 h2 =>
        refine Outcome.bind_eq_ok.2 ⟨acc ++ [a], ?_, (ih _ _).2 ⟨res, by rw [List.append_assoc]; rfl, h2⟩⟩
        unfold collect
        rw [h1]
        rfl

/-- C107: several directories are analysed, in order, exactly if the analysis of each works to the end. -/
theorem C107_all [SMul (Pose ℝ) Pt] (ofVec : V → Pose ℝ)
    (truthOf : Option (Stored V Pt Img KP) → Outcome (List (Mat4 ℝ × Mat3 ℝ))) (d : Disk (Stored V Pt Img KP)) (ps : List Str)
    (res : List (Shown Pt)) :
    analyseAll ofVec truthOf d ps = .ok res ↔
      List.Forall₂ (fun p a => analyse ofVec truthOf d p = .ok a) ps res := by
  unfold analyseAll each
  rw [collect_iff]
  constructor
  · rintro ⟨res', h, h2⟩
    rw [List.nil_append] at h
    rw [h]
    exact h2
  · intro h
    exact ⟨res, rfl, h⟩

end Verif.Props.Analysis
