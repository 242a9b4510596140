import Verif.Lemmas.ReorderFinish

/-! C97: the whole workflow on the same images in another order. -/
namespace Verif.Props.ReorderRun
open Verif Verif.Objects Verif.Structure Verif.Groups Verif.Pipeline Verif.Spec.Store Verif.Spec.Schedule Verif.Spec.Reorder
open Verif.Lemmas.ReorderRun Verif.Average
open Verif.Props.Trust (Unordered)

variable {V G Pt P Path : Type}

/-- C97: the calibration from the stored detections to the merged camera groups (calibrate.cpp:38-50), run on the same images in
another order: it gives the same objects and the same camera groups with the same poses, or fails in the same way.  `q` estimates the
pose of a board from its detection and `qo k` that of an object at stage `k` from its observation, whatever the number of the image;
`out` removes outliers.  The averages do not depend on the order of the poses, nor on listing all of them several times. -/
theorem C97_overlapping [Group G] [SMul G Pt] (nCam nBoard : Nat) (σ : Equiv.Perm Nat) (l l' : List (Insertion P Path))
    (hl : ∀ a ∈ l, a.obs.cam < nCam ∧ a.obs.board < nBoard) (hl' : ∀ a ∈ l', a.obs.cam < nCam ∧ a.obs.board < nBoard)
    (hr : Reordered σ l l') (s s' : Store P Path) (hs : Store.run nCam nBoard l = .ok s) (hs' : Store.run nCam nBoard l' = .ok s')
    (out : BoardObs P → BoardObs P) (hout : ∀ o, out (renamed σ o) = renamed σ (out o))
    (hview : ∀ o, (out o).cam = o.cam ∧ (out o).frame = o.frame ∧ (out o).board = o.board ∧ (out o).pts.length = (out o).ids.length)
    (bpts : List (List Pt)) (hb : bpts.length = nBoard)
    (n n' : Numerics V G) (hn : SameNumerics σ n n') (ha : Unordered n.avg) (hav : Unordered n.avgV) (hk : Repeated n.avgV)
    (q : BoardObs P → G) (hq : ∀ o, q (renamed σ o) = q o) (qo : Nat → ObjObs P → G)
    (hqo : ∀ k o, qo k (unnumbered o) = qo k o ∧ qo k (renamedObj σ o) = qo k o)
    (hp : PosesBy n bpts s (s.obs.map out) q qo) (hp' : PosesBy n' bpts s' (s'.obs.map out) q qo) :
    SameOutcome (SameCalibration σ) (overlapping n bpts s (s.obs.map out)) (overlapping n' bpts s' (s'.obs.map out)) :=
  overlapping_same nCam nBoard σ l l' hl hl' hr s s' hs hs' out hout hview bpts n n' hn hb ha hav hk q hq qo hqo hp hp'

/-- C97: and so does the whole calibration (calibrate.cpp:38-75), with the camera groups joined by hand-eye calibration, when the
result of the hand-eye calibration does not depend on the order of the pairs of poses. -/
theorem C97_workflow [Group G] [SMul G Pt] (nCam nBoard : Nat) (σ : Equiv.Perm Nat) (l l' : List (Insertion P Path))
    (hl : ∀ a ∈ l, a.obs.cam < nCam ∧ a.obs.board < nBoard) (hl' : ∀ a ∈ l', a.obs.cam < nCam ∧ a.obs.board < nBoard)
    (hr : Reordered σ l l') (s s' : Store P Path) (hs : Store.run nCam nBoard l = .ok s) (hs' : Store.run nCam nBoard l' = .ok s')
    (out : BoardObs P → BoardObs P) (hout : ∀ o, out (renamed σ o) = renamed σ (out o))
    (hview : ∀ o, (out o).cam = o.cam ∧ (out o).frame = o.frame ∧ (out o).board = o.board ∧ (out o).pts.length = (out o).ids.length)
    (bpts : List (List Pt)) (hb : bpts.length = nBoard)
    (n n' : Numerics V G) (hn : SameNumerics σ n n') (ha : Unordered n.avg) (hav : Unordered n.avgV) (hk : Repeated n.avgV)
    (hhe : ∀ ps ps', ps.Perm ps' → n.he ps = n.he ps')
    (q : BoardObs P → G) (hq : ∀ o, q (renamed σ o) = q o) (qo : Nat → ObjObs P → G)
    (hqo : ∀ k o, qo k (unnumbered o) = qo k o ∧ qo k (renamedObj σ o) = qo k o)
    (hp : PosesBy n bpts s (s.obs.map out) q qo) (hp' : PosesBy n' bpts s' (s'.obs.map out) q qo) :
    SameOutcome (SameCalibration σ) (workflow n bpts s (s.obs.map out)) (workflow n' bpts s' (s'.obs.map out)) :=
  workflow_same nCam nBoard σ l l' hl hl' hr s s' hs hs' out hout hview bpts n n' hn hb ha hav hk hhe q hq qo hqo hp hp'

/-- C97: and so does the run to the end, with the last refinements (calibrate.cpp:38-61); the objects have the same poses in the same
images, too, and the files of cameras and objects (McCalib.cpp:374-405, 414-449) are the same. -/
theorem C97_saved {K : Type} [Zero K] [One K] [Group G] [SMul G Pt] (nCam nBoard : Nat) (σ : Equiv.Perm Nat) (l l' : List (Insertion P Path))
    (hl : ∀ a ∈ l, a.obs.cam < nCam ∧ a.obs.board < nBoard) (hl' : ∀ a ∈ l', a.obs.cam < nCam ∧ a.obs.board < nBoard)
    (hr : Reordered σ l l') (s s' : Store P Path) (hs : Store.run nCam nBoard l = .ok s) (hs' : Store.run nCam nBoard l' = .ok s')
    (out : BoardObs P → BoardObs P) (hout : ∀ o, out (renamed σ o) = renamed σ (out o))
    (hview : ∀ o, (out o).cam = o.cam ∧ (out o).frame = o.frame ∧ (out o).board = o.board ∧ (out o).pts.length = (out o).ids.length)
    (bpts : List (List Pt)) (hb : bpts.length = nBoard) (fix : Int)
    (n n' : Numerics V G) (hn : SameNumerics σ n n') (ha : Unordered n.avg) (hav : Unordered n.avgV) (hk : Repeated n.avgV)
    (hhe : ∀ ps ps', ps.Perm ps' → n.he ps = n.he ps')
    (q : BoardObs P → G) (hq : ∀ o, q (renamed σ o) = q o) (qo : Nat → ObjObs P → G)
    (hqo : ∀ k o, qo k (unnumbered o) = qo k o ∧ qo k (renamedObj σ o) = qo k o)
    (hp : PosesBy n bpts s (s.obs.map out) q qo) (hp' : PosesBy n' bpts s' (s'.obs.map out) q qo) (cams : List (Output.CamData K)) :
    SameOutcome (fun r r' => SameCalibration σ r.1 r'.1 ∧ SamePoses σ r.2 r'.2 ∧
        Output.saveCamerasParams cams r'.1.t.groups = Output.saveCamerasParams cams r.1.t.groups ∧
        Output.save3DObj bpts r'.1.objs = Output.save3DObj bpts r.1.objs)
      (Finish.run n fix bpts s (s.obs.map out)) (Finish.run n' fix bpts s' (s'.obs.map out)) := by
  have h := Lemmas.ReorderFinish.run_same nCam nBoard σ l l' hl hl' hr s s' hs hs' out hout hview bpts n n' hn fix hb ha hav hk hhe q hq qo hqo hp hp'
  generalize Finish.run n fix bpts s (s.obs.map out) = x at h
  generalize Finish.run n' fix bpts s' (s'.obs.map out) = y at h
  rcases x with a | _ | _ | _ <;> rcases y with b | _ | _ | _ <;> try exact h
  obtain ⟨h1, h2⟩ := h
  exact ⟨h1, h2, Lemmas.ReorderFinish.saveCameras_same cams h1.groups, by rw [h1.objs]⟩

/-- The averages of the program qualify: coordinatewise medians of relative poses (geometrytools.cpp:696-703, McCalib.cpp:781-822),
and medians of rotations with means of translations in a camera group (CameraGroupObs.cpp:77-97). -/
theorem C97_averages {K : Type} [Field K] [LinearOrder K] [IsStrictOrderedRing K] (toVec : G → Vec6 K) (ofVec : Vec6 K → G) :
    Unordered (interAverage toVec ofVec) ∧ Unordered (groupAverageVec (K := K)) ∧ Repeated (groupAverageVec (K := K)) := by
  refine ⟨fun zs zs' hp => ?_, fun zs zs' hp => ?_, fun k zs hk => Props.Average.groupAverage_repeat zs k hk⟩
  · unfold interAverage medianPose
    have hm : ∀ f : Vec6 K → K, median ((zs.map toVec).map f) = median ((zs'.map toVec).map f) :=
      fun f => Props.Average.C31_order ((hp.map _).map _)
    rw [hm, hm, hm, hm, hm, hm]
  · unfold groupAverageVec
    have hm : ∀ f : Vec6 K → K, median (zs.map f) = median (zs'.map f) := fun f => Props.Average.C31_order (hp.map _)
    have ht : ∀ f : Vec6 K → K, (zs.map f).foldl (· + ·) 0 = (zs'.map f).foldl (· + ·) 0 := fun f => by
      rw [← List.sum_eq_foldl, ← List.sum_eq_foldl, (hp.map f).sum_eq]
    simp only [hm, ht, hp.length_eq]

/-- Estimates from the observations exist for every run: the poses of the boards decide the first objects, those of the objects at
stages 1 and 2 the camera groups, and these the observations at stage 4. -/
theorem poses_by [Group G] [SMul G Pt] (n : Numerics V G) (bpts : List (List Pt)) (s : Store P Path) (obs : List (BoardObs P))
    (q : BoardObs P → G) (qo : Nat → ObjObs P → G) :
    ∃ n' : Numerics V G, PosesBy n' bpts s obs q qo ∧ ∃ b o, n' = { n with boardPose := b, objPose := o } := by
  classical
  obtain ⟨oo, hoo⟩ : ∃ oo, ∀ objs oo', calibrateObjects { n with boardPose := posesOf s q } bpts s obs = .ok (objs, oo') → oo' = oo := by
    rcases h : calibrateObjects { n with boardPose := posesOf s q } bpts s obs with r | _ | _ | _
    · exact ⟨r.2, fun _ _ e => by cases e; rfl⟩
    all_goals exact ⟨[], fun _ _ e => nomatch e⟩
  obtain ⟨st, hst⟩ : ∃ o4, ∀ st, overlapping { n with boardPose := posesOf s q, objPose := fun k => objPosesOf oo (qo k) } bpts s obs = .ok st →
      st.oo = o4 := by
    rcases h : overlapping { n with boardPose := posesOf s q, objPose := fun k => objPosesOf oo (qo k) } bpts s obs with r | _ | _ | _
    · exact ⟨r.oo, fun _ e => by cases e; rfl⟩
    all_goals exact ⟨[], fun _ e => nomatch e⟩
  refine ⟨{ n with boardPose := posesOf s q, objPose := fun k => if k = 4 then objPosesOf st (qo 4) else objPosesOf oo (qo k) }, ⟨rfl, ?_, ?_⟩, _, _, rfl⟩
  · intro objs oo' h
    rw [hoo objs oo' h]
    exact ⟨rfl, rfl⟩
  · intro st' h
    rw [hst st' h]
    rfl

/-! ### A case -/

open Verif.Props.Trust (Shift shiftAvg shiftAvg_ok)
open Verif.Props.Reorder (demo demoOther demoPose)

/-- Refined poses are given numbers; the hand-eye calibration is never needed here. -/
def base (b : Nat → Shift) (o : Nat → Nat → Shift) : Numerics Shift Shift where
  boardPose := b
  objPose := o
  board := fun k _ i => Multiplicative.ofAdd (k + i : ℚ)
  cam := fun k _ c => Multiplicative.ofAdd (10 * k + c : ℚ)
  inGroup := fun _ _ _ o => Multiplicative.ofAdd (o : ℚ)
  avg := shiftAvg
  avgV := shiftAvg
  toVec := id
  ofVec := id
  he := fun _ => .ok 1
  choose := fun _ _ _ _ => 0

example (σ : Equiv.Perm Nat) (b b' : Nat → Shift) (o o' : Nat → Nat → Shift) : SameNumerics σ (base b o) (base b' o') :=
  ⟨rfl, rfl, fun _ _ _ _ => rfl, rfl, rfl, rfl, rfl, rfl, rfl⟩

theorem shiftAvg_repeated : Repeated shiftAvg := by
  intro k zs hk
  unfold shiftAvg interAverage medianPose
  have hm : ∀ f : Vec6 ℚ → ℚ, ∀ t : Shift → Vec6 ℚ, median ((((List.replicate k zs).flatten).map t).map f) = median ((zs.map t).map f) := by
    intro f t
    rw [List.map_map, List.map_map, List.map_flatten, List.map_replicate]
    exact Props.Average.C31_repeat _ k hk
  simp only [hm]

/-- The pose of an object, read off its first pixel. -/
def demoObjPose (o : ObjObs ℚ) : Shift := Multiplicative.ofAdd (o.pts.headD 0)

example (σ : Equiv.Perm Nat) (o : ObjObs ℚ) : demoObjPose (unnumbered o) = demoObjPose o ∧ demoObjPose (renamedObj σ o) = demoObjPose o := ⟨rfl, rfl⟩

/-- The calibration of `l`, with the poses estimated as the program does, stage by stage. -/
def demoRun (l : List (Insertion ℚ Nat)) : Outcome (List (Nat × List (Nat × ℚ)) × List (Nat × List (Nat × ℚ)) × Nat) := do
  let s ← Store.run 2 2 l
  let b := posesOf s demoPose
  let r ← calibrateObjects (base b fun _ _ => 1) ([[0], [0]] : List (List ℚ)) s s.obs
  let st ← overlapping (base b fun _ => objPosesOf r.2 demoObjPose) ([[0], [0]] : List (List ℚ)) s s.obs
  let o : Nat → Nat → Shift := fun k => if k = 4 then objPosesOf st.oo demoObjPose else objPosesOf r.2 demoObjPose
  let st ← workflow (base b o) ([[0], [0]] : List (List ℚ)) s s.obs
  pure (st.objs.map fun e => (e.1, e.2.poses.map fun x => (x.1, x.2.toAdd)), st.t.groups.map fun e => (e.1, e.2.poses.map fun x => (x.1, x.2.toAdd)),
    st.oo.length)

/-- The value computed, if any. -/
def valueOf {A : Type} : Outcome A → Option A
  | .ok a => some a
  | _ => none

/- Both orders give one object with both boards and one camera group, as refined last. -/
set_option synthInstance.maxSize 2000 in
set_option synthInstance.maxHeartbeats 400000 in
example : valueOf (demoRun demo) = some ([(0, [(0, 0), (1, 6)])], [(0, [(0, 0), (1, 51)])], 4) ∧
    valueOf (demoRun demoOther) = valueOf (demoRun demo) := by decide +kernel

end Verif.Props.ReorderRun
