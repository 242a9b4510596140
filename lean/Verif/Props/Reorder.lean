import Verif.Lemmas.Reorder
import Verif.Props.Schedule

/-!
C97: the order of the images does not matter.  If the images of all cameras are renumbered in the same way (files renamed, so that
they are listed in another order), the same objects and camera groups are formed, with the same poses.
-/
namespace Verif.Props.Reorder
open Verif Verif.Objects Verif.Groups Verif.Structure Verif.Store Verif.Spec.Store Verif.Spec.Reorder Verif.Spec.Schedule
open Verif.Lemmas.Reorder Verif.Props.Trust Verif.Detection Verif.Pipeline Verif.Spec.Units Verif.Lemmas.Units
open Verif.Props.Detection (tasks)
open Verif.Lemmas.Groups (FromBoards)

variable {K V G Pt P Path : Type}

/-! ### Detections -/

/-- The number of an image is only copied into its detections. -/
theorem detect_renumbered [Field K] [LinearOrder K] (fit : List (K × K) → K × K × K × K) (cfg : Cfg) (geoms : List (Geom K))
    (cam f f' : Nat) (path path' : Path) (raw : Option (Nat → Raw P)) :
    detectImage fit cfg geoms cam f' path' raw =
      Spec.Units.result (List.map fun a => (⟨{ a.obs with frame := f' }, path'⟩ : Insertion P Path))
        (detectImage fit cfg geoms cam f path raw) := by
  unfold detectImage
  cases raw with
  | none => rfl
  | some raw =>
    refine foldlM_result' (List.map fun a : Insertion P Path => (⟨{ a.obs with frame := f' }, path'⟩ : Insertion P Path)) (fun acc x => ?_) geoms.zipIdx []
    rw [bind_result]
    refine bind_congr' fun r => ?_
    cases r with
    | none => rfl
    | some r =>
      show Outcome.ok _ = Outcome.ok _
      rw [List.map_append]
      rfl

private theorem image_of [Field K] [LinearOrder K] [Inhabited Path] (fit : List (K × K) → K × K × K × K) (cfg : Cfg) (geoms : List (Geom K))
    (nCam : Nat) (nFrames : Nat → Nat) (path : Nat → Nat → Path) (raw : Nat → Nat → Option (Nat → Raw P))
    (det : Nat → Nat → List (Insertion P Path))
    (hdet : ∀ c f, c < nCam → f < nFrames c → detectImage fit cfg geoms c f (path c f) (raw c f) = .ok (det c f))
    (l : List (Insertion P Path)) (h : Schedule (tasks nCam nFrames det) l) (c f : Nat) :
    l.filter (byCamFrame c f) = if c < nCam ∧ f < nFrames c then det c f else [] := by
  have e : l.filter (byCamFrame c f) = (l.filter (byFrame f)).filter fun a => decide (a.obs.cam = c) := by
    rw [List.filter_filter]
    apply List.filter_congr
    intro a _
    rw [Bool.eq_iff_iff]
    simp [byCamFrame, byFrame]
  rw [e, Lemmas.Reload.schedule_frame fit cfg geoms nCam nFrames path raw det hdet l h f, List.filter_flatMap]
  have hc : ∀ c' ∈ List.range nCam, ((if f < nFrames c' then det c' f else []).filter fun a => decide (a.obs.cam = c)) =
      if c' = c then (if f < nFrames c then det c f else []) else [] := by
    intro c' hc'
    rw [List.mem_range] at hc'
    by_cases hf : f < nFrames c'
    · rw [if_pos hf]
      have hm := detectImage_mem (hdet c' f hc' hf)
      by_cases hcc : c' = c
      · subst hcc
        rw [if_pos rfl, if_pos hf, List.filter_eq_self]
        intro a ha
        simp [(hm a ha).1]
      · rw [if_neg hcc, List.filter_eq_nil_iff]
        intro a ha
        simp [(hm a ha).1, hcc]
    · rw [if_neg hf]
      by_cases hcc : c' = c
      · subst hcc
        rw [if_pos rfl, if_neg hf]
        rfl
      · rw [if_neg hcc]
        rfl
  rw [List.flatMap_congr hc]
  by_cases hcn : c < nCam
  · obtain ⟨k1, k2, hk⟩ := List.append_of_mem (List.mem_range.2 hcn)
    have hnd : (List.range nCam).Nodup := List.nodup_range
    rw [hk] at hnd
    have hn1 : c ∉ k1 := fun hm => (List.nodup_append.1 hnd).2.2 _ hm _ (by simp) rfl
    have hn2 : c ∉ k2 := (List.nodup_cons.1 (List.nodup_append.1 hnd).2.1).1
    have hz : ∀ ks : List Nat, c ∉ ks → (ks.flatMap fun c' => if c' = c then (if f < nFrames c then det c f else []) else []) = [] := by
      intro ks hks
      rw [List.flatMap_eq_nil_iff]
      intro x hx
      rw [if_neg]
      rintro rfl
      exact hks hx
    rw [hk, List.flatMap_append, List.flatMap_cons, hz k1 hn1, hz k2 hn2, if_pos rfl, List.append_nil, List.nil_append]
    simp only [hcn, true_and]
  · rw [if_neg (fun h : c < nCam ∧ f < nFrames c => hcn h.1), List.flatMap_eq_nil_iff]
    intro x hx
    rw [if_neg]
    rintro rfl
    exact hcn (List.mem_range.1 hx)

/-- C97: two runs of the detection on the same images, numbered differently, in any schedules, find the same. -/
theorem C97_images [Field K] [LinearOrder K] [Inhabited Path] (fit : List (K × K) → K × K × K × K) (cfg : Cfg)
    (geoms : List (Geom K)) (nCam : Nat) (nFrames : Nat → Nat) (path path' : Nat → Nat → Path)
    (raw raw' : Nat → Nat → Option (Nat → Raw P)) (σ : Equiv.Perm Nat) (hσ : ∀ c f, σ f < nFrames c ↔ f < nFrames c)
    (hraw : ∀ c f, c < nCam → f < nFrames c → raw' c (σ f) = raw c f) (det det' : Nat → Nat → List (Insertion P Path))
    (hdet : ∀ c f, c < nCam → f < nFrames c → detectImage fit cfg geoms c f (path c f) (raw c f) = .ok (det c f))
    (hdet' : ∀ c f, c < nCam → f < nFrames c → detectImage fit cfg geoms c f (path' c f) (raw' c f) = .ok (det' c f))
    (l l' : List (Insertion P Path)) (h : Schedule (tasks nCam nFrames det) l) (h' : Schedule (tasks nCam nFrames det') l') :
    Reordered σ l l' := by
  intro c f
  rw [image_of fit cfg geoms nCam nFrames path raw det hdet l h, image_of fit cfg geoms nCam nFrames path' raw' det' hdet' l' h']
  simp only [hσ]
  by_cases hc : c < nCam ∧ f < nFrames c
  · rw [if_pos hc, if_pos hc]
    have e := detect_renumbered fit cfg geoms c f (σ f) (path c f) (path' c (σ f)) (raw c f)
    rw [hdet c f hc.1 hc.2, ← hraw c f hc.1 hc.2, hdet' c (σ f) hc.1 ((hσ c f).2 hc.2)] at e
    simp only [Spec.Units.result, Outcome.ok.injEq] at e
    rw [e, List.map_map]
    apply List.map_congr_left
    intro a ha
    simp only [Function.comp_apply, renamed, (detectImage_mem (hdet c f hc.1 hc.2) a ha).2.1]
  · rw [if_neg hc, if_neg hc]
    rfl

/-! ### Objects and groups -/

private theorem desc' {nCam nBoard : Nat} {l : List (Insertion P Path)} {s : Store P Path}
    (hs : Store.run nCam nBoard l = .ok s) : Describes nCam nBoard l s := (Lemmas.Schedule.describes_of_run hs).1

/-- C97: the objects, with their boards, poses and points, do not depend on the order of the images.  `q` estimates the pose of a
board from its detection, whatever the number of the image. -/
theorem C97_objects [Group G] [SMul G Pt] (nCam nBoard : Nat) (σ : Equiv.Perm Nat) (l l' : List (Insertion P Path))
    (hr : Reordered σ l l') (s s' : Store P Path) (hs : Store.run nCam nBoard l = .ok s) (hs' : Store.run nCam nBoard l' = .ok s')
    (q : BoardObs P → G) (hq : ∀ o, q (renamed σ o) = q o) (avg : List G → G) (ha : Unordered avg) (bpts : List (List Pt))
    (choose : Nat → Nat → Graph.DState → Nat) :
    buildObjects s' (posesOf s' q) avg bpts choose = buildObjects s (posesOf s q) avg bpts choose :=
  objects_same (desc' hs) (desc' hs') hr q hq avg ha bpts choose

theorem calibrateObjects_same [Group G] [SMul G Pt] (nCam nBoard : Nat) (σ : Equiv.Perm Nat) (l l' : List (Insertion P Path))
    (hl : ∀ a ∈ l, a.obs.cam < nCam ∧ a.obs.board < nBoard) (hl' : ∀ a ∈ l', a.obs.cam < nCam ∧ a.obs.board < nBoard)
    (hr : Reordered σ l l') (s s' : Store P Path) (hs : Store.run nCam nBoard l = .ok s) (hs' : Store.run nCam nBoard l' = .ok s')
    (q : BoardObs P → G) (hq : ∀ o, q (renamed σ o) = q o) (out : BoardObs P → BoardObs P)
    (hout : ∀ o, out (renamed σ o) = renamed σ (out o))
    (hview : ∀ o, (out o).cam = o.cam ∧ (out o).frame = o.frame ∧ (out o).board = o.board ∧ (out o).pts.length = (out o).ids.length)
    (n : Numerics V G) (ha : Unordered n.avg) (bpts : List (List Pt)) (hb : bpts.length = nBoard)
    (objs : OMap Nat (Object G Pt)) (oo : List (ObjObs P))
    (h : calibrateObjects { n with boardPose := posesOf s q } bpts s (s.obs.map out) = .ok (objs, oo)) :
    ∃ oo', calibrateObjects { n with boardPose := posesOf s' q } bpts s' (s'.obs.map out) = .ok (objs, oo') ∧
      SameObjects σ oo oo' ∧ FromBoards l oo ∧ FromBoards l' oo' := by
  have d := desc' hs
  have d' := desc' hs'
  have hsv : ∀ obs : List (BoardObs P), Spec.Objects.SameViews obs (obs.map out) := by
    intro obs
    constructor
    · rw [List.map_map]
      apply List.map_congr_left
      intro o _
      simp only [Function.comp_apply, hview o]
    · intro o ho
      obtain ⟨x, _, rfl⟩ := List.mem_map.1 ho
      exact (hview x).2.2.2
  unfold calibrateObjects at h
  obtain ⟨objs0, h1, h⟩ := Outcome.bind_eq_ok.1 h
  obtain ⟨oo0, h2, h⟩ := Outcome.bind_eq_ok.1 h
  obtain ⟨objs1, h3, h⟩ := Outcome.bind_eq_ok.1 h
  simp only [pure, Outcome.ok.injEq, Prod.mk.injEq] at h
  obtain ⟨rfl, rfl⟩ := h
  have hC := Props.Objects.C24_initial nCam nBoard l hl s hs _ _ bpts hb _ objs0 h1
  have e1 : buildObjects s' (posesOf s' q) n.avg bpts (n.choose 0) = .ok objs0 := by
    rw [← h1]
    exact objects_same d d' hr q hq n.avg ha bpts _
  have e2 := Props.Objects.C16_observations nCam nBoard l hl s hs _ (hsv s.obs) bpts objs0 hC
  have e2' := Props.Objects.C16_observations nCam nBoard l' hl' s' hs' _ (hsv s'.obs) bpts objs0 hC
  rw [h2] at e2
  simp only [Outcome.ok.injEq] at e2
  refine ⟨objs0.flatMap fun e => Spec.Objects.allObjObs e.2 (s'.obs.map out) (OMap.keys s'.camObs), ?_, ?_,
    Props.Groups.fromBoards nCam nBoard l hl s hs _ (hsv s.obs) bpts objs0 hC oo0 h2,
    Props.Groups.fromBoards nCam nBoard l' hl' s' hs' _ (hsv s'.obs) bpts objs0 hC _ e2'⟩
  · unfold calibrateObjects
    dsimp only
    rw [e1]
    show (initAllObjectObs _ objs0 [] >>= _) = _
    rw [e2', Outcome.bind_ok, h3, Outcome.bind_ok]
    rfl
  · rw [e2, d.obs, d'.obs, List.map_map, List.map_map]
    exact allObjObs_same d d' hr out hout (fun o => ⟨(hview o).1, (hview o).2.1⟩) objs0

/-- C97: stage "objects" of the calibration (McCalib.cpp:2098-2108): the same objects, refined to the same poses, and the same object
observations up to the order and the numbers of the images.  `out` removes the outliers of a detection. -/
theorem C97_calibrateObjects [Group G] [SMul G Pt] (nCam nBoard : Nat) (σ : Equiv.Perm Nat) (l l' : List (Insertion P Path))
    (hl : ∀ a ∈ l, a.obs.cam < nCam ∧ a.obs.board < nBoard) (hl' : ∀ a ∈ l', a.obs.cam < nCam ∧ a.obs.board < nBoard)
    (hr : Reordered σ l l') (s s' : Store P Path) (hs : Store.run nCam nBoard l = .ok s) (hs' : Store.run nCam nBoard l' = .ok s')
    (q : BoardObs P → G) (hq : ∀ o, q (renamed σ o) = q o) (out : BoardObs P → BoardObs P)
    (hout : ∀ o, out (renamed σ o) = renamed σ (out o))
    (hview : ∀ o, (out o).cam = o.cam ∧ (out o).frame = o.frame ∧ (out o).board = o.board ∧ (out o).pts.length = (out o).ids.length)
    (n : Numerics V G) (ha : Unordered n.avg) (bpts : List (List Pt)) (hb : bpts.length = nBoard)
    (objs : OMap Nat (Object G Pt)) (oo : List (ObjObs P))
    (h : calibrateObjects { n with boardPose := posesOf s q } bpts s (s.obs.map out) = .ok (objs, oo)) :
    ∃ oo', calibrateObjects { n with boardPose := posesOf s' q } bpts s' (s'.obs.map out) = .ok (objs, oo') ∧
      SameObjects σ oo oo' := by
  obtain ⟨oo', h1, h2, _⟩ := calibrateObjects_same nCam nBoard σ l l' hl hl' hr s s' hs hs' q hq out hout hview n ha bpts hb objs oo h
  exact ⟨oo', h1, h2⟩

/-- C97: then the stage "camera groups" (McCalib.cpp:2114-2121) forms the same groups with the same cameras and poses, or fails in the
same way.  `qo` estimates the pose of an object from its observation, whatever the number of the image. -/
theorem C97_groups [Group G] [SMul G Pt] (nCam nBoard : Nat) (σ : Equiv.Perm Nat) (l l' : List (Insertion P Path))
    (hl : ∀ a ∈ l, a.obs.cam < nCam ∧ a.obs.board < nBoard) (hl' : ∀ a ∈ l', a.obs.cam < nCam ∧ a.obs.board < nBoard)
    (hr : Reordered σ l l') (s s' : Store P Path) (hs : Store.run nCam nBoard l = .ok s) (hs' : Store.run nCam nBoard l' = .ok s')
    (q : BoardObs P → G) (hq : ∀ o, q (renamed σ o) = q o) (out : BoardObs P → BoardObs P)
    (hout : ∀ o, out (renamed σ o) = renamed σ (out o))
    (hview : ∀ o, (out o).cam = o.cam ∧ (out o).frame = o.frame ∧ (out o).board = o.board ∧ (out o).pts.length = (out o).ids.length)
    (qo : ObjObs P → G) (hqo : ∀ o, qo (unnumbered o) = qo o ∧ qo (renamedObj σ o) = qo o)
    (n : Numerics V G) (ha : Unordered n.avg) (bpts : List (List Pt)) (hb : bpts.length = nBoard)
    (objs : OMap Nat (Object G Pt)) (oo : List (ObjObs P))
    (h : calibrateObjects { n with boardPose := posesOf s q } bpts s (s.obs.map out) = .ok (objs, oo)) :
    ∃ oo', calibrateObjects { n with boardPose := posesOf s' q } bpts s' (s'.obs.map out) = .ok (objs, oo') ∧
      buildGroups s' oo' (objPosesOf oo' qo) n.avg (n.choose 1) = buildGroups s oo (objPosesOf oo qo) n.avg (n.choose 1) := by
  obtain ⟨oo', h1, h2, h3, h4⟩ := calibrateObjects_same nCam nBoard σ l l' hl hl' hr s s' hs hs' q hq out hout hview n ha bpts hb objs oo h
  exact ⟨oo', h1, groups_same (desc' hs) (desc' hs') hr h3 h4 h2 qo hqo n.avg ha _⟩

/-! ### A case -/

/-- Two cameras, two images each, boards 0 and 1; the pixel is the measured distance. -/
def demo : List (Insertion ℚ Nat) :=
  [⟨⟨0, 0, 0, [0], [0]⟩, 0⟩, ⟨⟨0, 0, 1, [10], [0]⟩, 0⟩, ⟨⟨0, 1, 0, [2], [0]⟩, 1⟩, ⟨⟨0, 1, 1, [15], [0]⟩, 1⟩,
   ⟨⟨1, 0, 0, [5], [0]⟩, 0⟩, ⟨⟨1, 1, 0, [8], [0]⟩, 1⟩]

/-- The same with the two images exchanged. -/
def demoOther : List (Insertion ℚ Nat) :=
  [⟨⟨0, 0, 0, [2], [0]⟩, 1⟩, ⟨⟨0, 0, 1, [15], [0]⟩, 1⟩, ⟨⟨0, 1, 0, [0], [0]⟩, 0⟩, ⟨⟨0, 1, 1, [10], [0]⟩, 0⟩,
   ⟨⟨1, 0, 0, [8], [0]⟩, 1⟩, ⟨⟨1, 1, 0, [5], [0]⟩, 0⟩]

example : Reordered (Equiv.swap 0 1) demo demoOther ∧ ¬ demo.map (·.obs) = demoOther.map (·.obs) := by
  refine ⟨fun c f => ?_, by decide +kernel⟩
  by_cases hf : f < 2
  · have hf' : f = 0 ∨ f = 1 := by omega
    by_cases hc : c < 2
    · have hc' : c = 0 ∨ c = 1 := by omega
      rcases hf' with rfl | rfl <;> rcases hc' with rfl | rfl <;> decide +kernel
    · have h : ∀ f, demo.filter (byCamFrame c f) = [] ∧ demoOther.filter (byCamFrame c f) = [] := by
        intro f
        simp only [List.filter_eq_nil_iff]
        constructor <;> intro a ha <;> simp only [demo, demoOther, List.mem_cons, List.not_mem_nil, or_false] at ha <;>
          rcases ha with rfl | rfl | rfl | rfl | rfl | rfl <;> simp [byCamFrame] <;> omega
      rw [(h _).1, (h _).2]
      rfl
  · have e : Equiv.swap 0 1 f = f := Equiv.swap_apply_of_ne_of_ne (by omega) (by omega)
    have h : demo.filter (byCamFrame c f) = [] ∧ demoOther.filter (byCamFrame c f) = [] := by
      simp only [List.filter_eq_nil_iff]
      constructor <;> intro a ha <;> simp only [demo, demoOther, List.mem_cons, List.not_mem_nil, or_false] at ha <;>
        rcases ha with rfl | rfl | rfl | rfl | rfl | rfl <;> simp [byCamFrame] <;> omega
    rw [e, h.1, h.2]
    rfl

/-- A pose read off the pixel does not depend on the number of the image. -/
def demoPose (o : BoardObs ℚ) : Shift := Multiplicative.ofAdd (o.pts.headD 0)

example (σ : Equiv.Perm Nat) (o : BoardObs ℚ) : demoPose (renamed σ o) = demoPose o := rfl

/-- The objects of a list of detections. -/
def demoObjects (l : List (Insertion ℚ Nat)) : List (Nat × List (Nat × ℚ)) :=
  match Store.run 2 2 l with
  | .ok s => match buildObjects s (posesOf s demoPose) shiftAvg ([[0], [0]] : List (List ℚ)) (fun _ _ _ => 0) with
    | .ok objs => objs.map fun e => (e.2.refBoard, e.2.poses.map fun x => (x.1, x.2.toAdd))
    | _ => []
  | _ => []

/-- Board 1 is at the median 11.5 of the distances 10 and 13, in both orders. -/
example : demoObjects demo = [(0, [(0, 0), (1, 23 / 2)])] ∧ demoObjects demoOther = demoObjects demo := by decide +kernel

end Verif.Props.Reorder
