import Verif.Lemmas.FinishRun
import Verif.Spec.Finish
import Verif.Props.Images
import Verif.Props.ReproErr
import Verif.Props.Output
import Verif.Props.OutputObjects

/-!
C76-C78: the end of a calibration.
-/
namespace Verif.Props.Finish
open Verif Verif.Structure Verif.Objects Verif.Groups Verif.GroupPose Verif.NonOverlap Verif.Pipeline
open Verif.Spec.Groups Verif.Spec.Structure Verif.Spec.NonOverlap Verif.Spec.Pipeline Verif.Lemmas.Pipeline
open Verif.Spec.Finish Verif.Lemmas.FinishRun Verif.Spec.Report

variable {V G Pt P Path : Type}

/-! ### Tables -/

section
variable [Group G] [SMul G Pt] [DecidableEq P] (nCam nBoard : Nat) (l : List (Insertion P Path))
  (hl : ∀ a ∈ l, a.obs.cam < nCam ∧ a.obs.board < nBoard) (s : Store P Path)
  (hs : Store.run nCam nBoard l = .ok s) (obs : List (BoardObs P))
  (hobs : Spec.Objects.SameViews s.obs obs) (bpts : List (List Pt)) (hb : bpts.length = nBoard)
  (n : Numerics V G) (fix : Int) (r : State G Pt P × OMap (Nat × Nat) (OMap Nat V))
  (hr : Finish.run n fix bpts s obs = .ok r)

omit [DecidableEq P] in
include hl hs hobs in
theorem isSome_iff {C : List Nat} {st : State G Pt P} (h : Ends C s obs bpts st) {i : Nat} {g : CamGroup G}
    (hg : OMap.get? st.t.groups i = some g) (f : Nat) :
    (OMap.get? st.t.groupObs (i, f)).isSome ↔ SawIn obs g f := by
  rw [Option.isSome_iff_exists]
  constructor
  · rintro ⟨is, his⟩
    obtain ⟨g', hg', _, hne, rfl⟩ := (h.consistent.groupObs.obs i f is).1 his
    rw [hg] at hg'
    simp only [Option.some.injEq] at hg'
    subst hg'
    obtain ⟨k, hk⟩ := List.exists_mem_of_ne_nil _ hne
    obtain ⟨o, ho, hp⟩ := (Props.Store.positions_get _ _ _).1 hk
    simp only [Bool.and_eq_true, beq_iff_eq, decide_eq_true_eq] at hp
    obtain ⟨bo, hbo, h1, h2, h3⟩ := (views h.consistent h.joins.boards o.cam o.frame).1
      ⟨o, List.mem_of_getElem? ho, rfl, rfl⟩
    exact ⟨bo, hbo, h3, h2.trans hp.1, by rw [h1]; exact hp.2⟩
  · rintro ⟨bo, hbo, h3, h2, h1⟩
    obtain ⟨o, ho, q1, q2⟩ := (views h.consistent h.joins.boards bo.cam bo.frame).2 ⟨bo, hbo, rfl, rfl, h3⟩
    obtain ⟨ob, _, hsee⟩ := (h.consistent.sees o.obj o.cam o.frame).1 ⟨o, ho, rfl, rfl, rfl⟩
    have hf := sees_frame nCam nBoard l hl s hs obs hobs ob o.cam o.frame hsee
    obtain ⟨k, hk⟩ := List.getElem?_of_mem ho
    have hmem : k ∈ Spec.Store.positions
        (fun x : ObjObs P => x.frame == f && decide (x.cam ∈ OMap.keys g.cameras)) st.oo :=
      (Props.Store.positions_get _ _ _).2 ⟨o, hk, by rw [q2, h2, q1]; simpa using h1⟩
    exact ⟨_, (h.consistent.groupObs.obs i f _).2 ⟨g, hg, by rw [← h2, ← q2]; exact hf, List.ne_nil_of_mem hmem, rfl⟩⟩

include hl hs hobs hb hr in
theorem ends : Ends (observingCams nCam l) s obs bpts r.1 ∧ PosesIn r.1 r.2 := by
  obtain ⟨st, h1, h2⟩ := run_ends nCam nBoard l hl s hs obs hobs bpts hb n fix r hr
  exact finalStage_ends nCam nBoard l hl s hs obs hobs bpts n fix st h1 r h2

include hl hs hobs hb hr in
/-- C76: whatever the detections, the outlier removal, the numerical results and the tie-breaks, a run that ends leaves
complete tables: they agree with each other, no board and no camera with a corner left is missing from them, no group
is without a corner, and frames and groups refer to each other exactly where there is a corner. -/
theorem C76_tables : Complete bpts (OMap.keys s.frames) obs r.1 := by
  obtain ⟨h, _⟩ := ends nCam nBoard l hl s hs obs hobs bpts hb n fix r hr
  refine ⟨h.consistent, h.joins.boards, h.cams, h.numbered, ?_, ?_, ?_⟩
  · intro i g hg
    obtain ⟨o, ho, hc⟩ := h.observed i g hg
    obtain ⟨bo, hbo, h1, h2, h3⟩ := (views h.consistent h.joins.boards o.cam o.frame).1 ⟨o, ho, rfl, rfl⟩
    exact ⟨o.frame, bo, hbo, h3, h2, by rw [h1]; exact hc⟩
  · intro i g hg f
    rw [h.frames i g hg f]
    exact isSome_iff nCam nBoard l hl s hs obs hobs bpts h hg f
  · intro f
    rw [h.frameGroups f]
    refine ⟨(OMap.keys_nodup h.consistent.groups.sorted).filter _, fun i => ?_⟩
    rw [List.mem_filter, OMap.mem_keys]
    constructor
    · rintro ⟨⟨g, hg⟩, hi⟩
      exact ⟨g, hg, (isSome_iff nCam nBoard l hl s hs obs hobs bpts h hg f).1 hi⟩
    · rintro ⟨g, hg, hi⟩
      exact ⟨⟨g, hg⟩, (isSome_iff nCam nBoard l hl s hs obs hobs bpts h hg f).2 hi⟩

theorem mem_zip_flatMap {A B C : Type} (F : A → List B) (H : A → List C) (L : List A)
    (hL : ∀ a ∈ L, (F a).length = (H a).length) (e : B × C) :
    e ∈ (L.flatMap F).zip (L.flatMap H) ↔ ∃ a ∈ L, e ∈ (F a).zip (H a) := by
  induction L with
  | nil => simp
  | cons a L ih =>
    rw [List.flatMap_cons, List.flatMap_cons, List.zip_append (hL a (by simp)), List.mem_append,
      ih fun x hx => hL x (by simp [hx])]
    simp

include hl hs hobs hb hr in
/-- C77: at the end exactly the corners left by the removal of outliers are among the object observations: none is lost,
none is invented or attributed to another corner, camera or frame. -/
theorem C77_corners (hids : ∀ bo ∈ obs, ∀ k ∈ bo.ids, k < Spec.Objects.cornerCount bpts bo.board) (c f b k : Nat) (p : P) :
    Listed r.1.objs r.1.oo c f b k p ↔ Kept obs c f b k p := by
  obtain ⟨h, _⟩ := ends nCam nBoard l hl s hs obs hobs bpts hb n fix r hr
  have hsel : ∀ (ob : Object G Pt) c f, ∀ bo, bo ∈ (Spec.Objects.seenOf ob obs c f).filterMap (fun i => obs[i]?) ↔
      bo ∈ obs ∧ bo.cam = c ∧ bo.frame = f ∧ bo.board ∈ OMap.keys ob.boards := by
    intro ob c f bo
    rw [List.mem_filterMap]
    constructor
    · rintro ⟨i, hi, he⟩
      obtain ⟨bo', hbo', hp⟩ := (Props.Store.positions_get _ _ _).1 hi
      rw [he] at hbo'
      simp only [Option.some.injEq] at hbo'
      subst hbo'
      simp only [Bool.and_eq_true, beq_iff_eq, decide_eq_true_eq] at hp
      exact ⟨List.mem_of_getElem? he, hp.1.1, hp.1.2, hp.2⟩
    · rintro ⟨hbo, h1, h2, h3⟩
      obtain ⟨i, hi⟩ := List.getElem?_of_mem hbo
      exact ⟨i, (Props.Store.positions_get _ _ _).2 ⟨bo, hi, by simp [h1, h2, h3]⟩, hi⟩
  have hzip : ∀ (ob : Object G Pt) c f e, e ∈ (Spec.Objects.objObs ob obs c f).pts.zip (Spec.Objects.objObs ob obs c f).ids ↔
      ∃ bo, (bo ∈ obs ∧ bo.cam = c ∧ bo.frame = f ∧ bo.board ∈ OMap.keys ob.boards) ∧
        e ∈ bo.pts.zip (bo.ids.map (Spec.Objects.objNumber ob bo.board)) := by
    intro ob c f e
    unfold Spec.Objects.objObs
    rw [mem_zip_flatMap _ _ _ (fun bo hbo => by
      rw [List.length_map]; exact hobs.aligned bo ((hsel ob c f bo).1 hbo).1)]
    simp only [hsel]
  constructor
  · rintro ⟨o, ho, rfl, rfl, ob, hob, i, hi, h2⟩
    obtain ⟨ob', h3, h4, _⟩ := mem_oo s obs bpts h ho
    rw [hob] at h3
    simp only [Option.some.injEq] at h3
    subst h3
    rw [h4, hzip] at hi
    obtain ⟨bo, ⟨q1, q2, q3, q4⟩, q5⟩ := hi
    rw [List.zip_map_right] at q5
    obtain ⟨⟨p', k'⟩, q6, q7⟩ := List.mem_map.1 q5
    simp only [Prod.map_apply, id_eq, Prod.mk.injEq] at q7
    obtain ⟨rfl, rfl⟩ := q7
    have hn := (h.consistent.objs.good _ ob hob).numbering
    have hin : (bo.board, k') ∈ ob.o2b := (hn.mem _ _).2 ⟨q4, hids bo q1 k' (List.of_mem_zip q6).2⟩
    unfold Spec.Objects.objNumber at h2
    rw [if_pos hin, List.getElem?_eq_getElem (List.idxOf_lt_length_iff.2 hin), List.getElem_idxOf,
      Option.some.injEq, Prod.mk.injEq] at h2
    exact ⟨bo, q1, q2, q3, h2.1, by rw [← h2.2]; exact q6⟩
  · rintro ⟨bo, hbo, rfl, rfl, rfl, hp⟩
    have hne : bo.pts ≠ [] := List.ne_nil_of_mem (List.of_mem_zip hp).1
    obtain ⟨i, ob, hob, hmem⟩ := h.joins.boards bo hbo hne
    obtain ⟨o, ho, q1, q2, q3⟩ := (h.consistent.sees i bo.cam bo.frame).2 ⟨ob, hob, bo, hbo, rfl, rfl, hmem, hne⟩
    have hn := (h.consistent.objs.good _ ob hob).numbering
    have hin : (bo.board, k) ∈ ob.o2b := (hn.mem _ _).2 ⟨hmem, hids bo hbo k (List.of_mem_zip hp).2⟩
    obtain ⟨ob', h3, h4, _⟩ := mem_oo s obs bpts h ho
    rw [q1, hob] at h3
    simp only [Option.some.injEq] at h3
    subst h3
    refine ⟨o, ho, q2, q3, ob, by rw [q1]; exact hob, Spec.Objects.objNumber ob bo.board k, ?_, ?_⟩
    · rw [h4, hzip]
      refine ⟨bo, ⟨hbo, q2.symm, q3.symm, hmem⟩, ?_⟩
      rw [List.zip_map_right]
      exact List.mem_map.2 ⟨(p, k), hp, rfl⟩
    · unfold Spec.Objects.objNumber
      rw [if_pos hin, List.getElem?_eq_getElem (List.idxOf_lt_length_iff.2 hin), List.getElem_idxOf]

end

/-! ### Reports -/

section
variable {K Img : Type} [Group G] [MulAction G Pt] (nCam nBoard : Nat)
  (l : List (Insertion (ℝ × ℝ) Path))
  (hl : ∀ a ∈ l, a.obs.cam < nCam ∧ a.obs.board < nBoard) (s : Store (ℝ × ℝ) Path)
  (hs : Store.run nCam nBoard l = .ok s) (obs : List (BoardObs (ℝ × ℝ)))
  (hobs : Spec.Objects.SameViews s.obs obs) (bpts : List (List Pt)) (hb : bpts.length = nBoard)
  (n : Numerics V G) (fix : Int) (r : State G Pt (ℝ × ℝ) × OMap (Nat × Nat) (OMap Nat V))
  (hr : Finish.run n fix bpts s obs = .ok r)
  (hids : ∀ bo ∈ obs, ∀ k ∈ bo.ids, k < Spec.Objects.cornerCount bpts bo.board)
  (en : Finish.Env V G Pt K Path Img) (hm : ∀ c < nCam, en.model c = 0 ∨ en.model c = 1)
  (pix : Nat → Pt → ℝ × ℝ)
  (hbr : ∀ c g ps, ps ≠ [] → en.projBrown c g ps = .ok (ps.map fun p => pix c (g • p)))
  (hka : ∀ c g ps, ps ≠ [] → en.projKannala c g ps = .ok (ps.map fun p => pix c (g • p)))

/-- The group of a camera. -/
noncomputable def groupOf (gs : OMap Nat (CamGroup G)) (c : Nat) : Nat := by
  classical
  exact if h : ∃ i g, OMap.get? gs i = some g ∧ c ∈ OMap.keys g.cameras then h.choose else 0

omit [MulAction G Pt] in
theorem groupOf_eq {gs : OMap Nat (CamGroup G)} (hC : Collection gs) {c i : Nat} {g : CamGroup G}
    (hg : OMap.get? gs i = some g) (hc : c ∈ OMap.keys g.cameras) : groupOf gs c = i := by
  unfold groupOf
  have h : ∃ i g, OMap.get? gs i = some g ∧ c ∈ OMap.keys g.cameras := ⟨i, g, hg, hc⟩
  rw [dif_pos h]
  obtain ⟨g', hg', hc'⟩ := h.choose_spec
  exact hC.disjoint _ _ _ _ hg' hg c hc' hc

/-- The quantities found in the tables. -/
noncomputable def readingOf [Inhabited Pt] (r : State G Pt (ℝ × ℝ) × OMap (Nat × Nat) (OMap Nat V)) (ofVec : V → G)
    (pix : Nat → Pt → ℝ × ℝ) : Reading G Pt where
  group := groupOf r.1.t.groups
  camPose c := ((OMap.get? r.1.t.groups (groupOf r.1.t.groups c)).bind fun g => OMap.get? g.poses c).getD 1
  objPose i f o := (((OMap.get? r.2 (i, f)).bind fun m => OMap.get? m o).map ofVec).getD 1
  pt o k := ((OMap.get? r.1.objs o).bind fun ob => ob.pts[k]?).getD default
  pix := pix

include hl hs hobs hb hr hids hm hbr hka in
/-- C76: after a run that ends, everything the reports read is there. -/
theorem C76_holds [Inhabited Pt] : Holds (Finish.scene en r) (OMap.keys s.frames) (readingOf r en.ofVec pix) := by
  obtain ⟨h, hP⟩ := ends nCam nBoard l hl s hs obs hobs bpts hb n fix r hr
  have hcam : ∀ o ∈ r.1.oo, ∃ i g, OMap.get? r.1.t.groups i = some g ∧ o.cam ∈ OMap.keys g.cameras := by
    intro o ho
    obtain ⟨bo, hbo, h1, h2, h3⟩ := (views h.consistent h.joins.boards o.cam o.frame).1 ⟨o, ho, rfl, rfl⟩
    rw [← h1]
    exact h.cams bo hbo h3
  refine ⟨h.consistent.groups, h.consistent.groupObs, h.consistent.lists, h.frameGroups, ?_, ?_, ?_, ?_, ?_, ?_, ?_, ?_,
    hbr, hka⟩
  · intro o ho
    obtain ⟨ob, _, hsee⟩ := (h.consistent.sees o.obj o.cam o.frame).1 ⟨o, ho, rfl, rfl, rfl⟩
    exact sees_frame nCam nBoard l hl s hs obs hobs ob o.cam o.frame hsee
  · intro o ho
    obtain ⟨i, g, hg, hc⟩ := hcam o ho
    refine ⟨g, ?_, hc⟩
    show OMap.get? r.1.t.groups (groupOf r.1.t.groups o.cam) = some g
    rw [groupOf_eq h.consistent.groups hg hc]
    exact hg
  · intro i g c hg hc
    have hk : c ∈ OMap.keys g.poses := by rw [h.consistent.groups.poses i g hg]; exact hc
    obtain ⟨x, hx⟩ := OMap.mem_keys.1 hk
    show OMap.get? g.poses c = some (((OMap.get? r.1.t.groups (groupOf r.1.t.groups c)).bind
      fun g => OMap.get? g.poses c).getD 1)
    rw [groupOf_eq h.consistent.groups hg hc, show OMap.get? r.1.t.groups i = some g from hg, Option.bind_some, hx]
    rfl
  · intro o ho
    obtain ⟨i, g, hg, hc⟩ := hcam o ho
    obtain ⟨m, v, h1, h2⟩ := hP o ho i g hg hc
    refine ⟨m, v, ?_, h2, ?_⟩
    · show OMap.get? r.2 (groupOf r.1.t.groups o.cam, o.frame) = some m
      rw [groupOf_eq h.consistent.groups hg hc]
      exact h1
    · show en.ofVec v = (((OMap.get? r.2 (groupOf r.1.t.groups o.cam, o.frame)).bind fun m =>
        OMap.get? m o.obj).map en.ofVec).getD 1
      rw [groupOf_eq h.consistent.groups hg hc, h1, Option.bind_some, h2]
      rfl
  · intro o ho
    obtain ⟨ob, h1, _, _, h4⟩ := ids_ok s obs hobs bpts h hids ho
    refine ⟨ob, h1, fun k hk => ?_⟩
    show ob.pts[k]? = some (((OMap.get? r.1.objs o.obj).bind fun ob => ob.pts[k]?).getD default)
    rw [h1, Option.bind_some, List.getElem?_eq_getElem (h4 k hk)]
    rfl
  · intro o ho
    obtain ⟨_, _, _, h3, _⟩ := ids_ok s obs hobs bpts h hids ho
    exact h3
  · intro o ho
    obtain ⟨_, _, h2, _⟩ := ids_ok s obs hobs bpts h hids ho
    exact h2
  · intro o ho
    obtain ⟨bo, hbo, h1, _⟩ := (views h.consistent h.joins.boards o.cam o.frame).1 ⟨o, ho, rfl, rfl⟩
    have hc := (stored nCam nBoard l hl s hs obs hobs bo hbo).2
    unfold observingCams at hc
    have := List.mem_range.1 (List.mem_filter.1 hc).1
    rw [h1] at this
    exact hm o.cam this

include hl hs hobs hb hr in
/-- The object observations, each listed once. -/
theorem once_list : ∃ os : List (ObjObs (ℝ × ℝ)), (os.map fun o => (o.obj, o.cam, o.frame)).Nodup ∧
    (∀ o, o ∈ os ↔ o ∈ r.1.oo) ∧ r.1.oo = (List.replicate r.1.objs.length os).flatten := by
  obtain ⟨h, _⟩ := ends nCam nBoard l hl s hs obs hobs bpts hb n fix r hr
  have h1 := Props.Objects.C16_observations nCam nBoard l hl s hs obs hobs bpts r.1.objs h.consistent.objs
  have h2 := (Props.Objects.C16_iff nCam nBoard l hl s hs obs hobs bpts r.1.objs h.consistent.objs _ h1).1
  refine ⟨_, h2, fun o => ?_, h.joins.shape⟩
  rw [h.joins.shape]
  constructor
  · intro ho
    refine List.mem_flatten.2 ⟨_, List.mem_replicate.2 ⟨?_, rfl⟩, ho⟩
    intro h0
    rw [List.length_eq_zero_iff.1 h0] at ho
    cases ho
  · intro ho
    obtain ⟨x, hx, hox⟩ := List.mem_flatten.1 ho
    obtain ⟨_, rfl⟩ := List.mem_replicate.1 hx
    exact hox

/-- What the reports must say: `rd` are the quantities found in the tables, `os` the object observations, each once. -/
structure Correct [Zero K] [One K] (en : Finish.Env V G Pt K Path Img) (bpts : List (List Pt))
    (frames : OMap Nat (FrameRec Path)) (r : State G Pt (ℝ × ℝ) × OMap (Nat × Nat) (OMap Nat V)) (rd : Reading G Pt)
    (rep : Finish.Reports V G Pt K Img) : Prop where
  /-- the average reprojection error: mean over the observations of an object by a camera in a frame, each counted once -/
  average : ∃ os : List (ObjObs (ℝ × ℝ)), (os.map fun o => (o.obj, o.cam, o.frame)).Nodup ∧ (∀ o, o ∈ os ↔ o ∈ r.1.oo) ∧
    rep.average = if os = [] then none else some (mean (os.map fun o => mean (errors rd o)))
  /-- the file of reprojection errors: for each group, in each of its frames, the distances of each observation -/
  errors : rep.errors.1 = r.1.t.groups.length ∧ rep.errors.2.length = r.1.t.groups.length ∧
    ∀ (k : Nat) (i : Nat) (g : CamGroup G), r.1.t.groups[k]? = some (i, g) → ∃ n, rep.errors.2[k]? = some n ∧ n.group = i ∧
      n.frames = (OMap.keys g.frames).map fun f =>
        ⟨f, frameErrors (Finish.scene en r) rd g f, (frameErrors (Finish.scene en r) rd g f).map (·.1)⟩
  /-- the log: one line per observation, with its mean distance -/
  log : rep.log = r.1.t.groups.map fun e => (OMap.keys e.2.frames).flatMap fun f =>
    (r.1.oo.filter fun o => o.frame == f && decide (o.cam ∈ OMap.keys e.2.cameras)).map (ReproErr.lineOf rd)
  /-- the images: for each camera, those drawn from the observations -/
  detections : rep.detections = if en.saveDetect = 1 then (List.range en.cams.length).map fun c =>
    Spec.Images.files en.imread en.emptyPath en.save "Detection".toList frames c
      (Spec.Images.detections en.colour r.1.oo c) else []
  reprojections : rep.reprojections = if en.saveRepro = 1 then (List.range en.cams.length).map fun c =>
    Spec.Images.files en.imread en.emptyPath en.save "Reprojection".toList frames c
      (Spec.Images.reprojections rd r.1.oo c) else []
  /-- the parameter file: the cameras of the first group, with their parameters and poses -/
  cameras : ∀ g, OMap.get? r.1.t.groups 0 = some g → ∃ node : Nat → Output.CamNode K G,
    rep.cameras = .nbCamera en.cams.length :: (OMap.keys g.cameras).map (fun c => .camera c (node c)) ∧
      ∀ c ∈ OMap.keys g.cameras, Output.NodeOf en.cams 0 g c (node c)
  /-- the file of objects: each corner of each board of each object, placed by the pose of its board -/
  objects : ∃ cols : Nat → List (Output.Column Pt),
    rep.objects = (OMap.keys r.1.objs).map (fun i => (i, (cols i).map some)) ∧
      ∀ i o, OMap.get? r.1.objs i = some o → OutputObjects.ColumnsOf bpts o (cols i)
  /-- the file of object poses: for each object the poses of its observations -/
  poses : rep.poses = (OMap.keys r.1.objs).map fun i =>
    (i, (Spec.Store.positions (fun o : ObjObs (ℝ × ℝ) => o.obj == i) r.1.oo).map en.camPose)
  /-- the list of the frames of a group, which also has those of the groups before it -/
  frameLists : ∀ (k : Nat) n, rep.errors.2[k]? = some n →
    n.frameList = (r.1.t.groups.take (k + 1)).flatMap fun e => OMap.keys e.2.frames

include hl hs hobs hb hr hids hm hbr hka in
/-- C76: after a run that ends, all reports are written without error, and each says what it must. -/
theorem C76_reports [Inhabited Pt] [Zero K] [One K]
    (hcams : ∀ c ∈ observingCams nCam l, ∃ cam sz, en.cams[c]? = some cam ∧ cam.size = some sz) :
    ∃ rep, Finish.report en bpts s.frames r = .ok rep ∧
      Correct en bpts s.frames r (readingOf r en.ofVec pix) rep := by
  have h := C76_holds nCam nBoard l hl s hs obs hobs bpts hb n fix r hr hids en hm pix hbr hka
  obtain ⟨hE, _⟩ := ends nCam nBoard l hl s hs obs hobs bpts hb n fix r hr
  obtain ⟨os, o1, o2, o3⟩ := once_list nCam nBoard l hl s hs obs hobs bpts hb n fix r hr
  generalize hrd : readingOf r en.ofVec pix = rd at h
  obtain ⟨gp, g1, g2⟩ := Images.C64_poses h en.zero en.gp
  have hlog : Finish.reproErrorAllCamGroup (Finish.scene en r) = .ok (r.1.t.groups.map fun e =>
      (OMap.keys e.2.frames).flatMap fun f => (r.1.oo.filter fun o => o.frame == f &&
        decide (o.cam ∈ OMap.keys e.2.cameras)).map (ReproErr.lineOf rd)) := by
    unfold Finish.reproErrorAllCamGroup
    refine (Lemmas.Collect.foldlM_append_ok (v := fun e : Nat × CamGroup G => (OMap.keys e.2.frames).flatMap fun f =>
      (r.1.oo.filter fun o => o.frame == f && decide (o.cam ∈ OMap.keys e.2.cameras)).map (ReproErr.lineOf rd))
      ?_ []).trans ?_
    · intro acc e he
      unfold Finish.logGroup
      rw [ReproErr.C66_group h ((OMap.get?_eq_some hE.consistent.groups.sorted).2 (show (e.1, e.2) ∈ _ from he)),
        Outcome.bind_ok]
      rfl
    · rw [List.nil_append]; rfl
  have hdet : Finish.detectAll en (Finish.scene en r) s.frames = .ok (if en.saveDetect = 1 then
      (List.range en.cams.length).map fun c => Spec.Images.files en.imread en.emptyPath en.save "Detection".toList s.frames c
      (Spec.Images.detections en.colour r.1.oo c) else []) := by
    unfold Finish.detectAll
    split
    · rw [Lemmas.Collect.foldlM_append_ok (v := fun c => Spec.Images.files en.imread en.emptyPath en.save
        "Detection".toList s.frames c (Spec.Images.detections en.colour r.1.oo c))]
      · rw [List.nil_append]
      · intro acc c _
        unfold Finish.detectCam
        rw [Images.C65_images h, Outcome.bind_ok]
        rfl
    · rfl
  have hrep : Finish.reproAll en (Finish.scene en r) gp s.frames = .ok (if en.saveRepro = 1 then
      (List.range en.cams.length).map fun c => Spec.Images.files en.imread en.emptyPath en.save "Reprojection".toList
      s.frames c (Spec.Images.reprojections rd r.1.oo c) else []) := by
    unfold Finish.reproAll
    split
    · rw [Lemmas.Collect.foldlM_append_ok (v := fun c => Spec.Images.files en.imread en.emptyPath en.save
        "Reprojection".toList s.frames c (Spec.Images.reprojections rd r.1.oo c))]
      · rw [List.nil_append]
      · intro acc c _
        unfold Finish.reproCam
        rw [Images.C64_images h g2, Outcome.bind_ok]
        rfl
    · rfl
  have hknown : Output.CamsKnown en.cams r.1.t.groups := fun i g hg c hc => hcams c (hE.known i g hg c hc)
  have hcam : ∃ file, Output.saveCamerasParams en.cams r.1.t.groups = .ok file ∧
      ∀ g, OMap.get? r.1.t.groups 0 = some g → ∃ node : Nat → Output.CamNode K G,
        file = .nbCamera en.cams.length :: (OMap.keys g.cameras).map (fun c => .camera c (node c)) ∧
        ∀ c ∈ OMap.keys g.cameras, Output.NodeOf en.cams 0 g c (node c) := by
    have hC := hE.consistent.groups
    obtain ⟨k, hk⟩ := hE.numbered
    generalize r.1.t.groups = gs at hknown hC hk
    match gs, hC, hknown, hk with
    | [], _, _, _ => exact ⟨_, rfl, fun g hg => by cases hg⟩
    | (i, g) :: rest, hC, hknown, hk =>
      have hi : i = 0 := by
        have : (OMap.keys ((i, g) :: rest : OMap Nat (CamGroup G)))[0]? = some i := rfl
        rw [hk] at this
        obtain ⟨_, h0⟩ := List.getElem?_eq_some_iff.1 this
        simpa using h0.symm
      subst hi
      obtain ⟨node, n1, n2⟩ := Output.C39_first_group en.cams 0 g rest hC hknown
      refine ⟨_, n1, fun g' hg' => ⟨node, ?_⟩⟩
      have : OMap.get? ((0, g) :: rest : OMap Nat (CamGroup G)) 0 = some g :=
        (OMap.get?_eq_some hC.sorted).2 (by simp)
      rw [this] at hg'
      simp only [Option.some.injEq] at hg'
      subst hg'
      exact ⟨rfl, n2⟩
  obtain ⟨file, c1, c2⟩ := hcam
  obtain ⟨cols, q1, q2⟩ := OutputObjects.C56_file bpts r.1.objs hE.consistent.objs
  obtain ⟨nodes, e1, e2, e3⟩ := Report.C40_file h
  have hsc : Finish.report en bpts s.frames r = .ok
      { log := r.1.t.groups.map fun e => (OMap.keys e.2.frames).flatMap fun f => (r.1.oo.filter fun o => o.frame == f &&
          decide (o.cam ∈ OMap.keys e.2.cameras)).map (ReproErr.lineOf rd)
        detections := if en.saveDetect = 1 then (List.range en.cams.length).map fun c => Spec.Images.files en.imread
          en.emptyPath en.save "Detection".toList s.frames c (Spec.Images.detections en.colour r.1.oo c) else []
        reprojections := if en.saveRepro = 1 then (List.range en.cams.length).map fun c => Spec.Images.files en.imread
          en.emptyPath en.save "Reprojection".toList s.frames c (Spec.Images.reprojections rd r.1.oo c) else []
        cameras := file
        objects := (OMap.keys r.1.objs).map fun i => (i, (cols i).map some)
        poses := Output.save3DObjPose r.1.objs r.1.oo en.camPose
        errors := (r.1.t.groups.length, nodes)
        average := if r.1.oo = [] then none else some (mean (r.1.oo.map fun o => mean (errors rd o))) } := by
    unfold Finish.report
    dsimp only
    rw [g1, Outcome.bind_ok, hlog, Outcome.bind_ok, hdet, Outcome.bind_ok, hrep, Outcome.bind_ok, c1, Outcome.bind_ok,
      q1, Outcome.bind_ok, e1, Outcome.bind_ok, Report.C41_value h, Outcome.bind_ok]
    rfl
  refine ⟨_, hsc, ⟨⟨os, o1, o2, ?_⟩, ⟨rfl, e2, fun k i g hg => ?_⟩, rfl, rfl, rfl, c2, ⟨cols, rfl, q2⟩,
    OutputObjects.C57_poses bpts r.1.objs hE.consistent.objs r.1.oo en.camPose, fun k n hk => ?_⟩⟩
  · dsimp only
    by_cases h0 : os = []
    · have : r.1.oo = [] := by
        rw [o3, h0]
        simp
      rw [if_pos this, if_pos h0]
    · have h1 : r.1.oo ≠ [] := by
        intro h2
        obtain ⟨x, hx⟩ := List.exists_mem_of_ne_nil _ h0
        rw [o2, h2] at hx
        cases hx
      rw [if_neg h1, if_neg h0]
      congr 1
      have hN : r.1.objs.length ≠ 0 := by
        intro h2
        rw [o3, h2] at h1
        simp at h1
      generalize r.1.objs.length = N at o3 hN
      rw [o3]
      unfold mean
      rw [List.map_flatten, List.map_replicate, List.sum_flatten, List.map_replicate, List.sum_replicate,
        List.length_flatten, List.map_replicate, List.sum_replicate]
      have hN' : (N : ℝ) ≠ 0 := by exact_mod_cast hN
      have hL : ((os.map fun o => (errors rd o).sum / (errors rd o).length).length : ℝ) ≠ 0 := by
        have : os.length ≠ 0 := by simpa using h0
        simp only [List.length_map]
        exact_mod_cast this
      simp only [nsmul_eq_mul, smul_eq_mul, Nat.cast_mul]
      field_simp
  · obtain ⟨n', n1, n2, n3, _⟩ := e3 k i g hg
    exact ⟨n', n1, n2, n3⟩
  · have hk : nodes[k]? = some n := hk
    have hlt : k < r.1.t.groups.length := lt_of_lt_of_eq (List.getElem?_eq_some_iff.1 hk).1 e2
    obtain ⟨n', n1, _, _, n4⟩ := e3 k _ _ (List.getElem?_eq_getElem hlt)
    rw [hk] at n1
    cases n1
    exact n4

end

/-! ### Cameras linked by common views -/

/-- There is one group, and its cameras are `C`. -/
def OneGroup (gs : OMap Nat (CamGroup G)) (C : List Nat) : Prop :=
  ∃ i g, gs = [(i, g)] ∧ ∀ c, c ∈ OMap.keys g.cameras ↔ c ∈ C

theorem oneGroup_congr {gs gs' : OMap Nat (CamGroup G)} {C : List Nat} (h : OneGroup gs C)
    (he : groupCams gs' = groupCams gs) : OneGroup gs' C := by
  obtain ⟨i, g, rfl, hc⟩ := h
  unfold groupCams at he
  rw [List.map_cons, List.map_nil] at he
  obtain ⟨⟨j, g'⟩, rfl, he'⟩ := List.map_eq_singleton_iff.1 he
  simp only [Prod.mk.injEq] at he'
  exact ⟨j, g', rfl, by rw [he'.2]; exact hc⟩

theorem oneGroup_of {gs : OMap Nat (CamGroup G)} (hs : OMap.Sorted gs) {C : List Nat} {i : Nat} {g : CamGroup G}
    (hg : OMap.get? gs i = some g) (hu : ∀ j ∈ OMap.keys gs, j = i) (hc : ∀ c, c ∈ OMap.keys g.cameras ↔ c ∈ C) :
    OneGroup gs C := by
  have hm := (OMap.get?_eq_some hs).1 hg
  have hn := OMap.keys_nodup hs
  refine ⟨i, g, ?_, hc⟩
  match gs, hm, hn, hu with
  | [e], hm, _, _ => rw [List.mem_singleton.1 hm]
  | e :: e' :: gs, _, hn, hu =>
    have h1 := hu e.1 (by simp [OMap.keys])
    have h2 := hu e'.1 (by simp [OMap.keys])
    simp [OMap.keys, h1, h2] at hn

section
variable [Group G] [SMul G Pt] [DecidableEq P] (nCam nBoard : Nat) (l : List (Insertion P Path))
  (hl : ∀ a ∈ l, a.obs.cam < nCam ∧ a.obs.board < nBoard) (s : Store P Path)
  (hs : Store.run nCam nBoard l = .ok s) (obs : List (BoardObs P))
  (hobs : Spec.Objects.SameViews s.obs obs) (bpts : List (List Pt)) (hb : bpts.length = nBoard)
  (n : Numerics V G) (fix : Int)

omit [DecidableEq P] in
theorem refineAll_one (k : Nat) {frames : List Nat} (st : State G Pt P) (h : Consistent bpts frames obs st) (C : List Nat)
    (h1 : OneGroup st.t.groups C) :
    ∃ st', refineAll n k bpts st = .ok st' ∧ Consistent bpts frames obs st' ∧ OneGroup st'.t.groups C := by
  obtain ⟨st', r1, r2, r3, _⟩ := refineAll_ok n k st h
  exact ⟨st', r1, r2, oneGroup_congr h1 r3⟩

omit [DecidableEq P] in
theorem finalStage_one {frames : List Nat} (st : State G Pt P) (h : Consistent bpts frames obs st) (C : List Nat)
    (h1 : OneGroup st.t.groups C) : ∃ r, Finish.finalStage n fix bpts st = .ok r ∧ OneGroup r.1.t.groups C := by
  obtain ⟨st1, a1, a2, a3⟩ := refineAll_one obs bpts n 5 st h C h1
  unfold Finish.finalStage Finish.lastRefine
  rw [a1, Outcome.bind_ok]
  split
  · obtain ⟨st2, b1, _, b3⟩ := refineAll_one obs bpts n 6 st1 a2 C a3
    rw [b1, Outcome.bind_ok]
    exact ⟨_, rfl, b3⟩
  · exact ⟨_, rfl, a3⟩

omit [SMul G Pt] [DecidableEq P] in
theorem nonOverlapping_one (st : State G Pt P) (C : List Nat) (h1 : OneGroup st.t.groups C) :
    ∃ pp, nonOverlapping n st = .ok pp ∧ pp.pose = [] := by
  obtain ⟨i, g, h1, _⟩ := h1
  refine ⟨{ pose := [], cnt := [] }, ?_, rfl⟩
  unfold nonOverlapping findPoses
  rw [h1, Outcome.foldlM_cons]
  unfold initPairRow
  rw [h1, Outcome.foldlM_cons, if_neg (by simp), Outcome.bind_ok, Outcome.foldlM_nil, Outcome.bind_ok]
  rfl

include hl hs hobs hb in
/-- C78: if any two cameras with detections are linked by common views (of linked boards) and some corner is left by the
removal of outliers, the run ends, whatever the numerical results, with one group, of all cameras with detections. -/
theorem C78_one_group (hlink : ∀ a ∈ observingCams nCam l, ∀ b ∈ observingCams nCam l,
      Relation.ReflTransGen (CamsLinked l obs) a b) (hsome : ∃ bo ∈ obs, bo.pts ≠ []) :
    ∃ r, Finish.run n fix bpts s obs = .ok r ∧ ∃ g, OMap.keys r.1.t.groups = [0] ∧
      OMap.get? r.1.t.groups 0 = some g ∧ ∀ c, c ∈ OMap.keys g.cameras ↔ c ∈ observingCams nCam l := by
  obtain ⟨st, s1, s2, s3⟩ := Props.Pipeline.C52_overlapping nCam nBoard l hl s hs obs hobs bpts hb n
  obtain ⟨_, j1, j2, j3⟩ := overlapping_joins nCam nBoard l hl s hs obs hobs bpts hb n st s1
  obtain ⟨bo, hbo, hp⟩ := hsome
  obtain ⟨i0, g0, hg0, hbc0⟩ := j2 bo hbo hp
  have hall : ∀ c, c ∈ OMap.keys g0.cameras ↔ c ∈ observingCams nCam l := by
    intro c
    refine ⟨j3 i0 g0 hg0 c, fun hc => ?_⟩
    refine ((s3.linked _ (List.mem_map.2 ⟨(i0, OMap.keys g0.cameras), List.mem_map.2
      ⟨(i0, g0), (OMap.get?_eq_some s2.groups.sorted).1 hg0, rfl⟩, rfl⟩) bo.cam hbc0 c).2 ?_)
    exact hlink _ (j3 i0 g0 hg0 _ hbc0) _ hc
  have one0 : OneGroup st.t.groups (observingCams nCam l) := by
    refine oneGroup_of s2.groups.sorted hg0 (fun j hj => ?_) hall
    obtain ⟨gj, hgj⟩ := OMap.mem_keys.1 hj
    have hm := s2.groups.ref_mem j gj hgj
    exact s2.groups.disjoint j i0 gj g0 hgj hg0 gj.refCam hm ((hall _).2 (j3 j gj hgj _ hm))
  obtain ⟨pp, p1, p2⟩ := nonOverlapping_one n st _ one0
  obtain ⟨st1, m1, m2, m3⟩ : ∃ st1, afterMerge n bpts s obs pp st = .ok st1 ∧
      Consistent bpts (OMap.keys s.frames) obs st1 ∧ OneGroup st1.t.groups (observingCams nCam l) := by
    rcases Props.Pipeline.C52_merge nCam nBoard l hl s hs obs hobs bpts n st s2 pp p1 with ⟨st1, cs, a1, a2, a3, a4, a5⟩ | ⟨_, a, b, hab, _⟩
    swap
    · rw [p2] at hab; cases hab
    obtain ⟨_, b2, b3, b4, b5, b6⟩ := afterMerge_joins nCam nBoard l hl s hs obs hobs bpts n st st1 s2 j1 j2 _ j3 pp p1 a1
    refine ⟨st1, a1, a2, ?_⟩
    obtain ⟨i1, g1, hg1, hbc1⟩ := b3 bo hbo hp
    have hcls : ∀ i g, OMap.get? st1.t.groups i = some g → ∀ c, c ∈ OMap.keys g.cameras ↔ c ∈ observingCams nCam l := by
      intro i g hg c
      refine ⟨b6 i g hg c, fun hc => ?_⟩
      have hi : i ∈ OMap.keys st1.t.groups := OMap.mem_keys.2 ⟨g, hg⟩
      rw [a4, List.mem_range] at hi
      obtain ⟨g', hg', hq⟩ := a5 i cs[i] (List.getElem?_eq_getElem hi)
      rw [hg] at hg'
      simp only [Option.some.injEq] at hg'
      subst hg'
      obtain ⟨j, hj, gj, hgj, hqj⟩ := (hq g.refCam).1 (a2.groups.ref_mem i g hg)
      have : j = i0 := s2.groups.disjoint j i0 gj g0 hgj hg0 g.refCam hqj ((hall _).2 (j3 j gj hgj _ hqj))
      subst this
      exact (hq c).2 ⟨j, hj, g0, hg0, (hall c).2 hc⟩
    refine oneGroup_of a2.groups.sorted hg1 (fun j hj => ?_) (hcls i1 g1 hg1)
    obtain ⟨gj, hgj⟩ := OMap.mem_keys.1 hj
    have hm := a2.groups.ref_mem j gj hgj
    exact a2.groups.disjoint j i1 gj g1 hgj hg1 gj.refCam hm ((hcls i1 g1 hg1 _).2 ((hcls j gj hgj _).1 hm))
  obtain ⟨_, b2, b3, b4, b5, b6⟩ := afterMerge_joins nCam nBoard l hl s hs obs hobs bpts n st st1 s2 j1 j2 _ j3 pp p1 m1
  obtain ⟨st2, q1, q2, q3⟩ : ∃ st2, mergeGroups2 n s pp st1 = .ok st2 ∧
      Consistent bpts (OMap.keys s.frames) obs st2 ∧ OneGroup st2.t.groups (observingCams nCam l) := by
    have hno : ∀ a b, (a, b) ∉ OMap.keys pp.pose := by intro a b h; rw [p2] at h; cases h
    obtain ⟨k, hk⟩ := b4
    obtain ⟨m, hm⟩ := (Props.Pipeline.C53_stale_outcome st1.t.groups m2.groups pp (fun a b h => absurd h (hno a b))
      (fun a b h => absurd h (hno a b)) (n.choose 5) k hk).2 (by rintro ⟨a, b, h, _⟩; exact hno a b h)
    obtain ⟨c1, c2, c3, c4, c5, c6⟩ := Lemmas.Finish.merged_collection m2.groups pp (fun a b h => absurd h (hno a b))
      (n.choose 5) k hk (by
        intro i g hg
        obtain ⟨o, ho, hc⟩ := b5 i g hg
        exact listed nCam nBoard l hl s hs obs hobs bpts m2 hg ho hc) m hm
    obtain ⟨i1, g1, e1, hcam1⟩ := m3
    have hcls : ∀ i g, OMap.get? m i = some g → ∀ c, c ∈ OMap.keys g.cameras ↔ c ∈ observingCams nCam l := by
      intro i g hg c
      constructor
      · intro hc
        obtain ⟨j, gj, hgj, hq⟩ := c6 i g c hg hc
        exact b6 j gj hgj c hq
      · intro hc
        obtain ⟨j, gj, hgj, hq⟩ := c4 i g hg
        rw [e1] at hgj
        have := (OMap.get?_eq_some (e1 ▸ m2.groups.sorted)).1 hgj
        simp only [List.mem_singleton, Prod.mk.injEq] at this
        exact hq c (by rw [this.2]; exact (hcam1 c).2 hc)
    have hone : OneGroup m (observingCams nCam l) := by
      obtain ⟨j, gj, hgj, hbj⟩ := b3 bo hbo hp
      obtain ⟨i2, g2, hg2, _⟩ := c3 j gj bo.cam hgj hbj
      refine oneGroup_of c1.sorted hg2 (fun j hj => ?_) (hcls i2 g2 hg2)
      obtain ⟨gj, hgj⟩ := OMap.mem_keys.1 hj
      have hm := c1.ref_mem j gj hgj
      exact c1.disjoint j i2 gj g2 hgj hg2 gj.refCam hm ((hcls i2 g2 hg2 _).2 ((hcls j gj hgj _).1 hm))
    obtain ⟨t, k1, k2, k3, k4, k5, _⟩ := regroup_ok (Pt := Pt) st1.oo (OMap.keys s.frames)
      ((frames_sorted nCam nBoard l hl s hs).imp Nat.ne_of_lt) { st1.t with groups := m } c1 (by
        intro i g hg
        rw [(c2 i g hg).2]
        exact List.Pairwise.nil)
    refine ⟨{ st1 with t := t }, ?_, ⟨m2.objs, m2.sees, k2, k3, k4⟩, oneGroup_congr hone k5⟩
    unfold mergeGroups2
    rw [hm, Outcome.bind_ok, k1]
    rfl
  obtain ⟨r, r1, r2⟩ := finalStage_one obs bpts n fix st2 q2 _ q3
  have hrun : Finish.run n fix bpts s obs = .ok r := by
    unfold Finish.run
    rw [s1, Outcome.bind_ok, p1, Outcome.bind_ok, m1, Outcome.bind_ok, q1, Outcome.bind_ok, r1]
  refine ⟨r, hrun, ?_⟩
  obtain ⟨hE, _⟩ := ends nCam nBoard l hl s hs obs hobs bpts hb n fix r hrun
  obtain ⟨k, hk⟩ := hE.numbered
  obtain ⟨i, g, e, hc⟩ := r2
  rw [e] at hk ⊢
  have hi : i = 0 := by
    have : (OMap.keys ([(i, g)] : OMap Nat (CamGroup G)))[0]? = some i := rfl
    rw [hk] at this
    obtain ⟨_, h0⟩ := List.getElem?_eq_some_iff.1 this
    simpa using h0.symm
  subst hi
  exact ⟨g, rfl, rfl, hc⟩

end

section
variable {K Img : Type} [Group G] [MulAction G Pt] [Inhabited Pt] [Zero K] [One K] (nCam nBoard : Nat)
  (l : List (Insertion (ℝ × ℝ) Path))
  (hl : ∀ a ∈ l, a.obs.cam < nCam ∧ a.obs.board < nBoard) (s : Store (ℝ × ℝ) Path)
  (hs : Store.run nCam nBoard l = .ok s) (obs : List (BoardObs (ℝ × ℝ)))
  (hobs : Spec.Objects.SameViews s.obs obs) (bpts : List (List Pt)) (hb : bpts.length = nBoard)
  (n : Numerics V G) (fix : Int)
  (hids : ∀ bo ∈ obs, ∀ k ∈ bo.ids, k < Spec.Objects.cornerCount bpts bo.board)
  (en : Finish.Env V G Pt K Path Img) (hm : ∀ c < nCam, en.model c = 0 ∨ en.model c = 1)
  (pix : Nat → Pt → ℝ × ℝ)
  (hbr : ∀ c g ps, ps ≠ [] → en.projBrown c g ps = .ok (ps.map fun p => pix c (g • p)))
  (hka : ∀ c g ps, ps ≠ [] → en.projKannala c g ps = .ok (ps.map fun p => pix c (g • p)))

include hl hs hobs hb hids hm hbr hka in
/-- C78: then the parameter file has every camera with detections, with its parameters and its pose relative to the
camera of least number, and all other reports are correct too. -/
theorem C78_file (hcams : ∀ c ∈ observingCams nCam l, ∃ cam sz, en.cams[c]? = some cam ∧ cam.size = some sz)
    (hlink : ∀ a ∈ observingCams nCam l, ∀ b ∈ observingCams nCam l, Relation.ReflTransGen (CamsLinked l obs) a b)
    (hsome : ∃ bo ∈ obs, bo.pts ≠ []) :
    ∃ r rep g, Finish.run n fix bpts s obs = .ok r ∧ Finish.report en bpts s.frames r = .ok rep ∧
      Correct en bpts s.frames r (readingOf r en.ofVec pix) rep ∧ OMap.get? r.1.t.groups 0 = some g ∧
      g.refCam ∈ observingCams nCam l ∧ (∀ c ∈ observingCams nCam l, g.refCam ≤ c) ∧
      OMap.get? g.poses g.refCam = some 1 ∧
      ∀ c, (∀ node, Output.lookup rep.cameras c = some node → Output.NodeOf en.cams 0 g c node) ∧
        ((∃ node, Output.lookup rep.cameras c = some node) ↔ c ∈ observingCams nCam l) := by
  obtain ⟨r, r1, g, _, hg, hc⟩ := C78_one_group nCam nBoard l hl s hs obs hobs bpts hb n fix hlink hsome
  obtain ⟨rep, p1, p2⟩ := C76_reports nCam nBoard l hl s hs obs hobs bpts hb n fix r r1 hids en hm pix hbr hka hcams
  obtain ⟨node, n1, n2⟩ := p2.cameras g hg
  have hC := (C76_tables nCam nBoard l hl s hs obs hobs bpts hb n fix r r1).consistent.groups
  refine ⟨r, rep, g, r1, p1, p2, hg, (hc _).1 (hC.ref_mem 0 g hg), fun c h => hC.ref_least 0 g hg c ((hc c).2 h),
    hC.ref_pose 0 g hg, fun c => ?_⟩
  rw [n1, Output.lookup_cams]
  split
  · next h =>
    refine ⟨fun x hx => ?_, fun _ => (hc c).1 h, fun _ => ⟨_, rfl⟩⟩
    simp only [Option.some.injEq] at hx
    rw [← hx]
    exact n2 c h
  · next h => exact ⟨(fun _ hx => nomatch hx), (fun ⟨_, hx⟩ => nomatch hx), fun hx => absurd ((hc c).2 hx) h⟩

end

/-! ### Concrete cases -/

open Props.Pipeline in
/-- The two cameras of C52, which never see the same board: the run ends, with and without the last refinement, with
one group and one object, and eight object observations. -/
theorem C76_two_cameras : ∀ fix ∈ [(0 : Int), 1], (match Finish.run num fix ([[2], [2]] : List (List (Fin 3))) (storeOf 2 2 twoCams) (storeOf 2 2 twoCams).obs with
    | .ok r => (groupCams r.1.t.groups, r.1.oo.length, r.2.map fun e => (e.1, OMap.keys e.2))
    | _ => ([], 0, [])) = ([(0, [0, 1])], 8, (List.range 4).map fun f => ((0, f), [0])) := by decide +kernel

open Props.Pipeline in
/-- Its hypotheses are met, hence so are the conclusions of C76 and C77: e.g. corner 0 of board 1, seen by camera 1 in
frame 3 at "pixel" 7, is in the final tables. -/
example : ∃ r, Finish.run num 0 ([[2], [2]] : List (List (Fin 3))) (storeOf 2 2 twoCams) (storeOf 2 2 twoCams).obs = .ok r ∧
    Complete [[2], [2]] (OMap.keys (storeOf 2 2 twoCams).frames) (storeOf 2 2 twoCams).obs r.1 ∧
    Listed r.1.objs r.1.oo 1 3 1 0 7 := by
  obtain ⟨h1, h2, h3, -⟩ := two_hypotheses
  have hr : (match Finish.run num 0 ([[2], [2]] : List (List (Fin 3))) (storeOf 2 2 twoCams) (storeOf 2 2 twoCams).obs with
    | .ok _ => true | _ => false) = true := by decide +kernel
  cases h : Finish.run num 0 ([[2], [2]] : List (List (Fin 3))) (storeOf 2 2 twoCams) (storeOf 2 2 twoCams).obs with
  | ok r =>
    refine ⟨r, rfl, C76_tables 2 2 twoCams h1 _ h2 _ h3 _ rfl num 0 r h,
      (C77_corners 2 2 twoCams h1 _ h2 _ h3 _ rfl num 0 r h (by decide +kernel) 1 3 1 0 7).2 ?_⟩
    exact ⟨⟨1, 3, 1, [7], [0]⟩, by decide +kernel, rfl, rfl, rfl, by decide⟩
  | ub => rw [h] at hr; cases hr
  | throw => rw [h] at hr; cases hr
  | diverge => rw [h] at hr; cases hr

/-- Two cameras that see the same corner in one frame, at two pixels. -/
def pair : List (Insertion (ℝ × ℝ) Nat) := [⟨⟨0, 0, 0, [(3, 4)], [0]⟩, 0⟩, ⟨⟨1, 0, 0, [(5, 6)], [0]⟩, 0⟩]

/-- Poses that do nothing, projections to the origin. -/
noncomputable def pairEnv : Finish.Env Unit Unit Unit ℝ Nat Nat where
  ofVec _ := ()
  model c := c
  projBrown _ _ ps := .ok (ps.map fun _ => (0, 0))
  projKannala _ _ ps := .ok (ps.map fun _ => (0, 0))
  cams := [⟨0, fun _ => 1, some (640, 480)⟩, ⟨1, fun _ => 2, some (640, 480)⟩]
  zero := ()
  colour _ := (0, 0, 255)
  imread p := some p
  emptyPath := 0
  save := "out".toList
  saveDetect := 1
  saveRepro := 1
  gp _ := ()
  camPose _ := ()

/-- Some numerical results. -/
def pairNum : Numerics Unit Unit :=
  ⟨fun _ => (), fun _ _ => (), fun _ _ _ => (), fun _ _ _ => (), fun _ _ _ _ => (), fun _ => (), fun _ => (), fun _ => (),
    fun _ => (), fun _ => .ub, fun _ _ _ _ => 0⟩

instance : MulAction Unit Unit where
  smul _ _ := ()
  one_smul _ := rfl
  mul_smul _ _ _ := rfl

/-- The hypotheses of C78 are met by the two cameras. -/
example : ∃ r rep, Finish.run pairNum 0 [[()]] (match Store.run 2 1 pair with | .ok s => s | _ => Store.init 2 1)
    (pair.map (·.obs)) = .ok r ∧
    Finish.report pairEnv [[()]] (match Store.run 2 1 pair with | .ok s => s | _ => Store.init 2 1).frames r = .ok rep ∧
    ∃ n0 n1, Output.lookup rep.cameras 0 = some n0 ∧ Output.lookup rep.cameras 1 = some n1 := by
  have hs : Store.run 2 1 pair = .ok (match Store.run 2 1 pair with | .ok s => s | _ => Store.init 2 1) := rfl
  have hob : (match Store.run 2 1 pair with | .ok s => s | _ => Store.init 2 1).obs = pair.map (·.obs) := rfl
  have hoc : ∀ c, c ∈ observingCams 2 pair ↔ c = 0 ∨ c = 1 := by
    intro c
    have : observingCams 2 pair = [0, 1] := rfl
    rw [this]; simp
  have hlk : ∀ a b, a ≠ b → (a = 0 ∨ a = 1) → (b = 0 ∨ b = 1) → CamsLinked pair (pair.map (·.obs)) a b := by
    rintro a b hne (rfl | rfl) (rfl | rfl)
    · exact absurd rfl hne
    · exact ⟨hne, _, List.mem_cons_self, _, List.mem_cons_of_mem _ List.mem_cons_self, rfl, rfl, rfl, by simp, by simp,
        Relation.ReflTransGen.refl⟩
    · exact ⟨hne, _, List.mem_cons_of_mem _ List.mem_cons_self, _, List.mem_cons_self, rfl, rfl, rfl, by simp, by simp,
        Relation.ReflTransGen.refl⟩
    · exact absurd rfl hne
  obtain ⟨r, rep, g, h1, h2, _, _, _, _, _, h8⟩ := C78_file (K := ℝ) 2 1 pair (by
      intro a ha
      simp only [pair, List.mem_cons, List.not_mem_nil, or_false] at ha
      rcases ha with rfl | rfl <;> simp) _ hs (pair.map (·.obs)) ⟨by rw [hob], by
        intro o ho
        simp only [pair, List.map_cons, List.map_nil, List.mem_cons, List.not_mem_nil, or_false] at ho
        rcases ho with rfl | rfl <;> rfl⟩ [[()]] rfl pairNum 0 (by
        intro o ho
        simp only [pair, List.map_cons, List.map_nil, List.mem_cons, List.not_mem_nil, or_false] at ho
        rcases ho with rfl | rfl <;> simp [Spec.Objects.cornerCount]) pairEnv (by
        intro c hc
        have : c = 0 ∨ c = 1 := by omega
        rcases this with rfl | rfl <;> simp [pairEnv]) (fun _ _ => (0, 0)) (fun _ _ _ _ => rfl) (fun _ _ _ _ => rfl) (by
        intro c hc
        rcases (hoc c).1 hc with rfl | rfl
        · exact ⟨_, _, rfl, rfl⟩
        · exact ⟨_, _, rfl, rfl⟩) (by
        intro a ha b hb
        by_cases hab : a = b
        · rw [hab]
        · exact Relation.ReflTransGen.single (hlk a b hab ((hoc a).1 ha) ((hoc b).1 hb)))
      ⟨⟨0, 0, 0, [(3, 4)], [0]⟩, by simp [pair], by simp⟩
  obtain ⟨n0, hn0⟩ := (h8 0).2.2 ((hoc 0).2 (Or.inl rfl))
  obtain ⟨n1, hn1⟩ := (h8 1).2.2 ((hoc 1).2 (Or.inr rfl))
  exact ⟨r, rep, h1, h2, n0, n1, hn0, hn1⟩

end Verif.Props.Finish
