import Verif.Props.Exact
import Verif.Props.Finish

/-!
C81: with exact data, the whole run ends with true poses, and its reports show it.
-/
namespace Verif.Props.ExactReport
open Verif Verif.Structure Verif.Objects Verif.Groups Verif.GroupPose Verif.NonOverlap Verif.Pipeline
open Verif.Spec.Groups Verif.Spec.Exact Verif.Spec.Finish Verif.Spec.Report Verif.Lemmas.Pipeline Verif.Lemmas.FinishRun
open Verif.Props.Exact Verif.Props.Finish

variable {V G Pt P Path : Type}

section
variable [Group G] [SMul G Pt] (w : World G)

/-- The numerical parts after the merges are exact on exact data: the last refinements keep true poses, and find the true
poses of the objects in the group observations. -/
structure ExactEnd (n : Numerics V G) (fix : Int) (bpts : List (List Pt)) (s : Store P Path) (obs : List (BoardObs P)) :
    Prop where
  refine6 : fix = 0 → ∀ st, workflow n bpts s obs = .ok st → Keeps w n 6 bpts st
  last : ∀ r, Finish.run n fix bpts s obs = .ok r → StateTrue w r.1 →
    InGroupTrue w n (if fix = 0 then 6 else 5) r.1

/-- The corners are where the cameras see them: `pix c` is the projection by camera `c`. -/
def SeenExactly (pix : Nat → Pt → P) (bpts : List (List Pt)) (obs : List (BoardObs P)) : Prop :=
  ∀ c f b k p, Kept obs c f b k p →
    ∃ ps x, bpts[b]? = some ps ∧ ps[k]? = some x ∧ p = pix c (w.cam c • w.motion f • w.board b • x)

/-- The run is the workflow, followed by the last refinement. -/
theorem run_eq (n : Numerics V G) (fix : Int) (bpts : List (List Pt)) (s : Store P Path) (obs : List (BoardObs P))
    (st : State G Pt P) (h : workflow n bpts s obs = .ok st) : ∃ op, Finish.run n fix bpts s obs =
      Finish.lastRefine n fix bpts st (refinePoses (n.inGroup 5) op) := by
  unfold workflow at h
  obtain ⟨st1, h1, h⟩ := Outcome.bind_eq_ok.1 h
  obtain ⟨pp, h2, h⟩ := Outcome.bind_eq_ok.1 h
  obtain ⟨st3, h3, h⟩ := Outcome.bind_eq_ok.1 h
  obtain ⟨st4, h4, h⟩ := Outcome.bind_eq_ok.1 h
  refine ⟨objectPoses n.toVec n.avgV st4.t st4.oo (n.objPose 5), ?_⟩
  unfold Finish.run
  rw [h1, Outcome.bind_ok, h2, Outcome.bind_ok, h3, Outcome.bind_ok, h4, Outcome.bind_ok]
  unfold Finish.finalStage
  rw [h, Outcome.bind_ok]

omit [Group G] in
/-- The poses of the objects are those of the last refinement. -/
theorem poses_last [Group G] (n : Numerics V G) (fix : Int) (bpts : List (List Pt)) (st : State G Pt P)
    (op : OMap (Nat × Nat) (OMap Nat V)) (r : State G Pt P × OMap (Nat × Nat) (OMap Nat V))
    (h : Finish.lastRefine n fix bpts st (refinePoses (n.inGroup 5) op) = .ok r) :
    ∃ op', r.2 = refinePoses (n.inGroup (if fix = 0 then 6 else 5)) op' := by
  unfold Finish.lastRefine at h
  split at h
  · next h0 =>
    obtain ⟨st2, h2, h⟩ := Outcome.bind_eq_ok.1 h
    simp only [Outcome.pure_eq, Outcome.ok.injEq] at h
    exact ⟨_, by rw [← h, if_pos h0]⟩
  · next h0 =>
    simp only [Outcome.ok.injEq] at h
    exact ⟨_, by rw [← h, if_neg h0]⟩

theorem get_refined (f : Nat → Nat → Nat → V) (op : OMap (Nat × Nat) (OMap Nat V)) {i fr j : Nat} {m : OMap Nat V} {v : V}
    (h1 : OMap.get? (refinePoses f op) (i, fr) = some m) (h2 : OMap.get? m j = some v) : v = f i fr j := by
  unfold refinePoses at h1
  have e1 := (Props.GroupPose.get?_mapKey (fun (q : Nat × Nat) (m : OMap Nat V) =>
      m.map fun p => (p.1, f q.1 q.2 p.1)) op (i, fr)).symm.trans h1
  obtain ⟨m0, _, rfl⟩ := Option.map_eq_some_iff.1 e1
  have e2 := (Props.GroupPose.get?_mapKey (fun (q : Nat) (_ : V) => f i fr q) m0 j).symm.trans h2
  obtain ⟨_, _, rfl⟩ := Option.map_eq_some_iff.1 e2
  rfl

end

section
variable {K Img : Type} [Group G] [MulAction G Pt] (nCam nBoard : Nat) (l : List (Insertion (ℝ × ℝ) Path))
  (hl : ∀ a ∈ l, a.obs.cam < nCam ∧ a.obs.board < nBoard) (s : Store (ℝ × ℝ) Path)
  (hs : Store.run nCam nBoard l = .ok s) (obs : List (BoardObs (ℝ × ℝ)))
  (hobs : Spec.Objects.SameViews s.obs obs) (bpts : List (List Pt)) (hb : bpts.length = nBoard)
  (n : Numerics V G) (fix : Int) (w : World G)
  (hids : ∀ bo ∈ obs, ∀ k ∈ bo.ids, k < Spec.Objects.cornerCount bpts bo.board)
  (en : Finish.Env V G Pt K Path Img) (hm : ∀ c < nCam, en.model c = 0 ∨ en.model c = 1)
  (hof : en.ofVec = n.ofVec)
  (pix : Nat → Pt → ℝ × ℝ)
  (hbr : ∀ c g ps, ps ≠ [] → en.projBrown c g ps = .ok (ps.map fun p => pix c (g • p)))
  (hka : ∀ c g ps, ps ≠ [] → en.projKannala c g ps = .ok (ps.map fun p => pix c (g • p)))
  (hpix : SeenExactly w pix bpts obs)

include hl hs hobs hb hids hof hpix in
/-- After a run that ends with true poses, every observed corner is predicted where it was observed. -/
theorem predicted [Inhabited Pt] (r : State G Pt (ℝ × ℝ) × OMap (Nat × Nat) (OMap Nat V))
    (hr : Finish.run n fix bpts s obs = .ok r) (k : Nat) (op' : OMap (Nat × Nat) (OMap Nat V))
    (hop : r.2 = refinePoses (n.inGroup k) op') (hT : StateTrue w r.1) (hI : InGroupTrue w n k r.1)
    (o : ObjObs (ℝ × ℝ)) (ho : o ∈ r.1.oo) (q : ℝ × ℝ) (e : Nat) (hq : (q, e) ∈ o.pts.zip o.ids) :
    pix o.cam ((readingOf r en.ofVec pix).camPose o.cam • (readingOf r en.ofVec pix).objPose
      ((readingOf r en.ofVec pix).group o.cam) o.frame o.obj • (readingOf r en.ofVec pix).pt o.obj e) = q := by
  obtain ⟨h, hP⟩ := ends nCam nBoard l hl s hs obs hobs bpts hb n fix r hr
  obtain ⟨bo, hbo, h1, h2, h3⟩ := (views h.consistent h.joins.boards o.cam o.frame).1 ⟨o, ho, rfl, rfl⟩
  obtain ⟨i, g, hg, hc⟩ := h.cams bo hbo h3
  rw [h1] at hc
  obtain ⟨m, v, p1, p2⟩ := hP o ho i g hg hc
  have hv := get_refined (n.inGroup k) op' (hop ▸ p1) p2
  obtain ⟨ob, o1, _, _, o4⟩ := ids_ok s obs hobs bpts h hids ho
  obtain ⟨b, c, hbc⟩ : ∃ b c, ob.o2b[e]? = some (b, c) := by
    have hlt := o4 e (List.of_mem_zip hq).2
    rw [(h.consistent.objs.good _ ob o1).numbering.pts_length] at hlt
    exact ⟨_, _, List.getElem?_eq_getElem hlt⟩
  obtain ⟨T, y, ps, x, t1, t2, t3, t4, t5⟩ := C70_corners w n k bpts r.1 hT h.consistent.objs hI i g hg o.obj ob o1 o.frame
    ⟨o, ho, hc, rfl, rfl⟩ o.cam hc e b c hbc
  obtain ⟨ps', x', u1, u2, rfl⟩ := hpix o.cam o.frame b c q
    ((C77_corners nCam nBoard l hl s hs obs hobs bpts hb n fix r hr hids o.cam o.frame b c q).1
      ⟨o, ho, rfl, rfl, ob, o1, e, hq, hbc⟩)
  rw [t3] at u1
  simp only [Option.some.injEq] at u1
  subst u1
  rw [t4] at u2
  simp only [Option.some.injEq] at u2
  subst u2
  rw [← t5]
  have hgr : groupOf r.1.t.groups o.cam = i := groupOf_eq h.consistent.groups hg hc
  simp only [readingOf, hgr, hg, t1, o1, t2, p1, p2, Option.bind_some, Option.getD_some, Option.map_some, hv, hof]

omit [MulAction G Pt] in
include hobs in
/-- Corners seen exactly are corners of their boards. -/
theorem ids_of [SMul G Pt] (hpix : SeenExactly w pix bpts obs) :
    ∀ bo ∈ obs, ∀ k ∈ bo.ids, k < Spec.Objects.cornerCount bpts bo.board := by
  intro bo hbo k hk
  obtain ⟨j, hj⟩ := List.getElem?_of_mem hk
  have hlt : j < bo.pts.length := by
    rw [hobs.aligned bo hbo]
    exact (List.getElem?_eq_some_iff.1 hj).1
  have hz : (bo.pts[j], k) ∈ bo.pts.zip bo.ids := by
    apply List.mem_of_getElem? (i := j)
    rw [List.getElem?_zip_eq_some]
    exact ⟨List.getElem?_eq_getElem hlt, hj⟩
  obtain ⟨ps, x, h1, h2, _⟩ := hpix _ _ _ _ _ ⟨bo, hbo, rfl, rfl, rfl, hz⟩
  unfold Spec.Objects.cornerCount
  rw [h1]
  exact (List.getElem?_eq_some_iff.1 h2).1

/-- What the reports of a calibration without error say: `ref` is the reference camera, `bref i` the reference board of
object `i`. -/
structure Truthful [Zero K] [One K] (w : World G) (bpts : List (List Pt)) (rep : Finish.Reports V G Pt K Img)
    (ref : Nat) (bref : Nat → Nat) : Prop where
  /-- the average reprojection error is 0 -/
  average : rep.average = some 0
  /-- so are all errors in the file of reprojection errors -/
  errors : ∀ g ∈ rep.errors.2, ∀ f ∈ g.frames, ∀ c ∈ f.cams, ∀ d ∈ c.2, d = 0
  /-- and in the log -/
  log : ∀ g ∈ rep.log, ∀ x ∈ g, x.mean = some 0
  /-- the pose of each camera in the parameter file is its true pose, seen from the reference camera -/
  cameras : ∀ c node, Output.lookup rep.cameras c = some node → node.pose = w.cam ref * (w.cam c)⁻¹
  /-- every corner in the file of objects has its true position, seen from the reference board -/
  objects : ∀ i cols, (i, cols) ∈ rep.objects → ∀ x ∈ cols, ∃ col ps p, x = some col ∧ bpts[col.board]? = some ps ∧
    ps[col.corner]? = some p ∧ col.pt = (w.board (bref i))⁻¹ • w.board col.board • p

/-- `ref` is the reference camera of the first group, `bref i` the reference board of object `i`. -/
def References (st : State G Pt P) (ref : Nat) (bref : Nat → Nat) : Prop :=
  (∃ g, OMap.get? st.t.groups 0 = some g ∧ g.refCam = ref) ∧ ∀ i o, OMap.get? st.objs i = some o → o.refBoard = bref i

private theorem mean_zero {l : List ℝ} (h : ∀ x ∈ l, x = 0) : mean l = 0 := by
  unfold mean
  rw [List.sum_eq_zero h, zero_div]

include hl hs hobs hb hm hof hbr hka hpix in
/-- C81, given a run that ends with true poses. -/
theorem truthful [Inhabited Pt] [Zero K] [One K] (r : State G Pt (ℝ × ℝ) × OMap (Nat × Nat) (OMap Nat V))
    (hr : Finish.run n fix bpts s obs = .ok r) (k : Nat) (op' : OMap (Nat × Nat) (OMap Nat V))
    (hop : r.2 = refinePoses (n.inGroup k) op') (hT : StateTrue w r.1) (hI : InGroupTrue w n k r.1)
    (hcams : ∀ c ∈ observingCams nCam l, ∃ cam sz, en.cams[c]? = some cam ∧ cam.size = some sz)
    (hsome : ∃ bo ∈ obs, bo.pts ≠ []) :
    ∃ rep ref bref, Finish.report en bpts s.frames r = .ok rep ∧
      Correct en bpts s.frames r (readingOf r en.ofVec pix) rep ∧ Truthful w bpts rep ref bref ∧ References r.1 ref bref := by
  have hids := ids_of s obs hobs bpts w pix hpix
  obtain ⟨rep, p1, p2⟩ := C76_reports nCam nBoard l hl s hs obs hobs bpts hb n fix r hr hids en hm pix hbr hka hcams
  have hE := C76_tables nCam nBoard l hl s hs obs hobs bpts hb n fix r hr
  obtain ⟨h, hP⟩ := ends nCam nBoard l hl s hs obs hobs bpts hb n fix r hr
  have hzero : ∀ o ∈ r.1.oo, ∀ x ∈ errors (readingOf r en.ofVec pix) o, x = 0 := by
    intro o ho x hx
    unfold errors at hx
    obtain ⟨e, he, rfl⟩ := List.mem_map.1 hx
    have := predicted nCam nBoard l hl s hs obs hobs bpts hb n fix w hids en hof pix hpix r hr k op' hop hT hI o ho e.1 e.2 he
    show Real.sqrt ((e.1.1 - (pix o.cam _).1) ^ 2 + (e.1.2 - (pix o.cam _).2) ^ 2) = 0
    rw [this]
    simp
  obtain ⟨bo, hbo, hbp⟩ := hsome
  obtain ⟨i0, g0, hg0, _⟩ := h.cams bo hbo hbp
  obtain ⟨o0, ho0, _⟩ := (views h.consistent h.joins.boards bo.cam bo.frame).2 ⟨bo, hbo, rfl, rfl, hbp⟩
  obtain ⟨kk, hkk⟩ := hE.numbered
  obtain ⟨g, hg⟩ : ∃ g, OMap.get? r.1.t.groups 0 = some g := by
    have h1 : i0 ∈ OMap.keys r.1.t.groups := OMap.mem_keys.2 ⟨g0, hg0⟩
    apply OMap.mem_keys.1
    rw [hkk, List.mem_range] at *
    omega
  refine ⟨rep, g.refCam, fun i => ((OMap.get? r.1.objs i).map (·.refBoard)).getD 0, p1, p2, ⟨?_, ?_, ?_, ?_, ?_⟩, ⟨g, hg, rfl⟩, fun i o ho => by show _ = ((OMap.get? r.1.objs i).map (·.refBoard)).getD 0; rw [ho]; rfl⟩
  · obtain ⟨os, _, o2, o3⟩ := p2.average
    have hne : os ≠ [] := List.ne_nil_of_mem ((o2 o0).2 ho0)
    rw [o3, if_neg hne, mean_zero]
    intro x hx
    obtain ⟨o, ho, rfl⟩ := List.mem_map.1 hx
    exact mean_zero (hzero o ((o2 o).1 ho))
  · intro gn hgn f hf c hc d hd
    obtain ⟨e1, e2, e3⟩ := p2.errors
    obtain ⟨j, hj⟩ := List.getElem?_of_mem hgn
    have hlt : j < r.1.t.groups.length := by rw [← e2]; exact (List.getElem?_eq_some_iff.1 hj).1
    obtain ⟨gn', q1, _, q3⟩ := e3 j r.1.t.groups[j].1 r.1.t.groups[j].2 (List.getElem?_eq_getElem hlt)
    rw [hj] at q1
    simp only [Option.some.injEq] at q1
    subst q1
    rw [q3] at hf
    obtain ⟨fr, _, rfl⟩ := List.mem_map.1 hf
    unfold frameErrors at hc
    obtain ⟨o, ho, rfl⟩ := List.mem_map.1 hc
    exact hzero o (List.mem_filter.1 ho).1 d hd
  · intro gl hgl x hx
    rw [p2.log] at hgl
    obtain ⟨e, _, rfl⟩ := List.mem_map.1 hgl
    obtain ⟨f, _, hx⟩ := List.mem_flatMap.1 hx
    obtain ⟨o, ho, rfl⟩ := List.mem_map.1 hx
    show some (mean _) = some 0
    rw [mean_zero (hzero o (List.mem_filter.1 ho).1)]
  · intro c node hc
    obtain ⟨nd, n1, n2⟩ := p2.cameras g hg
    rw [n1, Output.lookup_cams] at hc
    split at hc
    · next hmem =>
      simp only [Option.some.injEq] at hc
      rw [← hc]
      obtain ⟨x, x1, x2⟩ := (n2 c hmem).pose
      rw [hT.cameras 0 g c hg hmem] at x1
      simp only [Option.some.injEq] at x1
      rw [eq_inv_of_mul_eq_one_left x2, ← x1]
      group
    · cases hc
  · intro i cols hic x hx
    obtain ⟨cs, c1, c2⟩ := p2.objects
    rw [c1] at hic
    obtain ⟨j, hj, hij⟩ := List.mem_map.1 hic
    simp only [Prod.mk.injEq] at hij
    obtain ⟨rfl, rfl⟩ := hij
    obtain ⟨o, ho⟩ := OMap.mem_keys.1 hj
    obtain ⟨col, hcol, rfl⟩ := List.mem_map.1 hx
    obtain ⟨T, ps, p, q1, q2, q3, q4⟩ := (c2 j o ho).point col hcol
    refine ⟨col, ps, p, rfl, q2, q3, ?_⟩
    have hbk : col.board ∈ OMap.keys o.boards := by
      rw [← (h.consistent.objs.good j o ho).posed.keys]
      exact OMap.mem_keys.2 ⟨T, q1⟩
    rw [hT.boards j o col.board ho hbk] at q1
    simp only [Option.some.injEq] at q1
    rw [q4, ← q1, ho, mul_smul]
    rfl

include hl hs hobs hb hm hof hbr hka hpix in
/-- C81: the whole run from exact data, if groups of cameras without common views share enough frames with the first
one, as at most two groups do (`C70_two_groups`). It ends, all reports are written, the errors
they give are all 0, and cameras and corners in the files have their true positions. -/
theorem C81_reports [Inhabited Pt] [Zero K] [One K] (hx : Exact w n bpts l s obs) (hy : ExactTail w n bpts s obs)
    (hz : ExactEnd w n fix bpts s obs) (hsim : Simple G l obs)
    (hstar : ∀ st, overlapping n bpts s obs = .ok st → StarPairs w (OMap.keys s.frames) st)
    (hsym : ∀ st, overlapping n bpts s obs = .ok st → ∀ pp, nonOverlapping n st = .ok pp →
      ∀ a b, (a, b) ∈ OMap.keys pp.pose → (b, a) ∈ OMap.keys pp.pose)
    (hcams : ∀ c ∈ observingCams nCam l, ∃ cam sz, en.cams[c]? = some cam ∧ cam.size = some sz)
    (hsome : ∃ bo ∈ obs, bo.pts ≠ []) :
    ∃ r rep ref bref, Finish.run n fix bpts s obs = .ok r ∧ Finish.report en bpts s.frames r = .ok rep ∧
      Correct en bpts s.frames r (readingOf r en.ofVec pix) rep ∧ Truthful w bpts rep ref bref ∧ References r.1 ref bref := by
  obtain ⟨st, h1, h2, h3⟩ := C70_workflow nCam nBoard l hl s hs obs hobs bpts hb n w hx hy hsim hstar hsym
  obtain ⟨op, h4⟩ := run_eq n fix bpts s obs st h1
  obtain ⟨r, hr, hT⟩ : ∃ r, Finish.lastRefine n fix bpts st (refinePoses (n.inGroup 5) op) = .ok r ∧ StateTrue w r.1 := by
    unfold Finish.lastRefine
    split
    · next h0 =>
      obtain ⟨objs', o1, _, _⟩ := refineObjects_ok (n.board 6) st.objs h3
      have : ∃ st', refineAll n 6 bpts st = .ok st' := by
        unfold refineAll
        rw [o1, Outcome.bind_ok]
        exact ⟨_, rfl⟩
      obtain ⟨st', h5⟩ := this
      exact ⟨(st', _), by rw [h5, Outcome.bind_ok]; rfl, hz.refine6 h0 st h1 h2 st' h5⟩
    · exact ⟨_, rfl, h2⟩
  obtain ⟨op', hop⟩ := poses_last n fix bpts st op r hr
  rw [hr] at h4
  obtain ⟨rep, ref, bref, q⟩ := truthful nCam nBoard l hl s hs obs hobs bpts hb n fix w en hm hof pix hbr hka hpix r h4 _ op' hop
    hT (hz.last r h4 hT) hcams hsome
  exact ⟨r, rep, ref, bref, h4, q⟩

end
end Verif.Props.ExactReport

namespace Verif.Props.ExactReport.Example
open Verif Verif.Objects Verif.Groups Verif.Pipeline Verif.NonOverlap Verif.Spec.Exact Verif.Spec.Pipeline
open Verif.Spec.NonOverlap Verif.Spec.Groups Verif.Spec.Finish Verif.Props.NonOverlap
open Verif.Props.Pipeline Verif.Props.Exact Verif.Props.ExactReport
open Verif.Props.Exact.Example (w all solve solves bpts n val val_eq mem_of_get boards_of cams_of)

/-- The projection of a point: here the points are 0, 1 and 2. -/
noncomputable def pix (c : Nat) (p : Fin 3) : ℝ × ℝ := ((p : ℕ), c)

/-- The detection of the only corner of a board, at its exact position. -/
noncomputable def det (c f b : Nat) (p : Fin 3) : Insertion (ℝ × ℝ) Nat :=
  ⟨⟨c, f, b, [pix c (w.cam c • w.motion f • w.board b • p)], [0]⟩, 0⟩

/-- In each of six frames, camera 0 sees boards 0 and 1, camera 1 sees board 0, and camera 2 sees board 2 only. -/
noncomputable def l : List (Insertion (ℝ × ℝ) Nat) :=
  (List.range 6).flatMap fun f => [det 0 f 0 2, det 0 f 1 0, det 1 f 0 2, det 2 f 2 1]

noncomputable def s : Store (ℝ × ℝ) Nat := val (Store.init 3 3) (Store.run 3 3 l)

theorem run_ok : Store.run 3 3 l = .ok s := by
  have h : (match Store.run 3 3 l with | .ok _ => true | _ => false) = true := by decide +kernel
  unfold s
  generalize Store.run 3 3 l = x at h
  cases x <;> simp_all [val]

noncomputable def r0 : OMap Nat (Object S3 (Fin 3)) := val [] (buildObjects s n.boardPose n.avg bpts (n.choose 0))
noncomputable def r : OMap Nat (Object S3 (Fin 3)) × List (ObjObs (ℝ × ℝ)) := val ([], []) (calibrateObjects n bpts s s.obs)
noncomputable def none' : State S3 (Fin 3) (ℝ × ℝ) := ⟨[], [], { groups := [] }⟩
noncomputable def g0 : State S3 (Fin 3) (ℝ × ℝ) := val none' (placeGroups n s r.1 r.2)
noncomputable def g1 : State S3 (Fin 3) (ℝ × ℝ) := val none' (calibrateGroups n bpts s r.1 r.2)
noncomputable def g2 : State S3 (Fin 3) (ℝ × ℝ) := val none' (joinObjects n 2 bpts s s.obs g1)
noncomputable def g3 : State S3 (Fin 3) (ℝ × ℝ) := val none' (overlapping n bpts s s.obs)
noncomputable def pp : PairPoses S3 := val {} (nonOverlapping n g3)
noncomputable def g4 : State S3 (Fin 3) (ℝ × ℝ) := val none' (mergeGroups1 n s pp g3)
noncomputable def g5 : State S3 (Fin 3) (ℝ × ℝ) := val none' (joinObjects n 4 bpts s s.obs g4)
noncomputable def g6 : State S3 (Fin 3) (ℝ × ℝ) := val none' (afterMerge n bpts s s.obs pp g3)
noncomputable def g7 : State S3 (Fin 3) (ℝ × ℝ) := val none' (mergeGroups2 n s pp g6)

theorem poses_of {objs : OMap Nat (Object S3 (Fin 3))} {oo : List (ObjObs (ℝ × ℝ))} {pose : Nat → S3}
    (h : ∀ e ∈ oo.zipIdx, ∀ o ∈ objs, e.1.obj = o.1 →
      pose e.2 = w.cam e.1.cam * (w.motion e.1.frame * w.board o.2.refBoard)) : PosesTrue w objs oo pose := by
  intro k x o hx ho
  exact h (x, k) (List.mem_zipIdx_iff_getElem?.2 hx) (x.obj, o) (mem_of_get ho) rfl

theorem keeps_of {k : Nat} {st : State S3 (Fin 3) (ℝ × ℝ)}
    (h1 : ∀ e ∈ (val none' (refineAll n k bpts st)).objs, ∀ b ∈ OMap.keys e.2.boards,
      OMap.get? e.2.poses b = some ((w.board e.2.refBoard)⁻¹ * w.board b))
    (h2 : ∀ e ∈ (val none' (refineAll n k bpts st)).t.groups, ∀ c ∈ OMap.keys e.2.cameras,
      OMap.get? e.2.poses c = some (w.cam c * (w.cam e.2.refCam)⁻¹)) : Keeps w n k bpts st := by
  intro _ st' h
  rw [h] at h1 h2
  exact ⟨boards_of h1, cams_of h2⟩

theorem exact : Exact w n bpts l s s.obs where
  boardPose i a h := by
    have hlt := (List.getElem?_eq_some_iff.1 h).1
    have hlen : l.length = 24 := rfl
    have key : ∀ (i : Fin 24), n.boardPose i = ((l[(i : Nat)]?).map fun a =>
        w.cam a.obs.cam * (w.motion a.obs.frame * w.board a.obs.board)).getD 1 := by decide +kernel
    have := key ⟨i, by omega⟩
    rw [show l[((⟨i, by omega⟩ : Fin 24) : Nat)]? = some a from h] at this
    exact this
  avg zs x h h' := by
    cases zs with
    | nil => exact absurd rfl h
    | cons z zs => exact h' z (by simp)
  avgV zs x h h' := by
    cases zs with
    | nil => exact absurd rfl h
    | cons z zs => exact h' z (by simp)
  vec _ := rfl
  refine0 objs h _ objs' h' := by
    have := val_eq (d := []) h
    have e : objs' = val [] (refineObjects bpts (n.board 0) r0) := by
      rw [show r0 = objs from this.symm]; exact val_eq h'
    subst e
    exact boards_of (by decide +kernel)
  pose1 q h _ := by
    rw [show q = r from val_eq h]
    exact poses_of (by decide +kernel)
  refine1 q h st hst := by
    rw [show q = r from val_eq h] at hst
    rw [show st = g0 from val_eq hst]
    exact keeps_of (by decide +kernel) (by decide +kernel)
  pose2 q h st hst _ := by
    rw [show q = r from val_eq h] at hst
    rw [show st = g1 from val_eq hst]
    exact poses_of (by decide +kernel)
  refine2 q h st hst st' hst' := by
    rw [show q = r from val_eq h] at hst
    rw [show st = g1 from val_eq hst] at hst'
    rw [show st' = g2 from val_eq hst']
    exact keeps_of (by decide +kernel) (by decide +kernel)

theorem tail : ExactTail w n bpts s s.obs where
  inGroup st h _ := by
    rw [show st = g3 from val_eq h]
    intro i g j o f hg ho _
    have h1 : ∀ e ∈ g3.t.groups, e.2.refCam = 2 * e.1 := by decide +kernel
    have h2 : ∀ e ∈ g3.objs, e.2.refBoard = 2 * e.1 := by decide +kernel
    rw [h1 (i, g) (mem_of_get hg), h2 (j, o) (mem_of_get ho)]
    rfl
  he := solves
  pose4 st h p hp st1 h1 _ := by
    rw [show st = g3 from val_eq h] at hp h1
    rw [show p = pp from val_eq hp] at h1
    rw [show st1 = g4 from val_eq h1]
    exact poses_of (by decide +kernel)
  refine4 st h p hp st1 h1 st2 h2 := by
    rw [show st = g3 from val_eq h] at hp h1
    rw [show p = pp from val_eq hp] at h1
    rw [show st1 = g4 from val_eq h1] at h2
    rw [show st2 = g5 from val_eq h2]
    exact keeps_of (by decide +kernel) (by decide +kernel)
  refine5 st h p hp st3 h3 st4 h4 := by
    rw [show st = g3 from val_eq h] at hp h3
    rw [show p = pp from val_eq hp] at h3 h4
    rw [show st3 = g6 from val_eq h3] at h4
    rw [show st4 = g7 from val_eq h4]
    exact keeps_of (by decide +kernel) (by decide +kernel)

theorem coSeen {a b : Nat} (h : Relation.ReflTransGen (Spec.Objects.CoSeen l) a b) : a = 2 ↔ b = 2 := by
  induction h with
  | refl => rfl
  | tail _ h ih =>
    rw [ih]
    have : ∀ x ∈ l, ∀ y ∈ l, x.obs.cam = y.obs.cam → (x.obs.board = 2 ↔ y.obs.board = 2) := by decide +kernel
    obtain ⟨_, x, hx, y, hy, h1, _, h2, h3⟩ := h
    rw [← h2, ← h3]
    exact this x hx y hy h1

theorem linked {a b : Nat} (h : CamsLinked l s.obs a b) : (a = 0 ∧ b = 1) ∨ (a = 1 ∧ b = 0) := by
  obtain ⟨hne, x, hx, y, hy, rfl, rfl, _, _, _, h⟩ := h
  have h1 : ∀ x ∈ s.obs, x.cam ≤ 2 ∧ (x.cam = 2 ↔ x.board = 2) := by decide +kernel
  have := coSeen h
  have := h1 x hx
  have := h1 y hy
  omega

theorem linked_star {a b : Nat} (h : Relation.ReflTransGen (CamsLinked l s.obs) a b) : a = b ∨ (a ≤ 1 ∧ b ≤ 1) := by
  induction h with
  | refl => exact Or.inl rfl
  | tail _ h ih =>
    have := linked h
    omega

theorem linked01 : CamsLinked l s.obs 0 1 := by
  refine ⟨by decide, ?_⟩
  have : ∃ x ∈ s.obs, ∃ y ∈ s.obs, x.cam = 0 ∧ y.cam = 1 ∧ x.frame = y.frame ∧ x.pts ≠ [] ∧ y.pts ≠ [] ∧ x.board = y.board := by
    decide +kernel
  obtain ⟨x, hx, y, hy, h1, h2, h3, h4, h5, h6⟩ := this
  exact ⟨x, hx, y, hy, h1, h2, h3, h4, h5, h6 ▸ Relation.ReflTransGen.refl⟩

theorem linked10 : CamsLinked l s.obs 1 0 := by
  obtain ⟨_, x, hx, y, hy, h1, h2, h3, h4, h5, h6⟩ := linked01
  refine ⟨by decide, ?_⟩
  have : ∃ x ∈ s.obs, ∃ y ∈ s.obs, x.cam = 1 ∧ y.cam = 0 ∧ x.frame = y.frame ∧ x.pts ≠ [] ∧ y.pts ≠ [] ∧ x.board = y.board := by
    decide +kernel
  obtain ⟨x, hx, y, hy, h1, h2, h3, h4, h5, h6⟩ := this
  exact ⟨x, hx, y, hy, h1, h2, h3, h4, h5, h6 ▸ Relation.ReflTransGen.refl⟩

/-- All hypotheses of C70 hold in the example, whose poses do not commute. -/
theorem hypotheses :
    (∀ a ∈ l, a.obs.cam < 3 ∧ a.obs.board < 3) ∧ Store.run 3 3 l = .ok s ∧ Spec.Objects.SameViews s.obs s.obs ∧
    Exact w n bpts l s s.obs ∧ ExactTail w n bpts s s.obs ∧ Simple S3 l s.obs ∧ TwoGroups 3 l s.obs ∧
    (∀ st, overlapping n bpts s s.obs = .ok st → RichPairs w (OMap.keys s.frames) st) ∧
    (∀ st, overlapping n bpts s s.obs = .ok st → ∀ p, nonOverlapping n st = .ok p →
      ∀ a b, (a, b) ∈ OMap.keys p.pose → (b, a) ∈ OMap.keys p.pose) := by
  refine ⟨by decide +kernel, run_ok, ⟨rfl, by decide +kernel⟩, exact, tail, Or.inr ?_, ?_, ?_, ?_⟩
  · intro r c h1 _ hne
    refine Or.inr fun d h2 => ?_
    have := linked_star h1
    have := linked_star h2
    omega
  · intro a ha b hb c hc
    have hv : ∀ a ∈ observingCams 3 l, a ≤ 2 := by decide +kernel
    have ha := hv a ha
    have hb := hv b hb
    have hc := hv c hc
    have key : ∀ a b, a ≤ 1 → b ≤ 1 → Relation.ReflTransGen (CamsLinked l s.obs) a b := by
      intro a b h1 h2
      have : a = b ∨ (a = 0 ∧ b = 1) ∨ (a = 1 ∧ b = 0) := by omega
      rcases this with rfl | ⟨rfl, rfl⟩ | ⟨rfl, rfl⟩
      · exact Relation.ReflTransGen.refl
      · exact Relation.ReflTransGen.single linked01
      · exact Relation.ReflTransGen.single linked10
    by_cases hab : a = b
    · exact Or.inl (hab ▸ Relation.ReflTransGen.refl)
    by_cases hac : a = c
    · exact Or.inr (Or.inl (hac ▸ Relation.ReflTransGen.refl))
    by_cases hbc : b = c
    · exact Or.inr (Or.inr (hbc ▸ Relation.ReflTransGen.refl))
    have : (a ≤ 1 ∧ b ≤ 1) ∨ (a ≤ 1 ∧ c ≤ 1) ∨ (b ≤ 1 ∧ c ≤ 1) := by omega
    rcases this with h | h | h
    · exact Or.inl (key a b h.1 h.2)
    · exact Or.inr (Or.inl (key a c h.1 h.2))
    · exact Or.inr (Or.inr (key b c h.1 h.2))
  · intro st h
    rw [show st = g3 from val_eq h]
    have key : ∀ e ∈ g3.t.groups, ∀ e' ∈ g3.t.groups, e.1 ≠ e'.1 →
        ∀ y : S3, (∀ f ∈ jointFrames g3.oo (OMap.keys s.frames) e.2 e'.2 (chosen g3.objs g3.t g3.oo e.1 e'.1),
          ∀ f' ∈ jointFrames g3.oo (OMap.keys s.frames) e.2 e'.2 (chosen g3.objs g3.t g3.oo e.1 e'.1),
            (w.motion f)⁻¹ * y * w.motion f = (w.motion f')⁻¹ * y * w.motion f') → y = 1 := by decide +kernel
    have six : ∀ e ∈ g3.t.groups, ∀ e' ∈ g3.t.groups, e.1 ≠ e'.1 →
        6 ≤ (jointFrames g3.oo (OMap.keys s.frames) e.2 e'.2 (chosen g3.objs g3.t g3.oo e.1 e'.1)).length := by decide +kernel
    intro i j gi gj hi hj hne _
    exact ⟨six (i, gi) (mem_of_get hi) (j, gj) (mem_of_get hj) hne, key (i, gi) (mem_of_get hi) (j, gj) (mem_of_get hj) hne⟩
  · intro st h p hp
    rw [show st = g3 from val_eq h] at hp
    rw [show p = pp from val_eq hp]
    have : ∀ k ∈ OMap.keys pp.pose, (k.2, k.1) ∈ OMap.keys pp.pose := by decide +kernel
    exact fun a b h => this (a, b) h

/-- The workflow and the two ways to end it. -/
noncomputable def g8 : State S3 (Fin 3) (ℝ × ℝ) := val none' (workflow n bpts s s.obs)
noncomputable def e0 : State S3 (Fin 3) (ℝ × ℝ) × OMap (Nat × Nat) (OMap Nat S3) :=
  val (none', []) (Finish.run n 0 bpts s s.obs)
noncomputable def e1 : State S3 (Fin 3) (ℝ × ℝ) × OMap (Nat × Nat) (OMap Nat S3) :=
  val (none', []) (Finish.run n 1 bpts s s.obs)

theorem ingroup_of {k : Nat} {st : State S3 (Fin 3) (ℝ × ℝ)} (h1 : ∀ e ∈ st.t.groups, e.2.refCam = 2 * e.1)
    (h2 : ∀ e ∈ st.objs, e.2.refBoard = 2 * e.1) : InGroupTrue w n k st := by
  intro i g j o f hg ho _
  rw [h1 (i, g) (mem_of_get hg), h2 (j, o) (mem_of_get ho)]
  rfl

theorem end0 : ExactEnd w n 0 bpts s s.obs where
  refine6 _ st h := by
    rw [show st = g8 from val_eq h]
    exact keeps_of (by decide +kernel) (by decide +kernel)
  last r h _ := by
    rw [show r = e0 from val_eq h]
    exact ingroup_of (by decide +kernel) (by decide +kernel)

theorem end1 : ExactEnd w n 1 bpts s s.obs where
  refine6 h := nomatch h
  last r h _ := by
    rw [show r = e1 from val_eq h]
    exact ingroup_of (by decide +kernel) (by decide +kernel)

theorem seen : SeenExactly w pix bpts s.obs := by
  rintro c f b k p ⟨bo, hbo, rfl, rfl, rfl, hp⟩
  have hobs : s.obs = l.map (·.obs) := by
    obtain ⟨s', h1, h2⟩ := Props.Store.C06_indexes 3 3 l (by decide +kernel)
    rw [run_ok] at h1
    simp only [Outcome.ok.injEq] at h1
    exact h1 ▸ h2.obs
  rw [hobs] at hbo
  obtain ⟨a, ha, rfl⟩ := List.mem_map.1 hbo
  unfold l at ha
  obtain ⟨f, _, ha⟩ := List.mem_flatMap.1 ha
  simp only [List.mem_cons, List.not_mem_nil, or_false] at ha
  rcases ha with rfl | rfl | rfl | rfl <;>
  · simp only [det, List.zip_cons_cons, List.zip_nil_right, List.mem_singleton, Prod.mk.injEq] at hp
    obtain ⟨rfl, rfl⟩ := hp
    exact ⟨_, _, rfl, rfl, rfl⟩

noncomputable def env : Finish.Env S3 S3 (Fin 3) ℝ Nat Nat where
  ofVec g := g
  model c := c % 2
  projBrown c g ps := .ok (ps.map fun p => pix c (g • p))
  projKannala c g ps := .ok (ps.map fun p => pix c (g • p))
  cams := [⟨0, fun _ => 1, some (640, 480)⟩, ⟨1, fun _ => 2, some (640, 480)⟩, ⟨0, fun _ => 3, some (320, 240)⟩]
  zero := 1
  colour _ := (0, 0, 255)
  imread p := some p
  emptyPath := 0
  save := "out".toList
  saveDetect := 1
  saveRepro := 1
  gp _ := 1
  camPose _ := 1

/-- The hypotheses of C81 hold for three cameras with poses that do not commute, one of which shares no view with the
others; with and without the last refinement. -/
example : ∀ fix ∈ [(0 : Int), 1], ∃ r rep ref bref, Finish.run n fix bpts s s.obs = .ok r ∧
    Finish.report env bpts s.frames r = .ok rep ∧ Truthful w bpts rep ref bref ∧ References r.1 ref bref := by
  intro fix hfix
  obtain ⟨h1, h2, h3, h4, h5, h6, h7, h8, h9⟩ := hypotheses
  have hend : ExactEnd w n fix bpts s s.obs := by
    simp only [List.mem_cons, List.not_mem_nil, or_false] at hfix
    rcases hfix with rfl | rfl
    · exact end0
    · exact end1
  obtain ⟨r, rep, ref, bref, r1, r2, _, r3⟩ := C81_reports 3 3 l h1 s h2 s.obs h3 bpts rfl n fix w env
    (fun c _ => by show ((c : Int) % 2) = 0 ∨ ((c : Int) % 2) = 1; omega) rfl pix (fun _ _ _ _ => rfl) (fun _ _ _ _ => rfl) seen h4 h5 hend h6 (fun st h =>
      C70_two_groups 3 3 l h1 s h2 s.obs h3 bpts rfl n w h4 h5 h6 h7 st h (h8 st h) (h9 st h)) h9
    (by
      have hv : ∀ a ∈ observingCams 3 l, a ≤ 2 := by decide +kernel
      intro c hc
      have := hv c hc
      have : c = 0 ∨ c = 1 ∨ c = 2 := by omega
      rcases this with rfl | rfl | rfl
      · exact ⟨_, _, rfl, rfl⟩
      · exact ⟨_, _, rfl, rfl⟩
      · exact ⟨_, _, rfl, rfl⟩)
    (by
      have : ∃ x ∈ s.obs, x.pts ≠ [] := by decide +kernel
      exact this)
  exact ⟨r, rep, ref, bref, r1, r2, r3⟩

end Verif.Props.ExactReport.Example
