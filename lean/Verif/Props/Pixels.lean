import Verif.Lemmas.Pixels
import Verif.Props.PixelSearch
import Verif.Props.Program
import Verif.Props.ExactReport

/-! C84: from exact pixels to exact results. -/
namespace Verif.Props.Pixels
open Verif Verif.Objects Verif.Groups Verif.NonOverlap Verif.Pipeline Verif.Ransac Verif.Program
open Verif.Spec.Pixels Verif.Spec.Exact Verif.Spec.Objects Verif.Spec.Groups Verif.Spec.Finish Verif.Spec.Program
open Verif.Lemmas.Program Verif.Lemmas.Pipeline Verif.Lemmas.Pixels
open Verif.Props.Exact Verif.Props.ExactReport Verif.Props.Outliers Verif.Props.Program

variable {V G Pt P Path : Type}

/-- The numerical parts other than pose estimation are exact on exact data: averages of equal poses, the non-linear
refinements, which keep true poses and find those of the objects in the group observations, and the hand-eye
calibration; and the motions allow it. -/
structure Remaining [Group G] [SMul G Pt] (w : World G) (e : Estimator Pt P G) (n : Numerics V G) (fix : Int)
    (bpts : List (List Pt)) (s : Store P Path) (obs : List (BoardObs P)) : Prop where
  avg : ∀ (zs : List G) x, zs ≠ [] → (∀ z ∈ zs, z = x) → n.avg zs = x
  avgV : ∀ (zs : List V) x, zs ≠ [] → (∀ z ∈ zs, z = x) → n.avgV zs = x
  vec : ∀ g, n.ofVec (n.toVec g) = g
  refine0 : ∀ objs, buildObjects s n.boardPose n.avg bpts (n.choose 0) = .ok objs → BoardsTrue w objs →
    ∀ objs', refineObjects bpts (n.board 0) objs = .ok objs' → BoardsTrue w objs'
  refined : ∀ objs oo ps, buildObjects s n.boardPose n.avg bpts (n.choose 0) = .ok objs →
    initAllObjectObs { s with obs := obs } objs [] = .ok oo → ps.length = oo.length → PosesTrue w objs oo (poseAt ps) →
    e.refined ps = ps
  refine1 : ∀ r, Pipeline.calibrateObjects n bpts s obs = .ok r → ∀ st, placeGroups n s r.1 r.2 = .ok st → Keeps w n 1 bpts st
  refine2 : ∀ r, Pipeline.calibrateObjects n bpts s obs = .ok r → ∀ st, calibrateGroups n bpts s r.1 r.2 = .ok st →
    ∀ st', joinObjects n 2 bpts s obs st = .ok st' → Keeps w n 2 bpts st'
  inGroup : ∀ st, Pipeline.overlapping n bpts s obs = .ok st → StateTrue w st → InGroupTrue w n 2 st
  he : Solves n.he
  star : ∀ st, Pipeline.overlapping n bpts s obs = .ok st → StarPairs w (OMap.keys s.frames) st
  sym : ∀ st, Pipeline.overlapping n bpts s obs = .ok st → ∀ pp, nonOverlapping n st = .ok pp →
    ∀ a b, (a, b) ∈ OMap.keys pp.pose → (b, a) ∈ OMap.keys pp.pose
  refine4 : ∀ st, Pipeline.overlapping n bpts s obs = .ok st → ∀ pp, nonOverlapping n st = .ok pp →
    ∀ st1, mergeGroups1 n s pp st = .ok st1 → ∀ st2, joinObjects n 4 bpts s obs st1 = .ok st2 → Keeps w n 4 bpts st2
  refine5 : ∀ st, Pipeline.overlapping n bpts s obs = .ok st → ∀ pp, nonOverlapping n st = .ok pp →
    ∀ st3, afterMerge n bpts s obs pp st = .ok st3 → ∀ st4, mergeGroups2 n s pp st3 = .ok st4 → Keeps w n 5 bpts st4
  refine6 : fix = 0 → ∀ st, workflow n bpts s obs = .ok st → Keeps w n 6 bpts st
  last : ∀ r, Finish.run n fix bpts s obs = .ok r → StateTrue w r.1 → InGroupTrue w n (if fix = 0 then 6 else 5) r.1

section
variable [Group G] [MulAction G Pt] [DecidableEq P] (nCam nBoard : Nat) (l : List (Insertion P Path))
  (hl : ∀ a ∈ l, a.obs.cam < nCam ∧ a.obs.board < nBoard) (s : Store P Path)
  (hs : Store.run nCam nBoard l = .ok s) (obs : List (BoardObs P))
  (hobs : Spec.Objects.SameViews s.obs obs) (bpts : List (List Pt)) (hb : bpts.length = nBoard)
  (w : World G) (pix : Nat → Pt → P) (hdet : ∀ bo ∈ obs, ExactDetection w pix bpts bo)
  (e : Estimator Pt P G) (hE : ∀ k, ExactSearch pix (e.search k)) (n : Numerics V G) (fix : Int)
  (hbp : ∀ (i : Nat) a, l[i]? = some a → n.boardPose i = seenAt w a.obs) (poses : Nat → Nat → G)
  (hest : Estimates e n bpts s obs poses) (hR : Remaining w e (withPoses n poses) fix bpts s obs)

include hdet in
omit [DecidableEq P] in
/-- No view is thin. -/
theorem not_thin : ¬ Thin l obs := by
  rintro ⟨b, c, f, h1, h2⟩
  obtain ⟨bo, hbo, k1, k2, k3, k4⟩ := mem_linked h1
  have : bo.pts.length ≤ linkedPoints l obs b c f := by
    unfold linkedPoints
    refine List.single_le_sum (by simp) _ (List.mem_map.2 ⟨bo, ?_, rfl⟩)
    rw [List.mem_filter]
    simp only [decide_eq_true_eq]
    exact ⟨hbo, k1, k2, k3⟩
  have := (hdet bo hbo).four
  omega

include hl hs hobs hb in
/-- The tables after the search for overlapping cameras. -/
theorem overlapping_inv (st : State G Pt P) (h : Pipeline.overlapping (withPoses n poses) bpts s obs = .ok st) :
    Inv l s obs bpts st := by
  obtain ⟨objs, oo, objs', h1, h2, h3, hC, hM, hcl, hp, hg⟩ := first nCam nBoard l hl s hs obs hobs bpts hb n
  obtain ⟨st0, g1, g2⟩ := hg poses
  obtain ⟨st1, j1, j2⟩ := join nCam nBoard l hl s hs obs hobs bpts (withPoses n poses) 2 st0 g2
  obtain ⟨st2, r1, r2⟩ := refine l s obs bpts (withPoses n poses) 2 st1 j2
  have hcal : Pipeline.calibrateObjects (withPoses n poses) bpts s obs = .ok (objs', oo) := by
    show Pipeline.calibrateObjects n bpts s obs = .ok (objs', oo)
    unfold Pipeline.calibrateObjects
    rw [h1, Outcome.bind_ok, h2, Outcome.bind_ok, h3]
    rfl
  unfold Pipeline.overlapping at h
  rw [hcal, Outcome.bind_ok] at h
  simp only at h
  rw [g1, Outcome.bind_ok] at h
  unfold Pipeline.mergeStage at h
  rw [j1, Outcome.bind_ok, r1] at h
  cases h
  exact r2

include hl hs hobs hb hdet hE hbp hest hR in
/-- All poses the workflow works with are true. -/
theorem exact_of : Exact w (withPoses n poses) bpts l s obs where
  boardPose := hbp
  avg := hR.avg
  avgV := hR.avgV
  vec := hR.vec
  refine0 := hR.refine0
  refine1 := hR.refine1
  refine2 := hR.refine2
  pose1 := by
    intro r hr hB
    obtain ⟨objs, oo, objs', h1, h2, h3, hC, hM, hcl, hp, hg⟩ := first nCam nBoard l hl s hs obs hobs bpts hb n
    have hcal : Pipeline.calibrateObjects (withPoses n poses) bpts s obs = .ok (objs', oo) := by
      show Pipeline.calibrateObjects n bpts s obs = .ok (objs', oo)
      unfold Pipeline.calibrateObjects
      rw [h1, Outcome.bind_ok, h2, Outcome.bind_ok, h3]
      rfl
    rw [hcal] at hr
    cases hr
    have hB0 : BoardsTrue w objs := by
      intro i o b hio hbo
      refine Props.Objects.C13_exact nCam nBoard l hl s hs n.boardPose n.avg bpts hb (n.choose 0) hR.avg w.board ?_
        objs h1 i o hio b hbo
      intro i j a b ha hb' hc hf
      rw [hbp i a ha, hbp j b hb']
      unfold seenAt
      rw [hc, hf]
      group
    obtain ⟨ps, p1, p2⟩ := hest.pose1 objs oo h1 h2
    rw [objects_exact (hE 0) e.garbage hdet hC hB0 hM] at p1
    cases p1
    rw [hR.refined objs oo _ h1 h2 (List.length_map _) (poses_true fun i hi => poseAt_lt _ i hi)] at p2
    have hT : PosesTrue w objs oo (poses 1) := poses_true p2
    obtain ⟨o1, r1, r2, r3, r4⟩ := refineObjects_ok (n.board 0) objs hC
    rw [h3] at r1
    cases r1
    intro k x o hx ho
    obtain ⟨o0, q1, q2⟩ := r4 _ o ho
    rw [q2.ref]
    exact hT k x o0 hx q1
  pose2 := by
    intro r hr st hst hT
    obtain ⟨objs, oo, objs', h1, h2, h3, hC, hM, hcl, hp, hg⟩ := first nCam nBoard l hl s hs obs hobs bpts hb n
    have hcal : Pipeline.calibrateObjects n bpts s obs = .ok (objs', oo) := by
      unfold Pipeline.calibrateObjects
      rw [h1, Outcome.bind_ok, h2, Outcome.bind_ok, h3]
      rfl
    have hr' : Pipeline.calibrateObjects n bpts s obs = .ok r := hr
    obtain ⟨ps, p1, p2⟩ := hest.pose2 r st hr' hst
    rw [hcal] at hr'
    cases hr'
    obtain ⟨st0, g1, g2⟩ := hg poses
    rw [hst] at g1
    cases g1
    rw [objects_exact (hE 1) e.garbage hdet g2.consistent.objs hT.boards g2.made] at p1
    cases p1
    exact poses_true p2

include hl hs hobs hb hdet hE hest hR in
theorem tail_of : ExactTail w (withPoses n poses) bpts s obs where
  inGroup := hR.inGroup
  he := hR.he
  refine4 := hR.refine4
  refine5 := hR.refine5
  pose4 := by
    intro st h pp hpp st1 h1 hT
    have hI := overlapping_inv nCam nBoard l hl s hs obs hobs bpts hb n poses st h
    have hI1 := groups nCam nBoard l hl s hs obs bpts (withPoses n poses) st st1 hI pp hpp h1
    obtain ⟨ps, p1, p2⟩ := hest.pose4 st pp st1 h hpp h1
    rw [objects_exact (hE 3) e.garbage hdet hI1.consistent.objs hT.boards hI1.made] at p1
    cases p1
    exact poses_true p2

end

section
variable {K K' Img : Type} [Group G] [MulAction G Pt] [Field K'] [LinearOrder K'] (nCam nBoard : Nat)
  (l : List (Insertion (ℝ × ℝ) Path))
  (hl : ∀ a ∈ l, a.obs.cam < nCam ∧ a.obs.board < nBoard) (s : Store (ℝ × ℝ) Path)
  (hs : Store.run nCam nBoard l = .ok s) (bpts : List (List Pt)) (hb : bpts.length = nBoard)
  (w : World G) (pix : Nat → Pt → ℝ × ℝ) (hdet : ∀ a ∈ l, ExactDetection w pix bpts a.obs)
  (search : Search Pt (ℝ × ℝ) G) (hB : Sound search) (hBE : ExactSearch pix search)
  (e : Estimator Pt (ℝ × ℝ) G) (hS : ∀ k, Sound (e.search k)) (hF : ∀ k, Fails (e.search k))
  (hE : ∀ k, ExactSearch pix (e.search k))
  (pr : ReproErr.Projection (ℝ × ℝ) G Pt K') (hp : Spec.ReproErr.Pointwise pr fun c g p => pix c (g • p))
  (hm : ∀ c, pr.model c = 0 ∨ pr.model c = 1)
  (hthrow : ∀ c g, pr.brown c g [] = .throw) (hfish : ∀ c g, pr.kannala c g [] = .ok [] ∨ pr.kannala c g [] = .throw)
  (refine : Option (List (Estimated (ℝ × ℝ) G) → Outcome (List (Estimated (ℝ × ℝ) G) × ReproErr.Projection (ℝ × ℝ) G Pt K')))
  (n : Numerics V G) (fix : Int)

/-- The first refinement of intrinsics and poses, if there is one, keeps true poses. -/
def KeepsViews (w : World G) (pr : ReproErr.Projection (ℝ × ℝ) G Pt K')
    (refine : Option (List (Estimated (ℝ × ℝ) G) → Outcome (List (Estimated (ℝ × ℝ) G) × ReproErr.Projection (ℝ × ℝ) G Pt K'))) :
    Prop :=
  ∀ f ∈ refine, ∀ est, (∀ x ∈ est, x.pose = seenAt w x.obs) → Props.ReproErr.Refines pr est f ∧
    ∀ est' pr', f est = .ok (est', pr') → ∀ x ∈ est', x.pose = seenAt w x.obs

include hl hs hb hdet hB hBE hS hF hE hp hm hthrow hfish in
/-- C84: with exact pixels the first step removes no corner, and the calibration is the workflow on all detections, with
true poses of all views and for each stage the poses estimated for its tables. -/
theorem C84_calibration (hk : KeepsViews w pr refine) : ∃ bp op,
    (∃ x, ReproErr.initIntrinsic search e.garbage bpts s.obs refine pr = .ok x ∧ x.1.map (·.obs) = s.obs) ∧
    (∀ (i : Nat) a, l[i]? = some a → bp i = seenAt w a.obs) ∧
    Estimates e { n with boardPose := bp } bpts s s.obs op ∧
    Program.calibrate search refine pr e n fix bpts s =
      Finish.run { n with boardPose := bp, objPose := op } fix bpts s s.obs := by
  have hobs := (store_desc nCam nBoard l hl s hs).obs
  have hdet' : ∀ bo ∈ s.obs, ExactDetection w pix bpts bo := by
    intro bo hbo
    rw [hobs] at hbo
    obtain ⟨a, ha, rfl⟩ := List.mem_map.1 hbo
    exact hdet a ha
  have hest := boards_exact hBE e.garbage hdet'
  have hpose : ∀ x ∈ s.obs.map (fun bo => (⟨bo, true, seenAt w bo⟩ : Estimated (ℝ × ℝ) G)), x.pose = seenAt w x.obs := by
    intro x hx
    obtain ⟨bo, _, rfl⟩ := List.mem_map.1 hx
    rfl
  have hmap : (s.obs.map fun bo => (⟨bo, true, seenAt w bo⟩ : Estimated (ℝ × ℝ) G)).map (·.obs) = s.obs := by
    rw [List.map_map]
    exact List.map_id _
  obtain ⟨x, v, bp, op, h1, h2, h3, h4⟩ := (C83_calibration nCam nBoard l hl s hs bpts hb (fun a ha => by
    obtain ⟨ps, q1, q2⟩ := ids_of (hdet a ha)
    refine ⟨(hdet a ha).aligned, (hdet a ha).four, fun k hk => ?_⟩
    unfold cornerCount
    rw [q1]
    exact q2 k hk) search hB e hS hF pr _ hp hm hthrow hfish refine n fix _ hest
    (fun f hf => (hk f hf _ hpose).1)).2.2 (by
      intro x hx
      obtain ⟨bo, hbo, rfl⟩ := List.mem_map.1 hx
      have h4 := (hdet' bo hbo).four
      intro h
      have h : bo.pts = [] := h
      rw [h] at h4
      exact absurd h4 (by decide)) (by rw [hmap]; exact not_thin l s.obs bpts w pix hdet')
  rw [hmap] at h3 h4
  -- the poses the initialisation ends with
  have hx : (∀ y ∈ x, y.pose = seenAt w y.obs) ∧ x.map (·.obs) = s.obs := by
    unfold ReproErr.initIntrinsic at h1
    rw [hest, Outcome.bind_ok] at h1
    obtain ⟨y, y1, y2⟩ := Outcome.bind_eq_ok.1 h1
    obtain ⟨z, z1, z2⟩ := Outcome.bind_eq_ok.1 y2
    simp only [Outcome.pure_eq, Outcome.ok.injEq, Prod.mk.injEq] at z2
    rw [← z2.1]
    cases hr : refine with
    | none =>
      rw [hr] at y1
      simp only [ReproErr.refineStep, Outcome.ok.injEq] at y1
      rw [← y1]
      exact ⟨hpose, hmap⟩
    | some f =>
      rw [hr] at y1
      have y1 : f _ = .ok y := y1
      obtain ⟨⟨est', pr', pix', r1, r2, _⟩, r3⟩ := hk f (by rw [hr]; rfl) _ hpose
      refine ⟨r3 y.1 y.2 y1, ?_⟩
      rw [r1] at y1
      cases y1
      rw [r2, hmap]
  refine ⟨bp, op, ⟨_, h1, hx.2⟩, ?_, h3, h4⟩
  intro i a ha
  have hi : s.obs[i]? = some a.obs := by
    rw [hobs, List.getElem?_map, ha]
    rfl
  rw [← hx.2, List.getElem?_map] at hi
  obtain ⟨y, y1, y2⟩ := Option.map_eq_some_iff.1 hi
  obtain ⟨hlt, rfl⟩ := List.getElem?_eq_some_iff.1 y1
  rw [h2 i hlt, hx.1 _ (List.getElem_mem hlt), y2]

include hl hs hb hdet hB hBE hS hF hE hp hm hthrow hfish in
/-- C84: from exact pixels to exact results. The corners are detected where the cameras see them, every detection allows
only one pose of its board, and the pose searches are exact on exact data (C84_searches). Then, whatever the remaining
numerical parts are as long as they keep true poses, the calibration ends, all
reports are written, the errors they give are all 0, and cameras and corners in the files have their true positions. -/
theorem C84_reports [Inhabited Pt] [Zero K] [One K] (hk : KeepsViews w pr refine)
    (hR : ∀ bp op, (∀ (i : Nat) a, l[i]? = some a → bp i = seenAt w a.obs) →
      Estimates e { n with boardPose := bp } bpts s s.obs op →
      Remaining w e { n with boardPose := bp, objPose := op } fix bpts s s.obs)
    (hsim : Simple G l s.obs) (hne : l ≠ [])
    (en : Finish.Env V G Pt K Path Img) (hmodel : ∀ c < nCam, en.model c = 0 ∨ en.model c = 1)
    (hof : en.ofVec = n.ofVec)
    (hbr : ∀ c g ps, ps ≠ [] → en.projBrown c g ps = .ok (ps.map fun p => pix c (g • p)))
    (hka : ∀ c g ps, ps ≠ [] → en.projKannala c g ps = .ok (ps.map fun p => pix c (g • p)))
    (hcams : ∀ c ∈ observingCams nCam l, ∃ cam sz, en.cams[c]? = some cam ∧ cam.size = some sz) :
    ∃ r rep ref bref, Program.calibrate search refine pr e n fix bpts s = .ok r ∧
      Finish.report en bpts s.frames r = .ok rep ∧
      Props.Finish.Correct en bpts s.frames r (Props.Finish.readingOf r en.ofVec pix) rep ∧ Truthful w bpts rep ref bref ∧ References r.1 ref bref := by
  obtain ⟨bp, op, -, h1, h2, h3⟩ := C84_calibration nCam nBoard l hl s hs bpts hb w pix hdet search hB hBE e hS hF hE pr hp hm
    hthrow hfish refine n fix hk
  have hobs := (store_desc nCam nBoard l hl s hs).obs
  have hdet' : ∀ bo ∈ s.obs, ExactDetection w pix bpts bo := by
    intro bo hbo
    rw [hobs] at hbo
    obtain ⟨a, ha, rfl⟩ := List.mem_map.1 hbo
    exact hdet a ha
  have hsame : SameViews s.obs s.obs := ⟨rfl, fun bo hbo => (hdet' bo hbo).aligned⟩
  have hR' := hR bp op h1 h2
  have hx := exact_of nCam nBoard l hl s hs s.obs hsame bpts hb w pix hdet' e hE { n with boardPose := bp } fix h1 op h2 hR'
  have hy := tail_of nCam nBoard l hl s hs s.obs hsame bpts hb w pix hdet' e hE { n with boardPose := bp } fix op h2 hR'
  obtain ⟨r, rep, ref, bref, q1, q2⟩ := C81_reports nCam nBoard l hl s hs s.obs hsame bpts hb
    { n with boardPose := bp, objPose := op } fix w en hmodel hof pix hbr hka (by
      rintro c f b k p ⟨bo, hbo, rfl, rfl, rfl, hpk⟩
      obtain ⟨ps, x, x1, x2, x3⟩ := (hdet' bo hbo).exact p k hpk
      refine ⟨ps, x, x1, x2, ?_⟩
      rw [x3]
      unfold seenAt
      rw [mul_smul, mul_smul]) hx hy ⟨hR'.refine6, hR'.last⟩ hsim hR'.star hR'.sym hcams (by
      obtain ⟨a, ha⟩ := List.exists_mem_of_ne_nil l hne
      have := (hdet a ha).four
      exact ⟨a.obs, by rw [hobs]; exact List.mem_map_of_mem ha, fun h => by simp [h] at this⟩)
  exact ⟨r, rep, ref, bref, h3.trans q1, q2⟩

end
end Verif.Props.Pixels
