import Verif.Lemmas.RigsMerge
import Verif.Props.PixelFiles

/-! C93: rigs of cameras without common views, each with its own target, from exact pixels to exact files. -/
namespace Verif.Props.Rigs
open Verif Verif.Objects Verif.Groups Verif.NonOverlap Verif.Pipeline Verif.Ransac Verif.Program
open Verif.Spec.Pixels Verif.Spec.Exact Verif.Spec.Objects Verif.Spec.Groups Verif.Spec.Finish Verif.Spec.Program Verif.Spec.Pipeline
open Verif.Lemmas.Program Verif.Lemmas.Pipeline Verif.Lemmas.Rooted Verif.Spec.Whole Verif.Spec.Rigs
open Verif.Props.Exact Verif.Props.ExactReport Verif.Props.Outliers Verif.Props.Program Verif.Props.Pixels
open Verif.Lemmas.Rigs

variable {V G Pt P Path : Type}

/-- The numerical parts other than pose estimation, for rigs with a target each: averages of equal poses are that
pose, hand-eye calibration is exact, and all refinements end at the true poses, which are those of separate rigs and
targets in the refinements before the hand-eye calibration (numbers 0, 1, 2), and those of one rig and one target
after it (4, 5, 6). -/
structure RigNumerics [Group G] (w : World G) (fc fb : Nat → Nat) (c0 b0 : Nat) (cs bs : List Nat) (e : Estimator Pt P G)
    (n : Numerics V G) : Prop where
  avg : ∀ (zs : List G) x, zs ≠ [] → (∀ z ∈ zs, z = x) → n.avg zs = x
  avgV : ∀ (zs : List V) x, zs ≠ [] → (∀ z ∈ zs, z = x) → n.avgV zs = x
  vec : ∀ g, n.ofVec (n.toVec g) = g
  /-- the refinement of the objects alone keeps true poses of the views -/
  refined : ∀ ps, (∀ p ∈ ps, ∃ c f b, p = w.cam c * (w.motion f * w.board b)) → e.refined ps = ps
  board : ∀ k ≤ 2, ∀ i b, n.board k i b = (w.board (fb b))⁻¹ * w.board b
  cam : ∀ k ≤ 2, ∀ i c, n.cam k i c = w.cam c * (w.cam (fc c))⁻¹
  /-- the poses of the targets in the rigs, with groups and objects numbered as their first cameras and boards -/
  inGroup : ∀ (i j c b : Nat), (c0 :: cs)[i]? = some c → (b0 :: bs)[j]? = some b → ∀ f,
    n.ofVec (n.inGroup 2 i f j) = w.cam c * (w.motion f * w.board b)
  board_last : ∀ k ≥ 4, ∀ i b, n.board k i b = (w.board b0)⁻¹ * w.board b
  cam_last : ∀ k ≥ 4, ∀ i c, n.cam k i c = w.cam c * (w.cam c0)⁻¹
  inGroup_last : ∀ k ≥ 5, ∀ i f j, n.ofVec (n.inGroup k i f j) = w.cam c0 * (w.motion f * w.board b0)
  he : Solves n.he

section
variable [Group G] [MulAction G Pt] [DecidableEq P] (nCam nBoard : Nat) (l : List (Insertion P Path))
  (hl : ∀ a ∈ l, a.obs.cam < nCam ∧ a.obs.board < nBoard) (s : Store P Path)
  (hs : Store.run nCam nBoard l = .ok s) (hpts : ∀ a ∈ l, a.obs.pts ≠ [])
  (hobs : SameViews s.obs s.obs) (bpts : List (List Pt)) (hb : bpts.length = nBoard) (w : World G)
  {fc fb : Nat → Nat} {c0 b0 : Nat} {cs bs : List Nat} (hT : Rigs nCam nBoard l fc fb (c0 :: cs) (b0 :: bs))
  (hJ : Around w l fc c0 cs)
  (e : Estimator Pt P G) (n : Numerics V G) (fix : Int)

omit [DecidableEq P] in
theorem keeps_joined {k : Nat} {st : State G Pt P} {frames : List Nat} {obs : List (BoardObs P)} {B : List Nat}
    (hn : RigNumerics w fc fb c0 b0 cs bs e n) (hk : 4 ≤ k)
    (h : Consistent bpts frames obs st ∧ BoardRoot b0 B st.objs ∧ CamRoot c0 st.t.groups) : Keeps w n k bpts st :=
  Lemmas.Rigs.keeps (fb := fun _ => b0) (fc := fun _ => c0) k (hn.board_last k hk) (hn.cam_last k hk) h.1
    (BoardsBy.of_root h.2.1) (CamsBy.of_root h.2.2)

include hl hs hobs hb hT hpts hJ in
/-- Such numerical parts keep true poses at all stages. -/
theorem remaining (hn : RigNumerics w fc fb c0 b0 cs bs e n) : Remaining w e n fix bpts s s.obs where
  avg := hn.avg
  avgV := hn.avgV
  vec := hn.vec
  refine0 := by
    intro objs h1 _ objs' h2
    obtain ⟨objs0, oo, objs0', g1, g2, g3, hC, hM, hcl', hp, hg⟩ := first nCam nBoard l hl s hs s.obs hobs bpts hb n
    rw [h1] at g1
    cases g1
    exact Lemmas.Rigs.boards_true 0 (hn.board 0 (by decide)) hC (boards_by hT hC.sorted hp) h2
  refined := by
    intro objs oo ps h1 h2 hlen hT'
    obtain ⟨objs0, oo0, objs0', g1, g2, g3, hC, hM, hcl', hp, hg⟩ := first nCam nBoard l hl s hs s.obs hobs bpts hb n
    rw [h1] at g1
    cases g1
    rw [h2] at g2
    cases g2
    refine hn.refined ps fun p hp' => ?_
    obtain ⟨i, hi, rfl⟩ := List.getElem_of_mem hp'
    obtain ⟨ob, ho1, _⟩ := hM oo[i] (List.getElem_mem (hlen ▸ hi))
    have := hT' i oo[i] ob (List.getElem?_eq_getElem (hlen ▸ hi)) ho1
    rw [poseAt_lt ps i hi] at this
    exact ⟨_, _, _, this⟩
  refine1 := by
    intro r hr st hst
    obtain ⟨a1, a2, a3⟩ := place_apart nCam nBoard l hl s hs hobs bpts hb n hT r hr st hst
    exact Lemmas.Rigs.keeps 1 (hn.board 1 (by decide)) (hn.cam 1 (by decide)) a1 a2 a3
  refine2 := by
    intro r hr st hst st' hst'
    obtain ⟨⟨a1, a2, a3⟩, -⟩ := joined_apart nCam nBoard l hl s hs hobs bpts hb n hT r hr st hst st' hst'
    exact Lemmas.Rigs.keeps 2 (hn.board 2 (by decide)) (hn.cam 2 (by decide)) a1 a2 a3
  inGroup := by
    intro st hst _ i g j o f hg ho _
    have hB := table nCam nBoard l hl s hs hpts hobs bpts hb n hT st hst
    exact hn.inGroup i j _ _ (hB.groups i g hg) (hB.objects j o ho) f
  he := hn.he
  star := star nCam nBoard l hl s hs hpts hobs bpts hb n hT hJ
  sym := by
    intro st hst pp hpp a b hab
    exact (symmetric nCam nBoard l hl s hs hpts hobs bpts hb n hT st hst pp hpp a b hab).2
  refine4 := by
    intro st hst pp hpp st1 h1 st2 h2
    exact keeps_joined bpts w e n hn (by decide) (merged nCam nBoard l hl s hs hpts hobs bpts hb n hT hJ st hst pp hpp st1 h1 st2 h2)
  refine5 := by
    intro st hst pp hpp st3 h3 st4 h4
    exact keeps_joined bpts w e n hn (by decide) (second nCam nBoard l hl s hs hpts hobs bpts hb n hT hJ st hst pp hpp st3 h3 st4 h4)
  refine6 := by
    intro _ st hst
    exact keeps_joined bpts w e n hn (by decide) (workflow_joined nCam nBoard l hl s hs hpts hobs bpts hb n hT hJ st hst)
  last := by
    intro r hr _ i g j o f hg ho _
    obtain ⟨b1, b2, b3⟩ := run_joined nCam nBoard l hl s hs hpts hobs bpts hb n hT hJ fix r hr
    rw [hn.inGroup_last _ (by split <;> decide), b3.ref b1.groups hg, b2.ref b1.objs ho]

end

section
variable {K K' Img : Type} [Group G] [MulAction G Pt] [Field K'] [LinearOrder K'] (nCam nBoard : Nat)
  (l : List (Insertion (ℝ × ℝ) Path))
  (hl : ∀ a ∈ l, a.obs.cam < nCam ∧ a.obs.board < nBoard) (s : Store (ℝ × ℝ) Path)
  (hs : Store.run nCam nBoard l = .ok s) (bpts : List (List Pt)) (hb : bpts.length = nBoard)
  (w : World G) (pix : Nat → Pt → ℝ × ℝ) (hdet : ∀ a ∈ l, ExactDetection w pix bpts a.obs)
  (search : Search Pt (ℝ × ℝ) G) (hB : Sound search) (hBE : ExactSearch pix search)
  (e : Estimator Pt (ℝ × ℝ) G) (hS : ∀ k, Sound (e.search k)) (hF : ∀ k, Fails (e.search k))
  (hE : ∀ k, ExactSearch pix (e.search k))
  (pr : ReproErr.Projection (ℝ × ℝ) G Pt K') (hp : Spec.ReproErr.Pointwise pr fun c g p => pix c (g • p))
  (hm : ∀ c, pr.model c = 0 ∨ pr.model c = 1)
  (hthrow : ∀ c g, pr.brown c g [] = .throw) (hfish : ∀ c g, pr.kannala c g [] = .ok [] ∨ pr.kannala c g [] = .throw)
  (refine : Option (List (Estimated (ℝ × ℝ) G) → Outcome (List (Estimated (ℝ × ℝ) G) × ReproErr.Projection (ℝ × ℝ) G Pt K')))
  (n : Numerics V G) (fix : Int)

include hl hs hb hdet hB hBE hS hF hE hp hm hthrow hfish in
/-- C93: several rigs of cameras look at a target each, and no camera of one rig ever sees the target of another. If each
rig has detections together with the first one in at least six frames, the motions of the targets between these frames
have no common axis, and no two rigs have detections together in exactly four or five frames, exact pixels give exact
files: the calibration ends, all reports are written, all errors are 0, the parameter file has the true pose of every
camera of all rigs with respect to the first camera, and the file of objects has one object with the true position of
every corner of all targets with respect to the first board. -/
theorem C93_files [Inhabited Pt] [Zero K] [One K] (hk : KeepsViews w pr refine) {fc fb : Nat → Nat} {c0 b0 : Nat}
    {cs bs : List Nat} (hT : Rigs nCam nBoard l fc fb (c0 :: cs) (b0 :: bs)) (hJ : Around w l fc c0 cs)
    (hn : RigNumerics w fc fb c0 b0 cs bs e n) (hsim : Simple G l (l.map (·.obs)))
    (en : Finish.Env V G Pt K Path Img) (hmodel : ∀ c < nCam, en.model c = 0 ∨ en.model c = 1)
    (hof : en.ofVec = n.ofVec)
    (hbr : ∀ c g ps, ps ≠ [] → en.projBrown c g ps = .ok (ps.map fun p => pix c (g • p)))
    (hka : ∀ c g ps, ps ≠ [] → en.projKannala c g ps = .ok (ps.map fun p => pix c (g • p)))
    (hcam : ∀ c ∈ observingCams nCam l, ∃ cam sz, en.cams[c]? = some cam ∧ cam.size = some sz) :
    ∃ x r rep, ReproErr.initIntrinsic search e.garbage bpts s.obs refine pr = .ok x ∧ x.1.map (·.obs) = s.obs ∧
      Program.calibrate search refine pr e n fix bpts s = .ok r ∧ Finish.report en bpts s.frames r = .ok rep ∧
      Props.Finish.Correct en bpts s.frames r (Props.Finish.readingOf r en.ofVec pix) rep ∧
      Calibrated w bpts nCam nBoard l c0 b0 rep := by
  have hobs := (store_desc nCam nBoard l hl s hs).obs
  have hpts : ∀ a ∈ l, a.obs.pts ≠ [] := fun a ha h => by
    have := (hdet a ha).four
    rw [h] at this
    exact absurd this (by decide)
  obtain ⟨a0, ha0, _⟩ := hT.seeing c0 (by simp)
  have hne := List.ne_nil_of_mem ha0
  have hsame : SameViews s.obs s.obs := ⟨rfl, fun bo hbo => by
    rw [hobs] at hbo
    obtain ⟨a, ha, rfl⟩ := List.mem_map.1 hbo
    exact (hdet a ha).aligned⟩
  rw [← hobs] at hsim
  obtain ⟨r, rep, ref, bref, r1, r2, r3, r4, r5⟩ := C84_reports nCam nBoard l hl s hs bpts hb w pix hdet search hB hBE e hS hF hE
    pr hp hm hthrow hfish refine n fix hk (fun bp op _ _ => remaining nCam nBoard l hl s hs hpts hsame bpts hb w hT hJ e
      { n with boardPose := bp, objPose := op } fix ⟨hn.avg, hn.avgV, hn.vec, hn.refined, hn.board, hn.cam, hn.inGroup,
        hn.board_last, hn.cam_last, hn.inGroup_last, hn.he⟩)
    hsim hne en hmodel hof hbr hka hcam
  obtain ⟨bp, op, ⟨x, x1, x2⟩, h1, h2, h3⟩ := C84_calibration nCam nBoard l hl s hs bpts hb w pix hdet search hB hBE e hS hF hE
    pr hp hm hthrow hfish refine n fix hk
  rw [r1] at h3
  obtain ⟨q1, q2, q3⟩ := run_joined nCam nBoard l hl s hs hpts hsame bpts hb { n with boardPose := bp, objPose := op } hT hJ
    fix r h3.symm
  exact ⟨x, r, rep, x1, x2, r1, r2, r3, calibrated_of hobs hne hpts hl
    (Props.Finish.C76_tables nCam nBoard l hl s hs s.obs hsame bpts hb _ fix r h3.symm) q2 q3
    (Props.Finish.ends nCam nBoard l hl s hs s.obs hsame bpts hb _ fix r h3.symm).1.known r3 r4 r5
    fun o ho => by
      have hE := (Props.Finish.ends nCam nBoard l hl s hs s.obs hsame bpts hb _ fix r h3.symm).1
      obtain ⟨_, _, v2, v3, _⟩ := Lemmas.FinishRun.ids_ok s s.obs hsame bpts hE (Lemmas.Pixels.count_of (w := w) (pix := pix) fun bo hbo => by
        rw [hobs] at hbo
        obtain ⟨a, ha, rfl⟩ := List.mem_map.1 hbo
        exact hdet a ha) ho
      exact ⟨v3, v2⟩⟩

end
end Verif.Props.Rigs
