import Verif.Lemmas.Rooted

/-! C84, when all boards and all cameras are linked: the remaining numerical parts have to give one set of true poses. -/
namespace Verif.Props.Pixels
open Verif Verif.Objects Verif.Groups Verif.NonOverlap Verif.Pipeline Verif.Ransac Verif.Program
open Verif.Spec.Pixels Verif.Spec.Exact Verif.Spec.Objects Verif.Spec.Groups Verif.Spec.Finish Verif.Spec.Program Verif.Spec.Pipeline
open Verif.Lemmas.Program Verif.Lemmas.Pipeline Verif.Lemmas.Rooted
open Verif.Props.Exact Verif.Props.ExactReport Verif.Props.Outliers Verif.Props.Program

variable {V G Pt P Path : Type}

/-- The numerical parts other than pose estimation, for one rigid object with first board `b0` seen by one group with
first camera `c0`: averages of equal poses are that pose, all refinements end at the true poses, hand-eye calibration
is exact. -/
structure TrueNumerics [Group G] (w : World G) (b0 c0 : Nat) (e : Estimator Pt P G) (n : Numerics V G) : Prop where
  avg : ∀ (zs : List G) x, zs ≠ [] → (∀ z ∈ zs, z = x) → n.avg zs = x
  avgV : ∀ (zs : List V) x, zs ≠ [] → (∀ z ∈ zs, z = x) → n.avgV zs = x
  vec : ∀ g, n.ofVec (n.toVec g) = g
  /-- the refinement of the objects alone keeps true poses of the views -/
  refined : ∀ ps, (∀ p ∈ ps, ∃ c f, p = w.cam c * (w.motion f * w.board b0)) → e.refined ps = ps
  board : ∀ k i b, n.board k i b = (w.board b0)⁻¹ * w.board b
  cam : ∀ k i c, n.cam k i c = w.cam c * (w.cam c0)⁻¹
  inGroup : ∀ k i f j, n.ofVec (n.inGroup k i f j) = w.cam c0 * (w.motion f * w.board b0)
  he : Solves n.he

section
variable [Group G] [MulAction G Pt] [DecidableEq P] (nCam nBoard : Nat) (l : List (Insertion P Path))
  (hl : ∀ a ∈ l, a.obs.cam < nCam ∧ a.obs.board < nBoard) (s : Store P Path)
  (hs : Store.run nCam nBoard l = .ok s) (obs : List (BoardObs P))
  (hobs : Spec.Objects.SameViews s.obs obs) (hsome : ∃ bo ∈ obs, bo.pts ≠ []) (bpts : List (List Pt)) (hb : bpts.length = nBoard)
  (w : World G) {b0 c0 : Nat}
  (hbl : ∀ b ∈ Spec.Objects.observedBoards nBoard l, b0 ≤ b)
  (hboards : ∀ b ∈ Spec.Objects.observedBoards nBoard l, Relation.ReflTransGen (CoSeen l) b b0)
  (hc0 : c0 ∈ observingCams nCam l) (hcl : ∀ c ∈ observingCams nCam l, c0 ≤ c)
  (hcams : ∀ c ∈ observingCams nCam l, Relation.ReflTransGen (CamsLinked l obs) c c0)
  (e : Estimator Pt P G) (n : Numerics V G) (fix : Int)

omit [MulAction G Pt] [DecidableEq P] in
theorem inGroup_true [SMul G Pt] {bpts : List (List Pt)} {frames : List Nat} (hin : ∀ k i f j, n.ofVec (n.inGroup k i f j) = w.cam c0 * (w.motion f * w.board b0))
    (k : Nat) {st : State G Pt P} (hC : Consistent bpts frames obs st) (hr : BoardRoot b0 B st.objs) (hg : CamRoot c0 st.t.groups) :
    InGroupTrue w n k st := by
  intro i g j o f hg' ho _
  rw [hin, hg.ref hC.groups hg', hr.ref hC.objs ho]

include hl hs hobs hsome hb hbl hboards hc0 hcl hcams in
/-- Such numerical parts keep true poses at all stages. -/
theorem remaining (hn : TrueNumerics w b0 c0 e n) : Remaining w e n fix bpts s obs where
  avg := hn.avg
  avgV := hn.avgV
  vec := hn.vec
  refine0 := by
    intro objs h1 _ objs' h2
    obtain ⟨objs0, oo, objs0', g1, g2, g3, hC, hM, hcl', hp, hg⟩ := first nCam nBoard l hl s hs obs hobs bpts hb n
    rw [h1] at g1
    cases g1
    exact boards_true hn.board 0 hC (boards_root nBoard l hbl hboards hC.sorted hp) h2
  refined := by
    intro objs oo ps h1 h2 hlen hT
    obtain ⟨objs0, oo0, objs0', g1, g2, g3, hC, hM, hcl', hp, hg⟩ := first nCam nBoard l hl s hs obs hobs bpts hb n
    rw [h1] at g1
    cases g1
    rw [h2] at g2
    cases g2
    refine hn.refined ps fun p hp' => ?_
    obtain ⟨i, hi, rfl⟩ := List.getElem_of_mem hp'
    obtain ⟨ob, ho1, _⟩ := hM oo[i] (List.getElem_mem (hlen ▸ hi))
    have := hT i oo[i] ob (List.getElem?_eq_getElem (hlen ▸ hi)) ho1
    rw [poseAt_lt ps i hi, (boards_root nBoard l hbl hboards hC.sorted hp).ref hC ho1] at this
    exact ⟨_, _, this⟩
  refine1 := by
    intro r hr st hst
    obtain ⟨a1, a2, a3⟩ := place_root nCam nBoard l hl s hs obs hobs bpts hb n hbl hboards hcl hcams r hr st hst
    exact keeps hn.board hn.cam 1 a1 a2 a3
  refine2 := by
    intro r hr st hst st' hst'
    obtain ⟨a1, a2, a3⟩ := joined_root nCam nBoard l hl s hs obs hobs bpts hb n hbl hboards hcl hcams r hr st hst st' hst'
    exact keeps hn.board hn.cam 2 a1 a2 a3
  inGroup := by
    intro st hst _
    obtain ⟨a1, a2, a3⟩ := overlapping_root nCam nBoard l hl s hs obs hobs bpts hb n hbl hboards hcl hcams st hst
    exact inGroup_true obs w n hn.inGroup 2 a1 a2 a3
  he := hn.he
  star := by
    intro st hst
    obtain ⟨a1, a2, a3⟩ := overlapping_root nCam nBoard l hl s hs obs hobs bpts hb n hbl hboards hcl hcams st hst
    exact ⟨fun i j gi gj hi hj hne _ => absurd (a3.unique a1.groups hi hj) hne,
      fun j g0 gj h0 hj hne _ => absurd (a3.unique a1.groups h0 hj) (fun e => hne e.symm),
      fun i j gi gj hi hj hne _ => absurd (a3.unique a1.groups hi hj) hne⟩
  sym := by
    intro st hst pp hpp a b hab
    obtain ⟨a1, a2, a3⟩ := overlapping_root nCam nBoard l hl s hs obs hobs bpts hb n hbl hboards hcl hcams st hst
    rw [none_found nCam nBoard l hl s hs obs hobs bpts n st a1 a3 pp hpp] at hab
    cases hab
  refine4 := by
    intro st hst pp hpp st1 h1 st2 h2
    obtain ⟨a1, a2, a3⟩ := overlapping_root nCam nBoard l hl s hs obs hobs bpts hb n hbl hboards hcl hcams st hst
    obtain ⟨b1, b2, b3⟩ := merged_root nCam nBoard l hl s hs obs hobs bpts n st a1 a2 a3
      (inv_of nCam nBoard l hl s hs obs hobs bpts hb n st hst) pp hpp st1 h1 st2 h2
    exact keeps hn.board hn.cam 4 b1 b2 b3
  refine5 := by
    intro st hst pp hpp st3 h3 st4 h4
    obtain ⟨b1, b2, b3⟩ := second_root nCam nBoard l hl s hs obs hobs bpts hb n hbl hboards hcl hcams hsome hc0 st hst pp hpp
      st3 h3 st4 h4
    exact keeps hn.board hn.cam 5 b1 b2 b3
  refine6 := by
    intro _ st hst
    obtain ⟨b1, b2, b3⟩ := workflow_root nCam nBoard l hl s hs obs hobs bpts hb n hbl hboards hcl hcams hsome hc0 st hst
    exact keeps hn.board hn.cam 6 b1 b2 b3
  last := by
    intro r hr _
    obtain ⟨b1, b2, b3⟩ := run_root nCam nBoard l hl s hs obs hobs bpts hb n hbl hboards hcl hcams hsome hc0 fix r hr
    exact inGroup_true obs w n hn.inGroup _ b1 b2 b3

end

section
variable {K K' Img : Type} [Group G] [MulAction G Pt] [Field K'] [LinearOrder K'] (nCam nBoard : Nat)
  (l : List (Insertion (ℝ × ℝ) Path))
  (hl : ∀ a ∈ l, a.obs.cam < nCam ∧ a.obs.board < nBoard) (s : Store (ℝ × ℝ) Path)
  (hs : Store.run nCam nBoard l = .ok s) (bpts : List (List Pt)) (hb : bpts.length = nBoard)
  (w : World G) (pix : Nat → Pt → ℝ × ℝ) (hdet : ∀ a ∈ l, ExactDetection w pix bpts a.obs)
  (search : Search Pt (ℝ × ℝ) G) (hB : Sound search) (hBE : ExactSearch pix search)
  (e : Estimator Pt (ℝ × ℝ) G) (hS : ∀ k, Sound (e.search k)) (hF : ∀ k, Fails (e.search k))
  (hE : ∀ k, ExactSearch pix (e.search k))
  (pr : ReproErr.Projection (ℝ × ℝ) G Pt K') (hp : Spec.ReproErr.Pointwise pr fun c g p => pix c (g • p))
  (hm : ∀ c, pr.model c = 0 ∨ pr.model c = 1)
  (hthrow : ∀ c g, pr.brown c g [] = .throw) (hfish : ∀ c g, pr.kannala c g [] = .ok [] ∨ pr.kannala c g [] = .throw)
  (refine : Option (List (Estimated (ℝ × ℝ) G) → Outcome (List (Estimated (ℝ × ℝ) G) × ReproErr.Projection (ℝ × ℝ) G Pt K')))
  (n : Numerics V G) (fix : Int)

include hl hs hb hdet hB hBE hS hF hE hp hm hthrow hfish in
/-- C84, for one rigid object and cameras with common views: if chains of images showing two boards link all boards to
the first, and common views link all cameras to the first, exact pixels give exact results: the calibration ends, all
reports are written, their errors are all 0, and cameras and corners in the files have their true positions. -/
theorem C84_single [Inhabited Pt] [Zero K] [One K] (hk : KeepsViews w pr refine) {b0 c0 : Nat}
    (hbl : ∀ b ∈ Spec.Objects.observedBoards nBoard l, b0 ≤ b)
    (hboards : ∀ b ∈ Spec.Objects.observedBoards nBoard l, Relation.ReflTransGen (CoSeen l) b b0)
    (hc0 : c0 ∈ observingCams nCam l) (hcl : ∀ c ∈ observingCams nCam l, c0 ≤ c)
    (hcams : ∀ c ∈ observingCams nCam l, Relation.ReflTransGen (CamsLinked l (l.map (·.obs))) c c0)
    (hn : TrueNumerics w b0 c0 e n) (hsim : Simple G l (l.map (·.obs)))
    (en : Finish.Env V G Pt K Path Img) (hmodel : ∀ c < nCam, en.model c = 0 ∨ en.model c = 1)
    (hof : en.ofVec = n.ofVec)
    (hbr : ∀ c g ps, ps ≠ [] → en.projBrown c g ps = .ok (ps.map fun p => pix c (g • p)))
    (hka : ∀ c g ps, ps ≠ [] → en.projKannala c g ps = .ok (ps.map fun p => pix c (g • p)))
    (hcam : ∀ c ∈ observingCams nCam l, ∃ cam sz, en.cams[c]? = some cam ∧ cam.size = some sz) :
    ∃ r rep ref bref, Program.calibrate search refine pr e n fix bpts s = .ok r ∧
      Finish.report en bpts s.frames r = .ok rep ∧
      Props.Finish.Correct en bpts s.frames r (Props.Finish.readingOf r en.ofVec pix) rep ∧ Truthful w bpts rep ref bref ∧ References r.1 ref bref := by
  have hobs := (store_desc nCam nBoard l hl s hs).obs
  have hdet' : ∀ bo ∈ s.obs, ExactDetection w pix bpts bo := by
    intro bo hbo
    rw [hobs] at hbo
    obtain ⟨a, ha, rfl⟩ := List.mem_map.1 hbo
    exact hdet a ha
  have hsame : SameViews s.obs s.obs := ⟨rfl, fun bo hbo => (hdet' bo hbo).aligned⟩
  rw [← hobs] at hcams hsim
  obtain ⟨a, ha, _⟩ : ∃ a ∈ l, a.obs.cam = c0 := by
    have := (List.mem_filter.1 hc0).2
    obtain ⟨a, ha, he⟩ := List.any_eq_true.1 this
    exact ⟨a, ha, beq_iff_eq.1 he⟩
  refine C84_reports nCam nBoard l hl s hs bpts hb w pix hdet search hB hBE e hS hF hE pr hp hm hthrow hfish refine n fix
    hk (fun bp op h1 h2 => ?_) hsim
    (List.ne_nil_of_mem ha) en hmodel hof hbr hka hcam
  refine remaining nCam nBoard l hl s hs s.obs hsame ⟨a.obs, by rw [hobs]; exact List.mem_map_of_mem ha, fun h => ?_⟩ bpts hb w
    hbl hboards hc0 hcl hcams e { n with boardPose := bp, objPose := op } fix ⟨hn.avg, hn.avgV, hn.vec, hn.refined, hn.board, hn.cam, hn.inGroup, hn.he⟩
  have := (hdet a ha).four
  rw [h] at this
  exact absurd this (by decide)

end
end Verif.Props.Pixels
