import Verif.Props.PixelSingle
import Verif.Spec.Whole

/-! C84 with all boards and cameras linked: the files are complete. -/
namespace Verif.Props.Pixels
open Verif Verif.Objects Verif.Groups Verif.NonOverlap Verif.Pipeline Verif.Ransac Verif.Program
open Verif.Spec.Pixels Verif.Spec.Exact Verif.Spec.Objects Verif.Spec.Groups Verif.Spec.Finish Verif.Spec.Program Verif.Spec.Pipeline
open Verif.Lemmas.Program Verif.Lemmas.Pipeline Verif.Lemmas.Rooted Verif.Spec.Whole
open Verif.Props.Exact Verif.Props.ExactReport Verif.Props.Outliers Verif.Props.Program

variable {V G Pt P Path : Type}

section
variable {K Img : Type} [Group G] [MulAction G Pt]

/-- Corners of the boards of an object, each once. -/
theorem corners_nodup (bpts : List (List Pt)) (o : Object G Pt) (h : (OMap.keys o.boards).Nodup) :
    (OutputObjects.corners bpts o).Nodup := by
  unfold OutputObjects.corners
  rw [List.nodup_flatMap]
  refine ⟨fun b _ => (List.nodup_range).map fun x y e => (Prod.mk.inj e).2, h.imp fun hne => ?_⟩
  intro x hx hy
  obtain ⟨_, _, rfl⟩ := List.mem_map.1 hx
  obtain ⟨_, _, e⟩ := List.mem_map.1 hy
  exact hne (Prod.mk.inj e).1.symm

/-- From tables with one object and one group to complete files. -/
theorem calibrated_of [Zero K] [One K] {w : World G} {bpts : List (List Pt)} {nCam nBoard : Nat} {l : List (Insertion (ℝ × ℝ) Path)}
    {frames : OMap Nat (FrameRec Path)} {obs : List (BoardObs (ℝ × ℝ))} {c0 b0 : Nat}
    {r : State G Pt (ℝ × ℝ) × OMap (Nat × Nat) (OMap Nat V)} {en : Finish.Env V G Pt K Path Img}
    {rd : Spec.Report.Reading G Pt} {rep : Finish.Reports V G Pt K Img}
    (hobs : obs = l.map (·.obs)) (hne : l ≠ []) (hpts : ∀ a ∈ l, a.obs.pts ≠ [])
    (hl : ∀ a ∈ l, a.obs.cam < nCam ∧ a.obs.board < nBoard)
    (hE : Complete bpts (OMap.keys frames) obs r.1) (hr : BoardRoot b0 (observedBoards nBoard l) r.1.objs)
    (hg : CamRoot c0 r.1.t.groups) (hfrom : Lemmas.FinishRun.CamsFrom (observingCams nCam l) r.1.t.groups)
    (hc : Props.Finish.Correct en bpts frames r rd rep) {ref : Nat} {bref : Nat → Nat}
    (hT : Truthful w bpts rep ref bref) (hR : References r.1 ref bref)
    (hvis : ∀ o ∈ r.1.oo, o.ids ≠ [] ∧ o.pts.length = o.ids.length) : Calibrated w bpts nCam nBoard l c0 b0 rep := by
  have hC := hE.consistent
  obtain ⟨⟨g, hg0, rfl⟩, hb⟩ := hR
  have hmem : ∀ a ∈ l, a.obs ∈ obs := fun a ha => by rw [hobs]; exact List.mem_map_of_mem ha
  have hback : ∀ bo ∈ obs, ∃ a ∈ l, a.obs = bo := fun bo hbo => by rw [hobs] at hbo; exact List.mem_map.1 hbo
  have hone : ∀ i g', OMap.get? r.1.t.groups i = some g' → i = 0 ∧ g' = g := by
    intro i g' hg'
    have := hg.unique hC.groups hg' hg0
    subst this
    rw [hg0] at hg'
    cases hg'
    exact ⟨rfl, rfl⟩
  obtain ⟨a0, ha0⟩ := List.exists_mem_of_ne_nil l hne
  obtain ⟨i, o, ho, _⟩ := hE.boards _ (hmem a0 ha0) (hpts a0 ha0)
  have hobj : ∀ j o', OMap.get? r.1.objs j = some o' → j = i ∧ o' = o := by
    intro j o' ho'
    have := hC.objs.disjoint j i o' o ho' ho b0 (hr j o' ho').1 (hr i o ho).1
    subst this
    rw [ho] at ho'
    cases ho'
    exact ⟨rfl, rfl⟩
  have hkeys : OMap.keys r.1.objs = [i] := by
    have h1 : ∀ j ∈ OMap.keys r.1.objs, j = i := fun j hj => by
      obtain ⟨o', ho'⟩ := OMap.mem_keys.1 hj
      exact (hobj j o' ho').1
    have h2 := OMap.keys_nodup hC.objs.sorted
    have h3 : i ∈ OMap.keys r.1.objs := OMap.mem_keys.2 ⟨o, ho⟩
    generalize OMap.keys r.1.objs = ks at h1 h2 h3
    match ks, h1, h2, h3 with
    | [x], h1, _, _ => rw [h1 x (by simp)]
    | x :: y :: _, h1, h2, _ =>
      have e1 := h1 x (by simp)
      have e2 := h1 y (by simp)
      simp [e1, e2] at h2
  have hbref : bref i = b0 := by rw [← hb i o ho]; exact hr.ref hC.objs ho
  have hgref : g.refCam = c0 := hg.ref hC.groups hg0
  refine ⟨?_, fun c => ?_, ?_, fun a ha => ?_, ?_⟩
  · refine ⟨hT.average, hT.errors, hT.log, fun c node h => hgref ▸ hT.cameras c node h, fun j cols hj x hx => ?_⟩
    have hji : j = i := by
      obtain ⟨cs, c1, _⟩ := hc.objects
      rw [c1, hkeys] at hj
      simp only [List.map_cons, List.map_nil, List.mem_singleton, Prod.mk.injEq] at hj
      exact hj.1
    have := hT.objects j cols hj x hx
    rw [hji, hbref] at this
    exact this
  · obtain ⟨nd, n1, n2⟩ := hc.cameras g hg0
    rw [n1, Output.lookup_cams]
    have hck : c ∈ OMap.keys g.cameras ↔ c ∈ observingCams nCam l := by
      constructor
      · exact hfrom 0 g hg0 c
      · intro hco
        obtain ⟨_, hany⟩ := List.mem_filter.1 hco
        obtain ⟨a, ha, e⟩ := List.any_eq_true.1 hany
        rw [beq_iff_eq] at e
        obtain ⟨j, g', hg', hm⟩ := hE.cameras _ (hmem a ha) (hpts a ha)
        obtain ⟨rfl, rfl⟩ := hone j g' hg'
        rw [← e]
        exact hm
    rw [← hck]
    by_cases h : c ∈ OMap.keys g.cameras <;> simp [h]
  · obtain ⟨cs, c1, c2⟩ := hc.objects
    rw [hkeys] at c1
    have hcol := c2 i o ho
    refine ⟨i, cs i, c1, ?_, fun b k => ?_⟩
    · rw [hcol.labels]
      exact corners_nodup bpts o (OMap.keys_nodup (hC.objs.good i o ho).boards_sorted)
    · rw [hcol.labels]
      unfold OutputObjects.corners
      simp only [List.mem_flatMap, List.mem_map, List.mem_range, Prod.mk.injEq]
      constructor
      · rintro ⟨b', hb', k', hk', rfl, rfl⟩
        exact ⟨((hr i o ho).2 b' hb').2, hk'⟩
      · rintro ⟨hbo, hk⟩
        obtain ⟨_, hany⟩ := List.mem_filter.1 hbo
        obtain ⟨a, ha, e⟩ := List.any_eq_true.1 hany
        rw [beq_iff_eq] at e
        obtain ⟨j, o', ho', hm⟩ := hE.boards _ (hmem a ha) (hpts a ha)
        obtain ⟨rfl, rfl⟩ := hobj j o' ho'
        exact ⟨b, e ▸ hm, k, hk, rfl, rfl⟩
  · obtain ⟨e1, e2, e3⟩ := hc.errors
    obtain ⟨j, g', hg', hm⟩ := hE.cameras _ (hmem a ha) (hpts a ha)
    obtain ⟨k, hk⟩ := List.getElem?_of_mem ((OMap.get?_eq_some hC.groups.sorted).1 hg')
    obtain ⟨n, n1, n2, n3⟩ := e3 k j g' hk
    refine ⟨n, List.mem_of_getElem? n1, ?_⟩
    obtain ⟨x, x1, x2, x3⟩ := (Lemmas.FinishRun.views hC hE.boards a.obs.cam a.obs.frame).2 ⟨_, hmem a ha, rfl, rfl, hpts a ha⟩
    refine ⟨_, by rw [n3]; exact List.mem_map_of_mem ((hE.groupFrames j g' hg' a.obs.frame).2 ⟨_, hmem a ha, hpts a ha, rfl, hm⟩),
      rfl, Spec.Report.errors rd x, ?_⟩
    unfold Spec.Report.frameErrors
    refine List.mem_map.2 ⟨x, List.mem_filter.2 ⟨x1, ?_⟩, by rw [x2]⟩
    simp [x2, x3, hm]
  · have hgs : r.1.t.groups = [(0, g)] := by
      have h1 : ∀ e ∈ r.1.t.groups, e = (0, g) := fun e he => by
        obtain ⟨e1, e2⟩ := hone e.1 e.2 ((OMap.get?_eq_some hC.groups.sorted).2 he)
        exact Prod.ext e1 e2
      have h2 := OMap.keys_nodup hC.groups.sorted
      have h3 := (OMap.get?_eq_some hC.groups.sorted).1 hg0
      generalize r.1.t.groups = gs at h1 h2 h3
      match gs, h1, h2, h3 with
      | [x], h1, _, _ => rw [h1 x (by simp)]
      | x :: y :: _, h1, h2, _ =>
        have e1 := h1 x (by simp)
        have e2 := h1 y (by simp)
        simp [OMap.keys, e1, e2] at h2
    obtain ⟨e1, e2, e3⟩ := hc.errors
    rw [hgs] at e1 e2
    obtain ⟨n, n1, n2, n3⟩ := e3 0 0 g (by rw [hgs]; rfl)
    have n4 := hc.frameLists 0 n n1
    rw [hgs] at n4
    simp only [List.take_succ_cons, List.take_zero, List.flatMap_cons, List.flatMap_nil, List.append_nil] at n4
    refine ⟨n, ?_, n2, ?_, ?_, fun f => ?_, fun f hf => ?_⟩
    · have : rep.errors.2 = [n] := by
        match h : rep.errors.2, e2, n1 with
        | [x], _, n1 => simpa [h] using n1
      exact Prod.ext e1 this
    · rw [n3, n4, List.map_map]
      exact (List.map_id' _).symm
    · rw [n4]
      exact OMap.keys_nodup (hC.lists.sorted 0 g hg0)
    · rw [n4, hE.groupFrames 0 g hg0 f]
      constructor
      · rintro ⟨bo, hbo, _, rfl, _⟩
        obtain ⟨a, ha, rfl⟩ := hback bo hbo
        exact ⟨a, ha, rfl⟩
      · rintro ⟨a, ha, rfl⟩
        obtain ⟨j, g', hg', hm⟩ := hE.cameras _ (hmem a ha) (hpts a ha)
        obtain ⟨rfl, rfl⟩ := hone j g' hg'
        exact ⟨_, hmem a ha, hpts a ha, rfl, hm⟩
    · rw [n3] at hf
      obtain ⟨fr, _, rfl⟩ := List.mem_map.1 hf
      refine ⟨rfl, fun c ds hcd => ?_⟩
      unfold Spec.Report.frameErrors at hcd
      obtain ⟨o', ho', e⟩ := List.mem_map.1 hcd
      obtain ⟨ho', hfr⟩ := List.mem_filter.1 ho'
      simp only [Prod.mk.injEq] at e
      obtain ⟨rfl, rfl⟩ := e
      simp only [Bool.and_eq_true, beq_iff_eq] at hfr
      obtain ⟨bo, hbo, h1, h2, h3⟩ := (Lemmas.FinishRun.views hC hE.boards o'.cam o'.frame).1 ⟨o', ho', rfl, rfl⟩
      obtain ⟨a, ha, rfl⟩ := hback bo hbo
      refine ⟨?_, a, ha, h2.trans hfr.1, h1⟩
      unfold Spec.Report.errors
      intro h
      have h := List.map_eq_nil_iff.1 h
      obtain ⟨v1, v2⟩ := hvis o' ho'
      have h4 := congrArg List.length h
      rw [List.length_zip, v2, Nat.min_self] at h4
      exact v1 (List.length_eq_zero_iff.1 h4)

end

section
variable {K K' Img : Type} [Group G] [MulAction G Pt] [Field K'] [LinearOrder K'] (nCam nBoard : Nat)
  (l : List (Insertion (ℝ × ℝ) Path))
  (hl : ∀ a ∈ l, a.obs.cam < nCam ∧ a.obs.board < nBoard) (s : Store (ℝ × ℝ) Path)
  (hs : Store.run nCam nBoard l = .ok s) (bpts : List (List Pt)) (hb : bpts.length = nBoard)
  (w : World G) (pix : Nat → Pt → ℝ × ℝ) (hdet : ∀ a ∈ l, ExactDetection w pix bpts a.obs)
  (search : Search Pt (ℝ × ℝ) G) (hB : Sound search) (hBE : ExactSearch pix search)
  (e : Estimator Pt (ℝ × ℝ) G) (hS : ∀ k, Sound (e.search k)) (hF : ∀ k, Fails (e.search k))
  (hE : ∀ k, ExactSearch pix (e.search k))
  (pr : ReproErr.Projection (ℝ × ℝ) G Pt K') (hp : Spec.ReproErr.Pointwise pr fun c g p => pix c (g • p))
  (hm : ∀ c, pr.model c = 0 ∨ pr.model c = 1)
  (hthrow : ∀ c g, pr.brown c g [] = .throw) (hfish : ∀ c g, pr.kannala c g [] = .ok [] ∨ pr.kannala c g [] = .throw)
  (refine : Option (List (Estimated (ℝ × ℝ) G) → Outcome (List (Estimated (ℝ × ℝ) G) × ReproErr.Projection (ℝ × ℝ) G Pt K')))
  (n : Numerics V G) (fix : Int)

include hl hs hb hdet hB hBE hS hF hE hp hm hthrow hfish in
/-- C84, complete files: under the hypotheses of C84_single the parameter file has all cameras with a detection, the file
of objects has one object with every corner of every detected board, and the error file an entry for every image with a
detection; poses are given with respect to the first camera, points with respect to the first board. -/
theorem C84_files [Inhabited Pt] [Zero K] [One K] (hk : KeepsViews w pr refine) {b0 c0 : Nat}
    (hbl : ∀ b ∈ Spec.Objects.observedBoards nBoard l, b0 ≤ b)
    (hboards : ∀ b ∈ Spec.Objects.observedBoards nBoard l, Relation.ReflTransGen (CoSeen l) b b0)
    (hc0 : c0 ∈ observingCams nCam l) (hcl : ∀ c ∈ observingCams nCam l, c0 ≤ c)
    (hcams : ∀ c ∈ observingCams nCam l, Relation.ReflTransGen (CamsLinked l (l.map (·.obs))) c c0)
    (hn : TrueNumerics w b0 c0 e n) (hsim : Simple G l (l.map (·.obs)))
    (en : Finish.Env V G Pt K Path Img) (hmodel : ∀ c < nCam, en.model c = 0 ∨ en.model c = 1)
    (hof : en.ofVec = n.ofVec)
    (hbr : ∀ c g ps, ps ≠ [] → en.projBrown c g ps = .ok (ps.map fun p => pix c (g • p)))
    (hka : ∀ c g ps, ps ≠ [] → en.projKannala c g ps = .ok (ps.map fun p => pix c (g • p)))
    (hcam : ∀ c ∈ observingCams nCam l, ∃ cam sz, en.cams[c]? = some cam ∧ cam.size = some sz) :
    ∃ x r rep, ReproErr.initIntrinsic search e.garbage bpts s.obs refine pr = .ok x ∧ x.1.map (·.obs) = s.obs ∧
      Program.calibrate search refine pr e n fix bpts s = .ok r ∧ Finish.report en bpts s.frames r = .ok rep ∧
      Props.Finish.Correct en bpts s.frames r (Props.Finish.readingOf r en.ofVec pix) rep ∧
      Calibrated w bpts nCam nBoard l c0 b0 rep := by
  have hobs := (store_desc nCam nBoard l hl s hs).obs
  have hpts : ∀ a ∈ l, a.obs.pts ≠ [] := fun a ha h => by
    have := (hdet a ha).four
    rw [h] at this
    exact absurd this (by decide)
  obtain ⟨a0, ha0, _⟩ : ∃ a ∈ l, a.obs.cam = c0 := by
    have := (List.mem_filter.1 hc0).2
    obtain ⟨a, ha, he⟩ := List.any_eq_true.1 this
    exact ⟨a, ha, beq_iff_eq.1 he⟩
  have hsame : SameViews s.obs s.obs := ⟨rfl, fun bo hbo => by
    rw [hobs] at hbo
    obtain ⟨a, ha, rfl⟩ := List.mem_map.1 hbo
    exact (hdet a ha).aligned⟩
  obtain ⟨r, rep, ref, bref, r1, r2, r3, r4, r5⟩ := C84_single nCam nBoard l hl s hs bpts hb w pix hdet search hB hBE e hS hF hE
    pr hp hm hthrow hfish refine n fix hk hbl hboards hc0 hcl hcams hn hsim en hmodel hof hbr hka hcam
  obtain ⟨bp, op, ⟨x, x1, x2⟩, h1, h2, h3⟩ := C84_calibration nCam nBoard l hl s hs bpts hb w pix hdet search hB hBE e hS hF hE
    pr hp hm hthrow hfish refine n fix hk
  rw [r1] at h3
  have hcams' := hcams
  rw [← hobs] at hcams'
  obtain ⟨q1, q2, q3⟩ := run_root nCam nBoard l hl s hs s.obs hsame bpts hb { n with boardPose := bp, objPose := op } hbl hboards
    hcl hcams' ⟨a0.obs, by rw [hobs]; exact List.mem_map_of_mem ha0, hpts a0 ha0⟩ hc0 fix r h3.symm
  exact ⟨x, r, rep, x1, x2, r1, r2, r3, calibrated_of hobs (List.ne_nil_of_mem ha0) hpts hl
    (Props.Finish.C76_tables nCam nBoard l hl s hs s.obs hsame bpts hb _ fix r h3.symm) q2 q3
    (Props.Finish.ends nCam nBoard l hl s hs s.obs hsame bpts hb _ fix r h3.symm).1.known r3 r4 r5
    fun o ho => by
      have hE := (Props.Finish.ends nCam nBoard l hl s hs s.obs hsame bpts hb _ fix r h3.symm).1
      obtain ⟨_, _, v2, v3, _⟩ := Lemmas.FinishRun.ids_ok s s.obs hsame bpts hE (Lemmas.Pixels.count_of (w := w) (pix := pix) fun bo hbo => by
        rw [hobs] at hbo
        obtain ⟨a, ha, rfl⟩ := List.mem_map.1 hbo
        exact hdet a ha) ho
      exact ⟨v3, v2⟩⟩

end
end Verif.Props.Pixels
