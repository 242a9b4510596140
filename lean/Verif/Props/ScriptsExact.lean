import Verif.Props.Whole
import Verif.Props.ScriptsTruth

/-!
C99: the analysis scripts on the results of a run on exact images.
-/
namespace Verif.Props.ScriptsExact
open Verif Verif.Output Verif.Groups Verif.Scripts Verif.Lemmas.Scripts Verif.Rigid Verif.Spec.Exact Verif.Spec.Groups
open Verif.Spec.Whole Verif.Props.ScriptsTruth Verif.Props.ExactReport Verif.Folders Verif.Disk Verif.Spec.Disk Verif.Whole
open Verif.Props.Whole Verif.Start Verif.Spec.Pixels

section
variable {V G Pt P K Path Img : Type} [Group G] [MulAction G Pt] [Zero K] [One K] {w : World G} {bpts : List (List Pt)} {nCam nBoard : Nat}
  {l : List (Insertion P Path)} {c0 b0 : Nat} {rep : Finish.Reports V G Pt K Img}

private theorem mean_zero {xs : List ℝ} (h : ∀ x ∈ xs, x = 0) : npMean xs = 0 := by
  unfold npMean
  have : xs.sum = 0 := List.sum_eq_zero h
  rw [this, zero_div]

/-- Bars of height zero. -/
theorem bars_of (h : Calibrated w bpts nCam nBoard l c0 b0 rep) (hne : l ≠ []) (h100 : ∀ a ∈ l, a.obs.cam < 100) :
    ∃ fs : List Nat, fs.Nodup ∧ (∀ f, f ∈ fs ↔ ∃ a ∈ l, a.obs.frame = f) ∧
      errorStatistic rep.errors = .ok (fs.map fun _ => 0) := by
  obtain ⟨node, n1, n2, n3, n4, n5, n6⟩ := h.group
  have hz := h.truthful.errors
  have hv := h.views
  rw [n1] at hz hv ⊢
  refine ⟨node.frameList, n4, n5, ?_⟩
  have hpos : ¬node.frameList.length = 0 := by
    obtain ⟨a, ha⟩ := List.exists_mem_of_ne_nil l hne
    have := (n5 a.obs.frame).2 ⟨a, ha, rfl⟩
    intro h0
    rw [List.length_eq_zero_iff.1 h0] at this
    cases this
  unfold errorStatistic
  simp only [verifyNumCameraGroups, if_true, Outcome.bind_ok, List.find?_cons, n2, beq_self_eq_true, orThrow]
  rw [if_neg hpos]
  refine each_ok _ (fun _ => (0 : ℝ)) _ fun f hf => ?_
  obtain ⟨a, ha, hfa⟩ := (n5 f).1 hf
  obtain ⟨g, hg, fn, hfn, e1, ds, hds⟩ := hv a ha
  rw [List.mem_singleton] at hg
  subst hg
  have hfind : g.frames.find? (fun n => n.frame == f) = some fn := by
    have hmem := hfn
    rw [n3] at n4
    have he : fn.frame = f := e1.trans hfa
    clear n1 n2 n3 n5 n6 hz hv hpos e1 hds hf
    generalize g.frames = fr at n4 hfn
    induction fr with
    | nil => cases hfn
    | cons x fr ih =>
      rw [List.map_cons, List.nodup_cons] at n4
      rw [List.find?_cons]
      rcases List.mem_cons.1 hfn with rfl | hm
      · simp [he]
      · have : (x.frame == f) = false := by
          rw [beq_eq_false_iff_ne]
          intro hx
          exact n4.1 (by rw [hx, ← he]; exact List.mem_map_of_mem hm)
        rw [this]
        exact ih n4.2 hm
  obtain ⟨c1, c2⟩ := n6 fn hfn
  unfold frameError
  rw [hfind]
  simp only [orThrow, Outcome.bind_ok]
  have hcl : ¬fn.cameraList.length = 0 := by
    rw [c1, List.length_map]
    intro h0
    rw [List.length_eq_zero_iff.1 h0] at hds
    cases hds
  rw [if_neg hcl, each_ok _ (fun _ => (0 : ℝ)), Outcome.bind_ok]
  · show Outcome.ok _ = _
    rw [mean_zero]
    intro x hx
    obtain ⟨_, _, rfl⟩ := List.mem_map.1 hx
    rfl
  · intro c hc
    rw [c1] at hc
    obtain ⟨e, he, rfl⟩ := List.mem_map.1 hc
    unfold cameraError
    obtain ⟨x, hx⟩ : ∃ x, fn.cams.find? (fun y => y.1 == e.1) = some x := by
      cases hx : fn.cams.find? (fun y => y.1 == e.1) with
      | some x => exact ⟨x, rfl⟩
      | none =>
        have := List.find?_eq_none.1 hx e he
        simp at this
    rw [hx]
    simp only [orThrow, Outcome.bind_ok]
    have hxm := List.mem_of_find?_eq_some hx
    have hxe : x.1 = e.1 := beq_iff_eq.1 (List.find?_some (p := fun y : Nat × List ℝ => y.1 == e.1) hx)
    obtain ⟨d1, a', ha', _, d2⟩ := c2 x.1 x.2 hxm
    rw [if_neg (by simpa using d1), if_pos (by rw [← hxe, ← d2]; exact h100 a' ha')]
    show Outcome.ok _ = _
    rw [mean_zero (hz g (by simp) fn hfn x hxm)]

end

section
variable {V Pt Path Img : Type} [MulAction (Pose ℝ) Pt] {w : World (Pose ℝ)} {bpts : List (List Pt)} {nCam nBoard : Nat}
  {l : List (Insertion (ℝ × ℝ) Path)} {c0 b0 : Nat} {rep : Finish.Reports V (Pose ℝ) Pt ℝ Img}

/-- The comparison with the ground truth prints zeros exactly if the ground truth is that of the scene. -/
theorem truth_of {en : Finish.Env V (Pose ℝ) Pt ℝ Path Img} {frames : OMap Nat (FrameRec Path)}
    {r : Pipeline.State (Pose ℝ) Pt (ℝ × ℝ) × OMap (Nat × Nat) (OMap Nat V)} {rd : Spec.Report.Reading (Pose ℝ) Pt}
    (hc : Props.Finish.Correct en bpts frames r rd rep) (h : Calibrated w bpts nCam nBoard l c0 b0 rep)
    (hn : en.cams.length = nCam) (h0 : 0 < nCam) (hall : ∀ c < nCam, ∃ a ∈ l, a.obs.cam = c)
    (truth : List (Pose ℝ × Mat3 ℝ)) (ht : truth.length = nCam) :
    ∃ p, poseErrors rep.cameras (truth.map fun t => (t.1.1, t.2)) = .ok p ∧
      (∀ x ∈ [p.rot, p.trans, p.fx, p.fy, p.u0, p.v0], ∃ v, x = some v) ∧
      ((∀ x ∈ [p.rot, p.trans, p.fx, p.fy, p.u0, p.v0], x = some 0) ↔
        ∀ c cam t, en.cams[c]? = some cam → truth[c]? = some t → Agrees cam (w.cam c * (w.cam c0)⁻¹) t) := by
  obtain ⟨node, n1, n2, _⟩ := h.group
  obtain ⟨e1, e2, e3⟩ := hc.errors
  rw [n1] at e1 e3
  obtain ⟨⟨i, g⟩, hgs⟩ := List.length_eq_one_iff.1 e1.symm
  obtain ⟨n', q1, q2, _⟩ := e3 0 i g (by rw [hgs]; rfl)
  have : node = n' := by simpa using q1
  subst this
  rw [n2] at q2
  subst q2
  obtain ⟨nd, m1, m2⟩ := hc.cameras g (by rw [hgs]; rfl)
  have hkeys : ∀ c < en.cams.length, c ∈ OMap.keys g.cameras := by
    intro c hlt
    rw [hn] at hlt
    obtain ⟨a, ha, e⟩ := hall c hlt
    obtain ⟨x, hx⟩ := (h.cameras c).2 (List.mem_filter.2 ⟨List.mem_range.2 hlt, List.any_eq_true.2 ⟨a, ha, by simp [e]⟩⟩)
    rw [m1, Output.lookup_cams] at hx
    by_contra hcon
    rw [if_neg hcon] at hx
    cases hx
  have hpose : ∀ c < en.cams.length, OMap.get? g.poses c = some (w.cam c * (w.cam c0)⁻¹) := by
    intro c hlt
    obtain ⟨x, x1, x2⟩ := (m2 c (hkeys c hlt)).pose
    have hl : lookup rep.cameras c = some (nd c) := by rw [m1, Output.lookup_cams, if_pos (hkeys c hlt)]
    have := h.truthful.cameras c (nd c) hl
    rw [this] at x2
    rw [x1, eq_inv_of_mul_eq_one_right x2, mul_inv_rev, inv_inv]
  obtain ⟨p, p1, p2, p3⟩ := exact_file en.cams 0 g nd m2 hkeys (by
    intro he
    rw [he] at hn
    simp only [List.length_nil] at hn
    omega) truth (by rw [ht, hn])
  refine ⟨p, by rw [m1]; exact p1, p2, p3.trans ?_⟩
  constructor
  · intro H c cam t k1 k2
    exact H c cam _ t k1 (hpose c (List.getElem?_eq_some_iff.1 k1).1) k2
  · intro H c cam x t k1 k2 k3
    rw [hpose c (List.getElem?_eq_some_iff.1 k1).1] at k2
    cases k2
    exact H c cam t k1 k3

end

section
variable {V G Pt K K' Q Img : Type} [Group G] [MulAction G Pt] [Field K'] [LinearOrder K'] [Inhabited Pt] [Zero K] [One K]
  (u : Setup V G Pt K K' Q Img) (w : World G) (pix : Nat → Pt → ℝ × ℝ) (b0 c0 : Nat)

/-- Bars, whenever the detections are calibrated exactly. -/
theorem bars_run {C : List (Insertion (ℝ × ℝ) Str) → Prop} (hx : Exactly u w pix b0 c0 C) [Field Q] [LinearOrder Q] (ts : List (List (List (Insertion (ℝ × ℝ) Str))))
    (hts : cameraTasks u.fitLine u.cfg u.geoms u.raw u.glob u.root u.pre u.nbCam = .ok ts)
    (l : List (Insertion (ℝ × ℝ) Str)) (hl : Detection.Schedule ts l) (hdet : ∀ a ∈ l, ExactDetection w pix u.bpts a.obs)
    (hc : C l) (hne : l ≠ [])
    (himg : ∀ c < u.nbCam, ∃ p, (images u.glob u.root u.pre c).head? = some p ∧ (u.sizeOf p).isSome = true)
    (d : Files V G Pt K Img) (hd : Ready u.en.save u.name d)
    (hkey : u.keypoints = [] ∨ u.keypoints = "None".toList ∨ d.has u.keypoints = false) (h100 : u.nbCam ≤ 100) :
    ∃ d' file, ∃ fs : List Nat, Verif.Whole.run u l d = .ok d' ∧
      d'.file (below u.en.save ["reprojection_error_data.yml".toList]) = some (.errors file) ∧
      fs.Nodup ∧ (∀ f, f ∈ fs ↔ ∃ a ∈ l, a.obs.frame = f) ∧ errorStatistic file = .ok (fs.map fun _ => 0) := by
  obtain ⟨rep, kp, d', s, sz, q1, q2, q3, q4, q5, _⟩ := directory_of u w pix b0 c0 hx ts hts l hl hdet hc himg
    d hd hkey
  have hmem := (Lemmas.Schedule.describes_of_run q5).2
  obtain ⟨fs, f1, f2, f3⟩ := bars_of q4 hne (fun a ha => Nat.lt_of_lt_of_le (hmem a ha).1 h100)
  exact ⟨d', rep.errors, fs, q1, q2.errors, f1, f2, f3⟩

/-- C99: after a run on exact images (as in C85) with fewer than 101 cameras, `compute_error_statistic.py`, given the file
of errors in the output directory, draws one bar for each frame with a detection, and all bars have height 0. -/
theorem C99_bars (hx : ExactParts u w pix b0 c0) [Field Q] [LinearOrder Q] (ts : List (List (List (Insertion (ℝ × ℝ) Str))))
    (hts : cameraTasks u.fitLine u.cfg u.geoms u.raw u.glob u.root u.pre u.nbCam = .ok ts)
    (l : List (Insertion (ℝ × ℝ) Str)) (hl : Detection.Schedule ts l) (hdet : ∀ a ∈ l, ExactDetection w pix u.bpts a.obs)
    (hc : Connected G u.nbCam u.geoms.length l b0 c0)
    (himg : ∀ c < u.nbCam, ∃ p, (images u.glob u.root u.pre c).head? = some p ∧ (u.sizeOf p).isSome = true)
    (d : Files V G Pt K Img) (hd : Ready u.en.save u.name d)
    (hkey : u.keypoints = [] ∨ u.keypoints = "None".toList ∨ d.has u.keypoints = false) (h100 : u.nbCam ≤ 100) :
    ∃ d' file, ∃ fs : List Nat, Verif.Whole.run u l d = .ok d' ∧
      d'.file (below u.en.save ["reprojection_error_data.yml".toList]) = some (.errors file) ∧
      fs.Nodup ∧ (∀ f, f ∈ fs ↔ ∃ a ∈ l, a.obs.frame = f) ∧ errorStatistic file = .ok (fs.map fun _ => 0) := by
  obtain ⟨a, ha, _⟩ := List.any_eq_true.1 (List.mem_filter.1 hc.camera).2
  exact bars_run u w pix b0 c0 (exactly u w pix b0 c0 hx) ts hts l hl hdet hc (List.ne_nil_of_mem ha) himg d hd hkey h100

end

section
variable {V Pt K' Q Img : Type} [MulAction (Pose ℝ) Pt] [Field K'] [LinearOrder K'] [Inhabited Pt]
  (u : Setup V (Pose ℝ) Pt ℝ K' Q Img) (w : World (Pose ℝ)) (pix : Nat → Pt → ℝ × ℝ) (b0 c0 : Nat)

/-- The comparison with the ground truth, whenever the detections are calibrated exactly. -/
theorem truth_run {C : List (Insertion (ℝ × ℝ) Str) → Prop} (hx : Exactly u w pix b0 c0 C) (hcams : u.en.cams.length = u.nbCam) [Field Q] [LinearOrder Q] (ts : List (List (List (Insertion (ℝ × ℝ) Str))))
    (hts : cameraTasks u.fitLine u.cfg u.geoms u.raw u.glob u.root u.pre u.nbCam = .ok ts)
    (l : List (Insertion (ℝ × ℝ) Str)) (hl : Detection.Schedule ts l) (hdet : ∀ a ∈ l, ExactDetection w pix u.bpts a.obs)
    (hc : C l) (hne : l ≠ [])
    (himg : ∀ c < u.nbCam, ∃ p, (images u.glob u.root u.pre c).head? = some p ∧ (u.sizeOf p).isSome = true)
    (d : Files V (Pose ℝ) Pt ℝ Img) (hd : Ready u.en.save u.name d)
    (hkey : u.keypoints = [] ∨ u.keypoints = "None".toList ∨ d.has u.keypoints = false)
    (hall : ∀ c < u.nbCam, ∃ a ∈ l, a.obs.cam = c) (truth : List (Pose ℝ × Mat3 ℝ)) (ht : truth.length = u.nbCam) :
    ∃ d' file p, Verif.Whole.run u l d = .ok d' ∧ d'.file (below u.en.save [cameraName u.name]) = some (.cameras file) ∧
      poseErrors file (truth.map fun t => (t.1.1, t.2)) = .ok p ∧
      (∀ x ∈ [p.rot, p.trans, p.fx, p.fy, p.u0, p.v0], ∃ v, x = some v) ∧
      ((∀ x ∈ [p.rot, p.trans, p.fx, p.fy, p.u0, p.v0], x = some 0) ↔
        ∀ c cam t, u.en.cams[c]? = some cam → truth[c]? = some t → Agrees cam (w.cam c * (w.cam c0)⁻¹) t) := by
  obtain ⟨rep, kp, d', r, s, sz, q1, q2, q3, q4, q5, q6, q7, q8⟩ := directory_correct u w pix b0 c0 hx ts hts l
    hl hdet hc himg d hd hkey
  have hlen : (withSizes u.en (sz.map some)).cams.length = u.nbCam := by
    show (List.zipWith _ _ _).length = _
    rw [List.length_zipWith, List.length_map, hcams, q6, Nat.min_self]
  have h0 : 0 < u.nbCam := by
    obtain ⟨a, ha⟩ := List.exists_mem_of_ne_nil l hne
    have := ((Lemmas.Schedule.describes_of_run q5).2 a ha).1
    omega
  obtain ⟨p, p1, p2, p3⟩ := truth_of q8 q4 hlen h0 hall truth ht
  refine ⟨d', rep.cameras, p, q1, q2.cameras, p1, p2, p3.trans ?_⟩
  have hcam : ∀ c : Nat, (withSizes u.en (sz.map some)).cams[c]? =
      ((u.en.cams[c]?).bind fun a => (sz[c]?).map fun z => { a with size := some z }) := by
    intro c
    show (List.zipWith _ _ _)[c]? = _
    rw [List.getElem?_zipWith, List.getElem?_map]
    cases u.en.cams[c]? <;> cases sz[c]? <;> rfl
  constructor
  · intro H c cam t k1 k2
    have hlt : c < sz.length := by rw [q6, ← hcams]; exact (List.getElem?_eq_some_iff.1 k1).1
    obtain ⟨a1, a2, a3, a4, a5⟩ := H c { cam with size := some sz[c] } t (by rw [hcam, k1, List.getElem?_eq_getElem hlt]; rfl) k2
    exact ⟨a1, a2, a3, a4, a5⟩
  · intro H c cam t k1 k2
    rw [hcam] at k1
    obtain ⟨a, k3, k4⟩ := Option.bind_eq_some_iff.1 k1
    obtain ⟨z, _, rfl⟩ := Option.map_eq_some_iff.1 k4
    obtain ⟨a1, a2, a3, a4, a5⟩ := H c a t k3 k2
    exact ⟨a1, a2, a3, a4, a5⟩

/-- C99: after a run on exact images (as in C85) in which every camera has a detection, `compute_pose_error_vs_gt.py`,
given the parameter file in the output directory and a ground truth of as many rigid poses, prints six numbers; all are 0
exactly if the ground truth is that of the scene: the pose of each camera with respect to the first one (two axes
reversed) and the intrinsics the run ended with. -/
theorem C99_truth (hx : ExactParts u w pix b0 c0) [Field Q] [LinearOrder Q] (ts : List (List (List (Insertion (ℝ × ℝ) Str))))
    (hts : cameraTasks u.fitLine u.cfg u.geoms u.raw u.glob u.root u.pre u.nbCam = .ok ts)
    (l : List (Insertion (ℝ × ℝ) Str)) (hl : Detection.Schedule ts l) (hdet : ∀ a ∈ l, ExactDetection w pix u.bpts a.obs)
    (hc : Connected (Pose ℝ) u.nbCam u.geoms.length l b0 c0)
    (himg : ∀ c < u.nbCam, ∃ p, (images u.glob u.root u.pre c).head? = some p ∧ (u.sizeOf p).isSome = true)
    (d : Files V (Pose ℝ) Pt ℝ Img) (hd : Ready u.en.save u.name d)
    (hkey : u.keypoints = [] ∨ u.keypoints = "None".toList ∨ d.has u.keypoints = false)
    (hall : ∀ c < u.nbCam, ∃ a ∈ l, a.obs.cam = c) (truth : List (Pose ℝ × Mat3 ℝ)) (ht : truth.length = u.nbCam) :
    ∃ d' file p, Verif.Whole.run u l d = .ok d' ∧ d'.file (below u.en.save [cameraName u.name]) = some (.cameras file) ∧
      poseErrors file (truth.map fun t => (t.1.1, t.2)) = .ok p ∧
      (∀ x ∈ [p.rot, p.trans, p.fx, p.fy, p.u0, p.v0], ∃ v, x = some v) ∧
      ((∀ x ∈ [p.rot, p.trans, p.fx, p.fy, p.u0, p.v0], x = some 0) ↔
        ∀ c cam t, u.en.cams[c]? = some cam → truth[c]? = some t → Agrees cam (w.cam c * (w.cam c0)⁻¹) t) := by
  obtain ⟨a, ha, _⟩ := List.any_eq_true.1 (List.mem_filter.1 hc.camera).2
  exact truth_run u w pix b0 c0 (exactly u w pix b0 c0 hx) hx.cams ts hts l hl hdet hc (List.ne_nil_of_mem ha) himg d hd hkey
    hall truth ht

end

end Verif.Props.ScriptsExact
