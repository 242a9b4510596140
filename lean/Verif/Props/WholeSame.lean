import Verif.Lemmas.WholeSame
import Verif.Props.Whole
import Verif.Lemmas.ReportShaped

/-!
C86: reproducible results.  For any data: if the numerical parts answer the same questions in the same way, the files left
by a run do not depend on the order in which the detection threads insert boards; and a second run that starts from the
keypoint file of a first one, which removed no corner, leaves every file as it is.
-/
namespace Verif.Props.WholeSame
open Verif Verif.Folders Verif.Start Verif.Disk Verif.Pipeline Verif.Ransac Verif.Program Verif.Whole Verif.Store Verif.Spec.Store
open Verif.Spec.Whole Verif.Spec.Disk Verif.Spec.Schedule Verif.Lemmas.WholeSame Verif.Lemmas.Disk Verif.Props.Detection
open Verif.Keypoints (lastPath)
open Verif.Detection (Schedule detectImage)

variable {V G Pt K K' Q Img : Type}

/-- The tasks, as a table. -/
theorem tasks_of {P : Type} [Field Q] [LinearOrder Q] {fitLine : List (Q × Q) → Q × Q × Q × Q} {cfg : Detection.Cfg}
    {geoms : List (Detection.Geom Q)} {raw : Str → Option (Nat → Detection.Raw P)} {glob : Str → List Str} {root pre : Str}
    {nbCam : Nat} {ts : List (List (List (Insertion P Str)))} (hts : cameraTasks fitLine cfg geoms raw glob root pre nbCam = .ok ts) :
    ∃ det, ts = tasks nbCam (fun c => (images glob root pre c).length) det ∧
      ∀ c f, c < nbCam → f < (images glob root pre c).length →
        detectImage fitLine cfg geoms c f (((images glob root pre c)[f]?).getD []) (raw (((images glob root pre c)[f]?).getD [])) =
          .ok (det c f) := by
  unfold cameraTasks at hts
  obtain ⟨ys, e1, e2⟩ := Lemmas.Collect.foldlM_append_inv
    (v := fun c => Outcome.foldlM (taskStep fitLine cfg geoms raw c) [] (images glob root pre c).zipIdx)
    (fun acc c => rfl) hts
  rw [List.nil_append] at e1
  subst e1
  have hlen : ts.length = nbCam := by
    rw [← e2.length_eq, List.length_range]
  have hcam : ∀ c (hc : c < ts.length), ts[c].length = (images glob root pre c).length ∧
      ∀ f (hf : f < ts[c].length) (hf' : f < (images glob root pre c).length),
        detectImage fitLine cfg geoms c f (images glob root pre c)[f] (raw (images glob root pre c)[f]) = .ok ts[c][f] := by
    intro c hc
    have h1 := e2.get (by rw [List.length_range]; omega) hc
    simp only [List.get_eq_getElem, List.getElem_range] at h1
    obtain ⟨zs, f1, f2⟩ := Lemmas.Collect.foldlM_append_inv
      (v := fun e : Str × Nat => detectImage fitLine cfg geoms c e.2 e.1 (raw e.1)) (fun acc e => rfl) h1
    rw [List.nil_append] at f1
    rw [f1]
    refine ⟨by rw [← f2.length_eq, List.length_zipIdx], fun f hf hf' => ?_⟩
    have := f2.get (by rw [List.length_zipIdx]; exact hf') hf
    simpa only [List.get_eq_getElem, List.getElem_zipIdx, Nat.zero_add] using this
  refine ⟨fun c f => (((ts[c]?).getD [])[f]?).getD [], ?_, ?_⟩
  · unfold tasks
    apply List.ext_getElem (by simp [hlen])
    intro c h1 h2
    rw [List.getElem_map, List.getElem_range]
    simp only [List.getElem?_eq_getElem h1]
    apply List.ext_getElem (by simp [(hcam c h1).1])
    intro f h3 h4
    rw [List.getElem_map, List.getElem_range, Option.getD_some, List.getElem?_eq_getElem h3, Option.getD_some]
  · intro c f hc hf
    have hc' : c < ts.length := by omega
    have h3 : f < ts[c].length := by rw [(hcam c hc').1]; exact hf
    simp only [List.getElem?_eq_getElem hf, List.getElem?_eq_getElem hc', Option.getD_some, List.getElem?_eq_getElem h3]
    exact (hcam c hc').2 f h3 hf

section
variable [Field Q] [LinearOrder Q] {fitLine : List (Q × Q) → Q × Q × Q × Q} {cfg : Detection.Cfg}
    {geoms : List (Detection.Geom Q)} {raw : Str → Option (Nat → Detection.Raw (ℝ × ℝ))} {glob : Str → List Str} {root pre : Str}
    {nbCam : Nat} {ts : List (List (List (Insertion (ℝ × ℝ) Str)))}
    (hts : cameraTasks fitLine cfg geoms raw glob root pre nbCam = .ok ts) {l l' : List (Insertion (ℝ × ℝ) Str)}
    (hl : Schedule ts l)

include hts hl in
theorem alike (hl' : Schedule ts l') : Alike l l' := by
  obtain ⟨det, rfl, hdet⟩ := tasks_of hts
  have hf : ∀ f, l.filter (byFrame f) = l'.filter (byFrame f) := fun f => by
    rw [Lemmas.Reload.schedule_frame fitLine cfg geoms nbCam _ _ (fun c f => raw (((images glob root pre c)[f]?).getD [])) det hdet l hl f,
      Lemmas.Reload.schedule_frame fitLine cfg geoms nbCam _ _ (fun c f => raw (((images glob root pre c)[f]?).getD [])) det hdet l' hl' f]
  refine ⟨fun f => by rw [hf], fun c f => ?_⟩
  have : ∀ l : List (Insertion (ℝ × ℝ) Str), l.filter (byCamFrame c f) = (l.filter (byFrame f)).filter (byCamFrame c f) := by
    intro l
    rw [List.filter_filter]
    refine List.filter_congr fun a _ => ?_
    unfold byCamFrame byFrame
    cases a.obs.cam == c <;> cases a.obs.frame == f <;> rfl
  unfold lastPath
  rw [this l, this l', hf]

include hts hl in
theorem sorted : FrameSorted l := by
  obtain ⟨det, rfl, hdet⟩ := tasks_of hts
  exact Schedule.C61_detected_sorted fitLine cfg geoms nbCam _ _ (fun c f => raw (((images glob root pre c)[f]?).getD [])) det hdet l hl

end

variable [Group G] [SMul G Pt] [Field K'] [LinearOrder K'] [Zero K] [One K] (u : Setup V G Pt K K' Q Img)

/-- C86: the files left by a run do not depend on the schedule of the detection threads. -/
theorem C86_schedules [Field Q] [LinearOrder Q] (hd : DataOnly u.search) (hr : ∀ f ∈ u.refine, OrderFree f)
    (ts : List (List (List (Insertion (ℝ × ℝ) Str))))
    (hts : cameraTasks u.fitLine u.cfg u.geoms u.raw u.glob u.root u.pre u.nbCam = .ok ts)
    (l₁ l₂ : List (Insertion (ℝ × ℝ) Str)) (hl₁ : Schedule ts l₁) (hl₂ : Schedule ts l₂) (d d' : Files V G Pt K Img) :
    Verif.Whole.run u l₁ d = .ok d' ↔ Verif.Whole.run u l₂ d = .ok d' := by
  have main : ∀ {l₁ l₂ : List (Insertion (ℝ × ℝ) Str)}, Schedule ts l₁ → Schedule ts l₂ →
      Verif.Whole.run u l₁ d = .ok d' → Verif.Whole.run u l₂ d = .ok d' := by
    intro l₁ l₂ hl₁ hl₂ h
    unfold Verif.Whole.run extract boardExtraction at h ⊢
    by_cases hk : u.keypoints ≠ [] ∧ u.keypoints ≠ "None".toList ∧ d.has u.keypoints = true
    · rw [if_pos hk] at h ⊢
      exact h
    · rw [if_neg hk] at h ⊢
      obtain ⟨k, h1, h⟩ := Outcome.bind_eq_ok.1 h
      unfold detect at h1 ⊢
      obtain ⟨sz, h2, h1⟩ := Outcome.bind_eq_ok.1 h1
      obtain ⟨s, h3, h1⟩ := Outcome.bind_eq_ok.1 h1
      cases h1
      obtain ⟨s', hs'⟩ := (Props.Store.C06_run_ok_iff u.nbCam u.geoms.length l₂).2 fun a ha => by
        have := (Start.C67_detected u.fitLine u.cfg u.geoms u.raw u.glob u.root u.pre u.nbCam ts hts l₂ hl₂ a).2 ha
        exact ⟨this.1, this.2.2⟩
      rw [h2, Outcome.bind_ok, hs', Outcome.bind_ok]
      exact conclude_same u hd hr (Lemmas.Schedule.describes_of_run h3).1 (Lemmas.Schedule.describes_of_run hs').1
        (alike hts hl₁ hl₂) sz d h
  exact ⟨main hl₁ hl₂, main hl₂ hl₁⟩

/-- Whatever the data: a run that ends has written its results, and leaves everything ready for the next run. -/
theorem conclude_written {nCam nBoard : Nat} {l : List (Insertion (ℝ × ℝ) Str)} {s : Store (ℝ × ℝ) Str}
    (D : Describes nCam nBoard l s) {szs : List (Option (Nat × Nat))} {d d' : Files V G Pt K Img}
    (hd : Ready u.en.save u.name d) (h : conclude u d ⟨s, szs⟩ = .ok d') :
    ∃ x r rep kp, ReproErr.initIntrinsic u.search u.e.garbage u.bpts s.obs u.refine u.pr = .ok x ∧
      Program.run u.e { u.n with boardPose := poseAt (x.1.map (·.pose)) } u.fix u.bpts s (x.1.map (·.obs)) = .ok r ∧
      Finish.report (withSizes u.en szs) u.bpts s.frames r = .ok rep ∧
      Keypoints.save ⟨{ s with obs := x.1.map (·.obs) }, szs⟩ = .ok kp ∧
      Props.Disk.Written u.en.save u.name rep kp d d' ∧ Ready u.en.save u.name d' := by
  unfold conclude at h
  obtain ⟨x, a1, h⟩ := Outcome.bind_eq_ok.1 h
  obtain ⟨r, a2, h⟩ := Outcome.bind_eq_ok.1 h
  obtain ⟨rep, a3, h⟩ := Outcome.bind_eq_ok.1 h
  obtain ⟨kp, a4, h⟩ := Outcome.bind_eq_ok.1 h
  simp only at a1 a2 a3 a4
  have hf : (OMap.keys s.frames).Nodup := OMap.keys_nodup D.frames_sorted
  obtain ⟨s1, s2⟩ := Lemmas.ReportShaped.report_shaped hf a3
  obtain ⟨d'', e1, e2⟩ := Props.Disk.C82_written (name := u.name) kp hd.sound hd.clear s1 s2 hd.free hd.name (hd.place.imp_right Or.inl)
  obtain ⟨q1, q2, q3, q4⟩ := Props.Disk.C82_again (name := u.name) kp hd.sound hd.clear s1 s2 hd.free hd.name
    (hd.place.imp_right Or.inl) d' h
  have h' : saveAll u.en.save u.name rep kp d = .ok d'' := e1
  rw [h] at h'
  cases h'
  exact ⟨x, r, rep, kp, a1, a2, a3, a4, e2, q1, q2, q3, hd.name, .inl q4⟩

/-- A store read from any file has a history. -/
theorem load_history {P Path : Type} [Inhabited Path] {debug : Bool} {nCam nBoard : Nat} {file : KeyFile P Path} {k : KStore P Path}
    (h : Keypoints.load debug nCam nBoard file = .ok k) : ∃ l, Store.run nCam nBoard l = .ok k.store := by
  unfold Keypoints.load at h
  refine Outcome.foldlM_inv (fun k : KStore P Path => ∃ l, Store.run nCam nBoard l = .ok k.store) ?_ ⟨[], rfl⟩ h
  rintro k1 k2 c - ⟨l, hl⟩ hc
  unfold Keypoints.loadCam at hc
  simp only at hc
  split at hc
  · cases hc
  · obtain ⟨s, h1, h2⟩ := Outcome.bind_eq_ok.1 hc
    cases h2
    refine Outcome.foldlM_inv (fun s : Store P Path => ∃ l, Store.run nCam nBoard l = .ok s) ?_ ⟨l, hl⟩ h1
    rintro s1 s2 i - ⟨m, hm⟩ hi
    unfold Keypoints.insertRow at hi
    obtain ⟨f, -, hi⟩ := Outcome.bind_eq_ok.1 hi
    obtain ⟨b, -, hi⟩ := Outcome.bind_eq_ok.1 hi
    obtain ⟨p, -, hi⟩ := Outcome.bind_eq_ok.1 hi
    obtain ⟨d, -, hi⟩ := Outcome.bind_eq_ok.1 hi
    obtain ⟨q, -, hi⟩ := Outcome.bind_eq_ok.1 hi
    refine ⟨m ++ [⟨⟨c, f, b, p, d⟩, q⟩], ?_⟩
    unfold Store.run at hm ⊢
    rw [Outcome.foldlM_append, hm, Outcome.bind_ok, Outcome.foldlM_cons, hi]
    rfl

omit [Group G] [SMul G Pt] [Field K'] [LinearOrder K'] [Zero K] [One K] in
/-- Wherever the detections come from, their store has a history. -/
theorem extract_history {l : List (Insertion (ℝ × ℝ) Str)} {d : Files V G Pt K Img} {k : KStore (ℝ × ℝ) Str}
    (h1 : extract u l d = .ok k) : ∃ m, Store.run u.nbCam u.geoms.length m = .ok k.store := by
  unfold extract boardExtraction at h1
  split at h1
  · unfold load at h1
    obtain ⟨file, -, h1⟩ := Outcome.bind_eq_ok.1 h1
    exact load_history h1
  · unfold detect at h1
    obtain ⟨szs, -, h1⟩ := Outcome.bind_eq_ok.1 h1
    obtain ⟨s, h3, h1⟩ := Outcome.bind_eq_ok.1 h1
    cases h1
    exact ⟨l, h3⟩

/-- C86: whatever the data and wherever the detections come from, a run that ends has written its results, the keypoint
file holds what the first estimation of the board poses kept, and the directory is ready for the next run. -/
theorem C86_written (l : List (Insertion (ℝ × ℝ) Str)) (d d' : Files V G Pt K Img) (hready : Ready u.en.save u.name d)
    (hrun : Verif.Whole.run u l d = .ok d') :
    ∃ k x rep kp, extract u l d = .ok k ∧ ReproErr.initIntrinsic u.search u.e.garbage u.bpts k.store.obs u.refine u.pr = .ok x ∧
      Keypoints.save ⟨{ k.store with obs := x.1.map (·.obs) }, k.sizes⟩ = .ok kp ∧
      Props.Disk.Written u.en.save u.name rep kp d d' ∧ Ready u.en.save u.name d' := by
  unfold Verif.Whole.run at hrun
  obtain ⟨k, h1, h⟩ := Outcome.bind_eq_ok.1 hrun
  obtain ⟨m, hm⟩ := extract_history u h1
  obtain ⟨x, r, rep, kp, a1, -, -, a4, w, rdy⟩ := conclude_written u (Lemmas.Schedule.describes_of_run hm).1 hready h
  exact ⟨k, x, rep, kp, h1, a1, a4, w, rdy⟩

theorem sizes_length {debug : Bool} {imread : Str → Option (Nat × Nat)} {glob : Str → List Str} {root pre : Str} {nbCam : Nat}
    {szs : List (Option (Nat × Nat))} (h : imageSizes debug imread glob root pre nbCam = .ok szs) : szs.length = nbCam := by
  obtain ⟨ys, e1, e2⟩ := Lemmas.Collect.foldlM_append_inv
    (v := fun c => firstSize debug imread none (images glob root pre c)) (fun acc c => rfl) h
  rw [e1, List.nil_append, ← e2.length_eq, List.length_range]

theorem sizes_some {P Path : Type} [Inhabited Path] {s : Store P Path} {szs : List (Option (Nat × Nat))} {kp : KeyFile P Path}
    (h : Keypoints.save ⟨s, szs⟩ = .ok kp) (hl : szs.length = s.cams.length) : ∃ sz : List (Nat × Nat), szs = sz.map some := by
  refine ⟨szs.map fun x => x.getD (0, 0), ?_⟩
  apply List.ext_getElem (by simp)
  intro c h1 h2
  unfold Keypoints.save at h
  obtain ⟨cams, h, -⟩ := Outcome.bind_eq_ok.1 h
  have hc : c ∈ List.range s.cams.length := List.mem_range.2 (by omega)
  obtain ⟨y, hy⟩ := ok_of_foldlM (v := fun c : Nat => match (szs[c]?).join with | some z => .ok z | none => .ub)
    (g := fun m c z => m ++ [(c, Keypoints.camFile z (Keypoints.rows s c))]) (by
      intro m c
      unfold Keypoints.saveCam
      simp only
      cases (szs[c]?).join <;> rfl) h c hc
  rw [List.getElem?_eq_getElem h1] at hy
  simp only [Option.join_some, List.getElem_map] at hy ⊢
  cases hz : szs[c] with
  | some z => rfl
  | none => rw [hz] at hy; cases hy

omit [Group G] [SMul G Pt] in
/-- The first step once more. -/
theorem settle {P : Type} {search : Search Pt P G} {garbage : G} {bpts : List (List Pt)} {obs : List (BoardObs P)}
    {refine : Option (List (Estimated P G) → Outcome (List (Estimated P G) × ReproErr.Projection P G Pt K'))}
    (hr : ∀ f ∈ refine, OrderFree f) {pr : ReproErr.Projection P G Pt K'} {x : List (Estimated P G) × List (ReproErr.Warning K')}
    (h : ReproErr.initIntrinsic search garbage bpts obs refine pr = .ok x) (hs : Settled search garbage bpts obs) :
    ReproErr.initIntrinsic search garbage bpts (x.1.map (·.obs)) refine pr = .ok x := by
  unfold ReproErr.initIntrinsic at h
  obtain ⟨est, h1, h⟩ := Outcome.bind_eq_ok.1 h
  obtain ⟨y, h2, h⟩ := Outcome.bind_eq_ok.1 h
  obtain ⟨w, h3, h⟩ := Outcome.bind_eq_ok.1 h
  cases h
  have e : y.1.map (·.obs) = est.map (·.obs) := by
    unfold ReproErr.refineStep at h2
    cases refine with
    | none => cases h2; rfl
    | some g =>
      obtain ⟨f, f1, f2, -⟩ := hr g rfl _ _ h2
      rw [f2, List.map_map]
      exact List.map_congr_left fun o _ => f1 o
  unfold ReproErr.initIntrinsic
  simp only
  rw [e, hs est h1, Outcome.bind_ok, h2, Outcome.bind_ok, h3]
  rfl

omit [Field K'] [LinearOrder K'] [Zero K] [One K] in
/-- The run reads only the boards of the stored observations. -/
theorem run_obs {P Path : Type} (e : Estimator Pt P G) (n : Numerics V G) (fix : Int) (bpts : List (List Pt)) (s : Store P Path)
    (obs obs' : List (BoardObs P)) (hb : obs'.map (·.board) = s.obs.map (·.board)) :
    Program.run e n fix bpts { s with obs := obs' } obs = Program.run e n fix bpts s obs := by
  have h1 : Objects.boardPairs { s with obs := obs' } n.boardPose = Objects.boardPairs s n.boardPose := by
    have : Objects.boardViews { s with obs := obs' } n.boardPose = Objects.boardViews s n.boardPose := by
      unfold Objects.boardViews
      refine List.map_congr_left fun e _ => ?_
      split
      · refine List.filterMap_congr fun i _ => ?_
        have := congrArg (fun l : List Nat => l[i]?) hb
        simp only [List.getElem?_map] at this
        have := congrArg (Option.map fun b => (⟨b, n.boardPose i⟩ : Objects.SeenBoard G)) this
        rw [Option.map_map, Option.map_map] at this
        exact this
      · rfl
    unfold Objects.boardPairs
    rw [this]
  have h2 : ∀ avg choose, Objects.buildObjects { s with obs := obs' } n.boardPose avg bpts choose =
      Objects.buildObjects s n.boardPose avg bpts choose := by
    intro avg choose
    unfold Objects.buildObjects
    rw [h1]
    rfl
  have h3 : Program.calibrateObjects e n bpts { s with obs := obs' } obs = Program.calibrateObjects e n bpts s obs := by
    unfold Program.calibrateObjects
    rw [h2]
  have h4 : Program.overlapping e n bpts { s with obs := obs' } obs = Program.overlapping e n bpts s obs := by
    unfold Program.overlapping
    rw [h3]
    rfl
  unfold Program.run
  rw [h4]
  rfl

/-- C86: a second run that is given the keypoint file in the output directory of a first one leaves every file as it is. -/
theorem C86_reload [Field Q] [LinearOrder Q] (hd : DataOnly u.search) (hr : ∀ f ∈ u.refine, OrderFree f)
    (ts : List (List (List (Insertion (ℝ × ℝ) Str))))
    (hts : cameraTasks u.fitLine u.cfg u.geoms u.raw u.glob u.root u.pre u.nbCam = .ok ts)
    (l : List (Insertion (ℝ × ℝ) Str)) (hl : Schedule ts l) (hset : Settled u.search u.e.garbage u.bpts (l.map (·.obs)))
    (hne : u.debug = true → ∀ c < u.nbCam, ∃ a ∈ l, a.obs.cam = c) (d d' : Files V G Pt K Img) (hready : Ready u.en.save u.name d)
    (hkey : u.keypoints = [] ∨ u.keypoints = "None".toList ∨ d.has u.keypoints = false)
    (hrun : Verif.Whole.run u l d = .ok d') (l' : List (Insertion (ℝ × ℝ) Str)) :
    Verif.Whole.run { u with keypoints := keypointFile u.en.save } l' d' = .ok d' := by
  have hk : ¬ (u.keypoints ≠ [] ∧ u.keypoints ≠ "None".toList ∧ d.has u.keypoints = true) := by
    rintro ⟨h1, h2, h3⟩
    rcases hkey with h | h | h
    · exact h1 h
    · exact h2 h
    · rw [h] at h3; cases h3
  unfold Verif.Whole.run extract boardExtraction at hrun
  rw [if_neg hk] at hrun
  obtain ⟨k, h1, h⟩ := Outcome.bind_eq_ok.1 hrun
  unfold detect at h1
  obtain ⟨szs, h2, h1⟩ := Outcome.bind_eq_ok.1 h1
  obtain ⟨s, h3, h1⟩ := Outcome.bind_eq_ok.1 h1
  cases h1
  obtain ⟨D, hmem⟩ := Lemmas.Schedule.describes_of_run h3
  obtain ⟨x, r, rep, kp, a1, a2, a3, a4, w, rdy⟩ := conclude_written u D hready h
  rw [← D.obs] at hset
  obtain ⟨sz, rfl⟩ := sizes_some a4 (by rw [sizes_length h2]; exact D.cams_length.symm)
  have hsz : sz.length = u.nbCam := by simpa using sizes_length h2
  have a1' := settle hr a1 hset
  obtain ⟨X, b1, b2, -⟩ := initIntrinsic_same hd (List.Perm.refl _) hr a1
  have kX : Keeps (fun o => (X o).obs) l := fun a ha => b1 a.obs (by rw [D.obs]; exact List.mem_map_of_mem ha)
  have o₁ : x.1.map (·.obs) = l.map fun a => (X a.obs).obs := by
    rw [b2, D.obs, List.map_map, List.map_map]
    rfl
  have hbd : (x.1.map (·.obs)).map (·.board) = s.obs.map (·.board) := by
    rw [o₁, D.obs, List.map_map, List.map_map]
    exact List.map_congr_left fun a ha => (kX a ha).2.2
  have again : conclude u d' ⟨{ s with obs := x.1.map (·.obs) }, sz.map some⟩ = .ok d' := by
    unfold conclude
    simp only
    rw [a1', Outcome.bind_ok]
    have a2' : Program.run u.e { u.n with boardPose := poseAt (x.1.map (·.pose)) } u.fix u.bpts
      { s with obs := x.1.map (·.obs) } (x.1.map (·.obs)) = .ok r := by
      rw [run_obs _ _ _ _ _ _ _ hbd]
      exact a2
    rw [a2', Outcome.bind_ok, a3, Outcome.bind_ok, a4, Outcome.bind_ok]
    exact Props.Disk.C82_idempotent kp rdy.sound (hready.name.imp_right And.left) w
  have D1 := Lemmas.Reload.describes_congr (redo_keys kX) D
  rw [redo_obs, ← o₁] at D1
  generalize hm : redo (fun o => (X o).obs) l = m at D1
  have hmm : ∀ a ∈ m, ∃ b ∈ l, a.obs.cam = b.obs.cam ∧ a.obs.frame = b.obs.frame ∧ a.obs.board = b.obs.board := by
    intro a ha
    rw [← hm] at ha
    obtain ⟨b, hb, rfl⟩ := List.mem_map.1 ha
    exact ⟨b, hb, kX b hb⟩
  have hml : ∀ a ∈ m, a.obs.cam < u.nbCam ∧ a.obs.board < u.geoms.length := by
    intro a ha
    obtain ⟨b, hb, e1, -, e3⟩ := hmm a ha
    rw [e1, e3]
    exact hmem b hb
  have hsort : FrameSorted m := by
    intro f
    rw [← hm, filter_redo _ fun a ha => by unfold byFrame; rw [(kX a ha).2.1]]
    unfold redo
    rw [List.pairwise_map]
    refine (sorted hts hl f).imp_of_mem fun {a b} ha hb hab => ?_
    obtain ⟨e1, -, e3⟩ := kX a (List.mem_filter.1 ha).1
    obtain ⟨e4, -, e6⟩ := kX b (List.mem_filter.1 hb).1
    simp only [e1, e3, e4, e6]
    exact hab
  obtain ⟨file, s', f1, f2, f3⟩ := Lemmas.Reload.reload_run u.debug u.nbCam u.geoms.length D1 sz hsz (by
    intro hdb c hc
    obtain ⟨a, ha, e⟩ := hne hdb c hc
    refine ⟨(X a.obs).obs, ?_, ?_⟩
    · show _ ∈ x.1.map (·.obs)
      rw [o₁]
      exact List.mem_map_of_mem (f := fun a => (X a.obs).obs) ha
    · rw [(kX a ha).1, e]) hml
  rw [a4] at f1
  cases f1
  obtain ⟨D2, -⟩ := Lemmas.Schedule.describes_of_run f3
  have hal : Alike m _ := ⟨fun f => (Lemmas.Reload.reload_sameFrames D1 hml hsort f).symm, (Keypoints.sameSave_rows hml D1).2⟩
  have final := conclude_same u hd hr D1 D2 hal (sz.map some) d' again
  have hp : Plain "detected_keypoints_data.yml".toList := (Props.Disk.plain_report (by simp [reportNames])).1
  have hloc : loc (keypointFile u.en.save) = below u.en.save ["detected_keypoints_data.yml".toList] := loc_join_plain _ hp
  have hfn : filename (keypointFile u.en.save) = "detected_keypoints_data.yml".toList := filename_plain _ hp
  have hnil : keypointFile u.en.save ≠ [] := join_ne_nil _ hp
  have hkN : keypointFile u.en.save ≠ "None".toList := by
    intro h
    rw [h] at hfn
    exact absurd hfn (by decide)
  have hhas : d'.has (keypointFile u.en.save) = true := by
    unfold Disk.has
    rw [hloc, w.keypoints, hfn]
    simp [hnil]
  unfold Verif.Whole.run extract boardExtraction
  rw [if_pos ⟨hnil, hkN, hhas⟩]
  unfold load readKeypoints
  simp only
  rw [hloc, w.keypoints]
  simp only [Outcome.bind_ok]
  rw [f2, Outcome.bind_ok]
  exact final

end Verif.Props.WholeSame
