import Verif.Model.Whole
import Verif.Props.PixelFiles
import Verif.Props.Disk
import Verif.Props.Start
import Verif.Props.Schedule

/-!
C85: from images to files.  With exact detections and exact numerical parts, a run of the whole program ends, in every
schedule of its detection threads; the output directory then holds the complete and true results; and a second run that
starts from the keypoint file found there comes to the same results.
-/
namespace Verif.Props.Whole
open Verif Verif.Folders Verif.Start Verif.Disk Verif.Pipeline Verif.Ransac Verif.Program Verif.Whole
open Verif.Spec.Pixels Verif.Spec.Exact Verif.Spec.Objects Verif.Spec.Groups Verif.Spec.Pipeline Verif.Spec.Whole Verif.Spec.Disk
open Verif.Props.Pixels Verif.Props.Outliers Verif.Props.Exact Verif.Lemmas.Disk

variable {V G Pt K K' Q Img : Type}

/-- The libraries are exact on exact data. -/
structure ExactLibraries [Group G] [MulAction G Pt] [Field K'] [LinearOrder K'] (u : Setup V G Pt K K' Q Img) (w : World G)
    (pix : Nat → Pt → ℝ × ℝ) : Prop where
  search : Sound u.search ∧ ExactSearch pix u.search
  searches : ∀ k, Sound (u.e.search k) ∧ Fails (u.e.search k) ∧ ExactSearch pix (u.e.search k)
  projection : Spec.ReproErr.Pointwise u.pr fun c g p => pix c (g • p)
  models : ∀ c, u.pr.model c = 0 ∨ u.pr.model c = 1
  brownEmpty : ∀ c g, u.pr.brown c g [] = .throw
  kannalaEmpty : ∀ c g, u.pr.kannala c g [] = .ok [] ∨ u.pr.kannala c g [] = .throw
  refine : KeepsViews w u.pr u.refine
  reportModels : ∀ c < u.nbCam, u.en.model c = 0 ∨ u.en.model c = 1
  ofVec : u.en.ofVec = u.n.ofVec
  brown : ∀ c g ps, ps ≠ [] → u.en.projBrown c g ps = .ok (ps.map fun p => pix c (g • p))
  kannala : ∀ c g ps, ps ≠ [] → u.en.projKannala c g ps = .ok (ps.map fun p => pix c (g • p))
  /-- as many cameras as in the configuration -/
  cams : u.en.cams.length = u.nbCam
  /-- as many boards -/
  boards : u.bpts.length = u.geoms.length

/-- The parts that are not modelled are exact on exact data. -/
structure ExactParts [Group G] [MulAction G Pt] [Field K'] [LinearOrder K'] (u : Setup V G Pt K K' Q Img) (w : World G)
    (pix : Nat → Pt → ℝ × ℝ) (b0 c0 : Nat) : Prop extends ExactLibraries u w pix where
  numerics : TrueNumerics w b0 c0 u.e u.n

section
variable {P Path : Type}

/-- The same observations are among two lists of detections. -/
def SameObs (l l' : List (Insertion P Path)) : Prop := ∀ o, (∃ a ∈ l, a.obs = o) ↔ ∃ a ∈ l', a.obs = o

theorem SameObs.of_perm {l l' : List (Insertion P Path)} (h : (l.map (·.obs)).Perm (l'.map (·.obs))) : SameObs l l' := by
  intro o
  rw [← List.mem_map, ← List.mem_map]
  exact h.mem_iff

variable {l l' : List (Insertion P Path)} (h : SameObs l l')

include h in
theorem SameObs.any (p : BoardObs P → Bool) : (l.any fun a => p a.obs) = l'.any fun a => p a.obs := by
  rw [Bool.eq_iff_iff, List.any_eq_true, List.any_eq_true]
  constructor
  · rintro ⟨a, ha, hp⟩
    obtain ⟨b, hb, e⟩ := (h a.obs).1 ⟨a, ha, rfl⟩
    exact ⟨b, hb, e ▸ hp⟩
  · rintro ⟨a, ha, hp⟩
    obtain ⟨b, hb, e⟩ := (h a.obs).2 ⟨a, ha, rfl⟩
    exact ⟨b, hb, e ▸ hp⟩

include h in
theorem SameObs.observedBoards (nBoard : Nat) : observedBoards nBoard l = observedBoards nBoard l' := by
  unfold Spec.Objects.observedBoards
  congr 1
  funext b
  exact h.any fun o => o.board == b

include h in
theorem SameObs.observingCams (nCam : Nat) : observingCams nCam l = observingCams nCam l' := by
  unfold Spec.Groups.observingCams
  congr 1
  funext b
  exact h.any fun o => o.cam == b

include h in
theorem SameObs.exists (p : BoardObs P → Prop) : (∃ a ∈ l, p a.obs) ↔ ∃ a ∈ l', p a.obs := by
  constructor
  · rintro ⟨a, ha, hp⟩
    obtain ⟨b, hb, e⟩ := (h a.obs).1 ⟨a, ha, rfl⟩
    exact ⟨b, hb, e ▸ hp⟩
  · rintro ⟨a, ha, hp⟩
    obtain ⟨b, hb, e⟩ := (h a.obs).2 ⟨a, ha, rfl⟩
    exact ⟨b, hb, e ▸ hp⟩

include h in
theorem SameObs.coSeen : CoSeen l = CoSeen l' := by
  funext a b
  unfold CoSeen
  rw [eq_iff_iff]
  refine and_congr_right fun _ => ?_
  rw [h.exists fun o => ∃ y ∈ l, o.cam = y.obs.cam ∧ o.frame = y.obs.frame ∧ o.board = a ∧ y.obs.board = b]
  refine exists_congr fun x => and_congr_right fun _ => ?_
  exact h.exists fun o => x.obs.cam = o.cam ∧ x.obs.frame = o.frame ∧ x.obs.board = a ∧ o.board = b

include h in
theorem SameObs.mem (o : BoardObs P) : o ∈ l.map (·.obs) ↔ o ∈ l'.map (·.obs) := by
  rw [List.mem_map, List.mem_map]
  exact h o

include h in
theorem SameObs.camsLinked : CamsLinked l (l.map (·.obs)) = CamsLinked l' (l'.map (·.obs)) := by
  funext a b
  unfold CamsLinked
  rw [h.coSeen]
  simp only [h.mem]

include h in
theorem SameObs.seenTwice (a b : Nat) : Spec.Trust.SeenTwice l (l.map (·.obs)) a b ↔ Spec.Trust.SeenTwice l' (l'.map (·.obs)) a b := by
  unfold Spec.Trust.SeenTwice
  rw [h.coSeen]
  simp only [h.mem]

include h in
theorem SameObs.connected [Group G] {nCam nBoard b0 c0 : Nat} (hc : Connected G nCam nBoard l b0 c0) :
    Connected G nCam nBoard l' b0 c0 := by
  obtain ⟨h1, h2, h3, h4, h5, h6⟩ := hc
  rw [h.observedBoards] at h1 h2
  rw [h.coSeen] at h2
  rw [h.observingCams] at h3 h4 h5
  rw [h.camsLinked] at h5
  refine ⟨h1, h2, h3, h4, h5, ?_⟩
  unfold Simple at h6 ⊢
  simp only [h.camsLinked, h.seenTwice] at h6
  exact h6

end

section
variable [Group G] [MulAction G Pt] [Field K'] [LinearOrder K'] [Inhabited Pt] [Zero K] [One K]
  (u : Setup V G Pt K K' Q Img) (w : World G) (pix : Nat → Pt → ℝ × ℝ) (b0 c0 : Nat)

/-- Exact detections `l` for which `C` holds are calibrated: calibration and reports end, with complete and true files. -/
def Exactly (C : List (Insertion (ℝ × ℝ) Str) → Prop) : Prop :=
  ∀ l, (∀ a ∈ l, a.obs.cam < u.nbCam ∧ a.obs.board < u.geoms.length) → (∀ a ∈ l, ExactDetection w pix u.bpts a.obs) → C l →
    ∀ s, Store.run u.nbCam u.geoms.length l = .ok s → ∀ sz : List (Nat × Nat), sz.length = u.nbCam →
    ∃ x r rep, ReproErr.initIntrinsic u.search u.e.garbage u.bpts s.obs u.refine u.pr = .ok x ∧ x.1.map (·.obs) = s.obs ∧
      Program.calibrate u.search u.refine u.pr u.e u.n u.fix u.bpts s = .ok r ∧
      Finish.report (withSizes u.en (sz.map some)) u.bpts s.frames r = .ok rep ∧
      Props.Finish.Correct (withSizes u.en (sz.map some)) u.bpts s.frames r
        (Props.Finish.readingOf r (withSizes u.en (sz.map some)).ofVec pix) rep ∧
      Calibrated w u.bpts u.nbCam u.geoms.length l c0 b0 rep

omit [MulAction G Pt] [LinearOrder K'] [Inhabited Pt] [Zero K] [One K] [Group G] [Field K'] in
theorem sized (hcams : u.en.cams.length = u.nbCam) (sz : List (Nat × Nat)) (hsz : sz.length = u.nbCam)
    (l : List (Insertion (ℝ × ℝ) Str)) :
    ∀ c ∈ observingCams u.nbCam l, ∃ cam z, (withSizes u.en (sz.map some)).cams[c]? = some cam ∧ cam.size = some z := by
  intro c hco
  have hlt : c < u.nbCam := List.mem_range.1 (List.mem_filter.1 hco).1
  have h1 : c < u.en.cams.length := by rw [hcams]; exact hlt
  have h2 : c < sz.length := by rw [hsz]; exact hlt
  refine ⟨{ u.en.cams[c] with size := some sz[c] }, sz[c], ?_, rfl⟩
  show (List.zipWith _ _ _)[c]? = _
  rw [List.getElem?_zipWith, List.getElem?_eq_getElem h1, List.getElem?_map, List.getElem?_eq_getElem h2]
  rfl

/-- One object and one group. -/
theorem exactly (hx : ExactParts u w pix b0 c0) : Exactly u w pix b0 c0 (Connected G u.nbCam u.geoms.length · b0 c0) := by
  intro l hl hdet hc s hs sz hsz
  exact C84_files u.nbCam u.geoms.length l hl s hs u.bpts hx.boards w pix hdet u.search
    hx.search.1 hx.search.2 u.e (fun k => (hx.searches k).1) (fun k => (hx.searches k).2.1) (fun k => (hx.searches k).2.2)
    u.pr hx.projection hx.models hx.brownEmpty hx.kannalaEmpty u.refine u.n u.fix hx.refine hc.firstBoard hc.boards hc.camera
    hc.firstCamera hc.cameras hx.numerics hc.simple (withSizes u.en (sz.map some)) hx.reportModels hx.ofVec hx.brown hx.kannala
    (sized u hx.cams sz hsz l)

variable {C : List (Insertion (ℝ × ℝ) Str) → Prop}

/-- A run on a store of exact detections. -/
theorem core_correct (hx : Exactly u w pix b0 c0 C) (l : List (Insertion (ℝ × ℝ) Str))
    (hl : ∀ a ∈ l, a.obs.cam < u.nbCam ∧ a.obs.board < u.geoms.length) (hdet : ∀ a ∈ l, ExactDetection w pix u.bpts a.obs)
    (hc : C l) (s : Store (ℝ × ℝ) Str)
    (hs : Store.run u.nbCam u.geoms.length l = .ok s) (sz : List (Nat × Nat)) (hsz : sz.length = u.nbCam) (d : Files V G Pt K Img)
    (hd : Ready u.en.save u.name d) (l' : List (Insertion (ℝ × ℝ) Str)) (hext : extract u l' d = .ok ⟨s, sz.map some⟩) :
    ∃ rep kp d', ∃ r, Verif.Whole.run u l' d = .ok d' ∧ Keypoints.save ⟨s, sz.map some⟩ = .ok kp ∧
      Props.Disk.Written u.en.save u.name rep kp d d' ∧ Ready u.en.save u.name d' ∧
      Calibrated w u.bpts u.nbCam u.geoms.length l c0 b0 rep ∧
      Props.Finish.Correct (withSizes u.en (sz.map some)) u.bpts s.frames r
        (Props.Finish.readingOf r (withSizes u.en (sz.map some)).ofVec pix) rep := by
  have hD := (Lemmas.Schedule.describes_of_run hs).1
  obtain ⟨x, r, rep, x1, x2, r1, r2, r3, r4⟩ := hx l hl hdet hc s hs sz hsz
  obtain ⟨kp, k1⟩ : ∃ kp, Keypoints.save ⟨s, sz.map some⟩ = .ok kp :=
    ⟨_, Keypoints.save_ok _ (fun c => sz.getD c (0, 0)) fun c hco => by
      have hlt : c < sz.length := by rw [hsz, ← hD.cams_length]; exact hco
      show ((sz.map some)[c]?).join = _
      rw [List.getElem?_map, List.getD_eq_getElem?_getD, List.getElem?_eq_getElem hlt]
      rfl⟩
  have hf : (OMap.keys s.frames).Nodup := OMap.keys_nodup hD.frames_sorted
  obtain ⟨d', d1, d2⟩ := Props.Disk.C82_run r3 hf u.name kp d hd.sound hd.clear hd.free hd.name hd.place
  obtain ⟨q1, q2, q3, q4⟩ := Props.Disk.C82_run_again r3 hf u.name kp d hd.sound hd.clear hd.free hd.name hd.place d' d1
  refine ⟨rep, kp, d', r, ?_, k1, d2, ⟨q1, q2, q3, hd.name, .inl q4⟩, r4, r3⟩
  unfold Verif.Whole.run
  rw [hext, Outcome.bind_ok]
  unfold conclude
  simp only
  rw [x1, Outcome.bind_ok]
  unfold Program.calibrate at r1
  rw [x1, Outcome.bind_ok] at r1
  rw [x2] at r1 ⊢
  rw [r1, Outcome.bind_ok, r2, Outcome.bind_ok]
  show Outcome.bind (Keypoints.save ⟨s, _⟩) _ = _
  rw [k1]
  exact d1

/-- A run on a store of exact detections. -/
theorem core (hx : Exactly u w pix b0 c0 C) (l : List (Insertion (ℝ × ℝ) Str))
    (hl : ∀ a ∈ l, a.obs.cam < u.nbCam ∧ a.obs.board < u.geoms.length) (hdet : ∀ a ∈ l, ExactDetection w pix u.bpts a.obs)
    (hc : C l) (s : Store (ℝ × ℝ) Str)
    (hs : Store.run u.nbCam u.geoms.length l = .ok s) (sz : List (Nat × Nat)) (hsz : sz.length = u.nbCam) (d : Files V G Pt K Img)
    (hd : Ready u.en.save u.name d) (l' : List (Insertion (ℝ × ℝ) Str)) (hext : extract u l' d = .ok ⟨s, sz.map some⟩) :
    ∃ rep kp d', Verif.Whole.run u l' d = .ok d' ∧ Keypoints.save ⟨s, sz.map some⟩ = .ok kp ∧
      Props.Disk.Written u.en.save u.name rep kp d d' ∧ Ready u.en.save u.name d' ∧
      Calibrated w u.bpts u.nbCam u.geoms.length l c0 b0 rep := by
  obtain ⟨rep, kp, d', _, q1, q2, q3, q4, q5, _⟩ := core_correct u w pix b0 c0 hx l hl hdet hc s hs sz hsz d hd l' hext
  exact ⟨rep, kp, d', q1, q2, q3, q4, q5⟩

theorem directory_correct (hx : Exactly u w pix b0 c0 C) [Field Q] [LinearOrder Q] (ts : List (List (List (Insertion (ℝ × ℝ) Str))))
    (hts : cameraTasks u.fitLine u.cfg u.geoms u.raw u.glob u.root u.pre u.nbCam = .ok ts)
    (l : List (Insertion (ℝ × ℝ) Str)) (hl : Detection.Schedule ts l) (hdet : ∀ a ∈ l, ExactDetection w pix u.bpts a.obs)
    (hc : C l)
    (himg : ∀ c < u.nbCam, ∃ p, (images u.glob u.root u.pre c).head? = some p ∧ (u.sizeOf p).isSome = true)
    (d : Files V G Pt K Img) (hd : Ready u.en.save u.name d)
    (hkey : u.keypoints = [] ∨ u.keypoints = "None".toList ∨ d.has u.keypoints = false) :
    ∃ rep kp d', ∃ r, ∃ (s : Store (ℝ × ℝ) Str) (sz : List (Nat × Nat)), Verif.Whole.run u l d = .ok d' ∧ Props.Disk.Written u.en.save u.name rep kp d d' ∧
      Ready u.en.save u.name d' ∧ Calibrated w u.bpts u.nbCam u.geoms.length l c0 b0 rep ∧
      Store.run u.nbCam u.geoms.length l = .ok s ∧ sz.length = u.nbCam ∧ Keypoints.save ⟨s, sz.map some⟩ = .ok kp ∧
      Props.Finish.Correct (withSizes u.en (sz.map some)) u.bpts s.frames r
        (Props.Finish.readingOf r (withSizes u.en (sz.map some)).ofVec pix) rep := by
  have hmem : ∀ a ∈ l, a.obs.cam < u.nbCam ∧ a.obs.board < u.geoms.length := fun a ha => by
    have := (Start.C67_detected u.fitLine u.cfg u.geoms u.raw u.glob u.root u.pre u.nbCam ts hts l hl a).2 ha
    exact ⟨this.1, this.2.2⟩
  obtain ⟨s, hs⟩ := (Props.Store.C06_run_ok_iff u.nbCam u.geoms.length l).2 hmem
  have hsz := (Start.C67_sizes u.debug u.sizeOf u.glob u.root u.pre u.nbCam).1 (fun c hco p hp => by
    obtain ⟨q, h1, h2⟩ := himg c hco
    rw [hp] at h1
    cases h1
    exact .inl h2)
  obtain ⟨sz, z1, z2⟩ : ∃ sz : List (Nat × Nat), sz.length = u.nbCam ∧ ((List.range u.nbCam).map fun c =>
        (images u.glob u.root u.pre c).head?.map fun p => (u.sizeOf p).getD (0, 0)) = sz.map some := by
    refine ⟨(List.range u.nbCam).map fun c => ((images u.glob u.root u.pre c).head?.map fun p => (u.sizeOf p).getD (0, 0)).getD (0, 0),
      by simp, ?_⟩
    rw [List.map_map]
    refine List.map_congr_left fun c hco => ?_
    obtain ⟨p, h1, _⟩ := himg c (List.mem_range.1 hco)
    simp [h1]
  rw [z2] at hsz
  have hext : extract u l d = .ok ⟨s, sz.map some⟩ := by
    unfold extract
    have : boardExtraction d.has u.keypoints (load u d) (detect u l) = detect u l := by
      unfold boardExtraction
      rw [if_neg]
      rintro ⟨h1, h2, h3⟩
      rcases hkey with h | h | h
      · exact h1 h
      · exact h2 h
      · rw [h] at h3; cases h3
    rw [this]
    unfold detect
    rw [hsz, Outcome.bind_ok, hs]
    rfl
  obtain ⟨rep, kp, d', r, q1, q2, q3, q4, q5, q6⟩ := core_correct u w pix b0 c0 hx l hmem hdet hc s hs sz z1 d hd l hext
  exact ⟨rep, kp, d', r, s, sz, q1, q3, q4, q5, hs, z1, q2, q6⟩

theorem directory_of (hx : Exactly u w pix b0 c0 C) [Field Q] [LinearOrder Q] (ts : List (List (List (Insertion (ℝ × ℝ) Str))))
    (hts : cameraTasks u.fitLine u.cfg u.geoms u.raw u.glob u.root u.pre u.nbCam = .ok ts)
    (l : List (Insertion (ℝ × ℝ) Str)) (hl : Detection.Schedule ts l) (hdet : ∀ a ∈ l, ExactDetection w pix u.bpts a.obs)
    (hc : C l)
    (himg : ∀ c < u.nbCam, ∃ p, (images u.glob u.root u.pre c).head? = some p ∧ (u.sizeOf p).isSome = true)
    (d : Files V G Pt K Img) (hd : Ready u.en.save u.name d)
    (hkey : u.keypoints = [] ∨ u.keypoints = "None".toList ∨ d.has u.keypoints = false) :
    ∃ rep kp d', ∃ (s : Store (ℝ × ℝ) Str) (sz : List (Nat × Nat)), Verif.Whole.run u l d = .ok d' ∧ Props.Disk.Written u.en.save u.name rep kp d d' ∧
      Ready u.en.save u.name d' ∧ Calibrated w u.bpts u.nbCam u.geoms.length l c0 b0 rep ∧
      Store.run u.nbCam u.geoms.length l = .ok s ∧ sz.length = u.nbCam ∧ Keypoints.save ⟨s, sz.map some⟩ = .ok kp := by
  obtain ⟨rep, kp, d', _, s, sz, q1, q2, q3, q4, q5, q6, q7, _⟩ := directory_correct u w pix b0 c0 hx ts hts l hl hdet hc himg d hd hkey
  exact ⟨rep, kp, d', s, sz, q1, q2, q3, q4, q5, q6, q7⟩

/-- C85: a run from images. For every schedule of the detection threads: if all stored detections are exact, an image of
every camera can be read, and no keypoint file is given, the run ends, and the output directory holds the complete and
true results. -/
theorem C85_directory (hx : ExactParts u w pix b0 c0) [Field Q] [LinearOrder Q] (ts : List (List (List (Insertion (ℝ × ℝ) Str))))
    (hts : cameraTasks u.fitLine u.cfg u.geoms u.raw u.glob u.root u.pre u.nbCam = .ok ts)
    (l : List (Insertion (ℝ × ℝ) Str)) (hl : Detection.Schedule ts l) (hdet : ∀ a ∈ l, ExactDetection w pix u.bpts a.obs)
    (hc : Connected G u.nbCam u.geoms.length l b0 c0)
    (himg : ∀ c < u.nbCam, ∃ p, (images u.glob u.root u.pre c).head? = some p ∧ (u.sizeOf p).isSome = true)
    (d : Files V G Pt K Img) (hd : Ready u.en.save u.name d)
    (hkey : u.keypoints = [] ∨ u.keypoints = "None".toList ∨ d.has u.keypoints = false) :
    ∃ rep kp d', ∃ (s : Store (ℝ × ℝ) Str) (sz : List (Nat × Nat)), Verif.Whole.run u l d = .ok d' ∧ Props.Disk.Written u.en.save u.name rep kp d d' ∧
      Ready u.en.save u.name d' ∧ Calibrated w u.bpts u.nbCam u.geoms.length l c0 b0 rep ∧
      Store.run u.nbCam u.geoms.length l = .ok s ∧ sz.length = u.nbCam ∧ Keypoints.save ⟨s, sz.map some⟩ = .ok kp :=
  directory_of u w pix b0 c0 (exactly u w pix b0 c0 hx) ts hts l hl hdet hc himg d hd hkey

theorem from_keypoints_of (hsame : ∀ l l', SameObs l l' → C l → C l') (hx : Exactly u w pix b0 c0 C) (l0 : List (Insertion (ℝ × ℝ) Str)) (s0 : Store (ℝ × ℝ) Str)
    (hs0 : Store.run u.nbCam u.geoms.length l0 = .ok s0) (hdet : ∀ a ∈ l0, ExactDetection w pix u.bpts a.obs)
    (hc : C l0) (sz : List (Nat × Nat)) (hsz : sz.length = u.nbCam)
    (kp : KeyFile (ℝ × ℝ) Str) (hkp : Keypoints.save ⟨s0, sz.map some⟩ = .ok kp)
    (hne : u.debug = true → ∀ c < u.nbCam, c ∈ observingCams u.nbCam l0) (d : Files V G Pt K Img)
    (hd : Ready u.en.save u.name d) (h0 : u.keypoints ≠ []) (hN : u.keypoints ≠ "None".toList) (hh : d.has u.keypoints = true)
    (hk : d.file (loc u.keypoints) = some (.keypoints kp)) (l : List (Insertion (ℝ × ℝ) Str)) :
    ∃ rep d', Verif.Whole.run u l d = .ok d' ∧ Props.Disk.Written u.en.save u.name rep kp d d' ∧ Ready u.en.save u.name d' ∧
      Calibrated w u.bpts u.nbCam u.geoms.length l0 c0 b0 rep := by
  obtain ⟨D, hmem⟩ := Lemmas.Schedule.describes_of_run hs0
  have hne' : u.debug = true → ∀ c < u.nbCam, ∃ o ∈ s0.obs, o.cam = c := by
    intro hdb c hco
    obtain ⟨a, ha, e⟩ := List.any_eq_true.1 (List.mem_filter.1 (hne hdb c hco)).2
    exact ⟨a.obs, by rw [D.obs]; exact List.mem_map_of_mem ha, beq_iff_eq.1 e⟩
  obtain ⟨file, s, f1, f2, f3⟩ := Lemmas.Reload.reload_run u.debug u.nbCam u.geoms.length D sz hsz hne' hmem
  obtain ⟨file', s', g1, g2, g3, g4, g5, g6⟩ := Props.Detection.C08_roundtrip u.debug u.nbCam u.geoms.length l0 hmem s0 hs0 sz hsz hne'
  rw [hkp] at f1 g1
  cases f1
  cases g1
  rw [f2] at g2
  cases g2
  generalize hl1 : (List.range u.nbCam).flatMap (fun c => (Keypoints.rows s0 c).map (Keypoints.ofRow c)) = l1 at f3
  obtain ⟨D1, hmem1⟩ := Lemmas.Schedule.describes_of_run f3
  have hso : SameObs l0 l1 := .of_perm (by rw [← D.obs, ← D1.obs]; exact g3.symm)
  have hext : extract u l d = .ok ⟨s, sz.map some⟩ := by
    unfold extract boardExtraction
    rw [if_pos ⟨h0, hN, hh⟩]
    unfold load readKeypoints
    rw [hk]
    simp only [Outcome.bind_ok]
    exact f2
  obtain ⟨rep, kp', d', q1, q2, q3, q4, q5⟩ := core u w pix b0 c0 hx l1 hmem1 (fun a ha => by
      obtain ⟨b, hb, e⟩ := (hso a.obs).2 ⟨a, ha, rfl⟩
      exact e ▸ hdet b hb) (hsame _ _ hso hc) s f3 sz hsz d hd l hext
  rw [g6] at q2
  cases q2
  refine ⟨rep, d', q1, q3, q4, q5.truthful, fun c => ?_, ?_, fun a ha => ?_, ?_⟩
  · rw [q5.cameras c, hso.observingCams]
  · rw [hso.observedBoards]
    exact q5.corners
  · obtain ⟨b, hb, e⟩ := (hso a.obs).1 ⟨a, ha, rfl⟩
    rw [← e]
    exact q5.views b hb
  · obtain ⟨node, n1, n2, n3, n4, n5, n6⟩ := q5.group
    refine ⟨node, n1, n2, n3, n4, fun f => (n5 f).trans (hso.exists fun o => o.frame = f).symm, fun f hf => ⟨(n6 f hf).1, fun c ds h => ?_⟩⟩
    obtain ⟨h1, h2⟩ := (n6 f hf).2 c ds h
    exact ⟨h1, (hso.exists fun o => o.frame = f.frame ∧ o.cam = c).2 h2⟩

/-- C85: a run from the keypoint file of another. The files of `d` contain the keypoints saved after the exact detections
`l0`; a run that is given this file (and hence ignores its images) ends with complete and true results, and its own
keypoint file is the same again. -/
theorem C85_from_keypoints (hx : ExactParts u w pix b0 c0) (l0 : List (Insertion (ℝ × ℝ) Str)) (s0 : Store (ℝ × ℝ) Str)
    (hs0 : Store.run u.nbCam u.geoms.length l0 = .ok s0) (hdet : ∀ a ∈ l0, ExactDetection w pix u.bpts a.obs)
    (hc : Connected G u.nbCam u.geoms.length l0 b0 c0) (sz : List (Nat × Nat)) (hsz : sz.length = u.nbCam)
    (kp : KeyFile (ℝ × ℝ) Str) (hkp : Keypoints.save ⟨s0, sz.map some⟩ = .ok kp)
    (hne : u.debug = true → ∀ c < u.nbCam, c ∈ observingCams u.nbCam l0) (d : Files V G Pt K Img)
    (hd : Ready u.en.save u.name d) (h0 : u.keypoints ≠ []) (hN : u.keypoints ≠ "None".toList) (hh : d.has u.keypoints = true)
    (hk : d.file (loc u.keypoints) = some (.keypoints kp)) (l : List (Insertion (ℝ × ℝ) Str)) :
    ∃ rep d', Verif.Whole.run u l d = .ok d' ∧ Props.Disk.Written u.en.save u.name rep kp d d' ∧ Ready u.en.save u.name d' ∧
      Calibrated w u.bpts u.nbCam u.geoms.length l0 c0 b0 rep :=
  from_keypoints_of u w pix b0 c0 (fun _ _ h => h.connected) (exactly u w pix b0 c0 hx) l0 s0 hs0 hdet hc sz hsz kp hkp hne d hd h0 hN hh hk l

theorem rerun_of (hsame : ∀ l l', SameObs l l' → C l → C l') (hx : Exactly u w pix b0 c0 C) [Field Q] [LinearOrder Q] (ts : List (List (List (Insertion (ℝ × ℝ) Str))))
    (hts : cameraTasks u.fitLine u.cfg u.geoms u.raw u.glob u.root u.pre u.nbCam = .ok ts)
    (l : List (Insertion (ℝ × ℝ) Str)) (hl : Detection.Schedule ts l) (hdet : ∀ a ∈ l, ExactDetection w pix u.bpts a.obs)
    (hc : C l)
    (himg : ∀ c < u.nbCam, ∃ p, (images u.glob u.root u.pre c).head? = some p ∧ (u.sizeOf p).isSome = true)
    (d : Files V G Pt K Img) (hd : Ready u.en.save u.name d)
    (hkey : u.keypoints = [] ∨ u.keypoints = "None".toList ∨ d.has u.keypoints = false) :
    ∃ rep kp d', Verif.Whole.run u l d = .ok d' ∧ Props.Disk.Written u.en.save u.name rep kp d d' ∧
      Ready u.en.save u.name d' ∧ Calibrated w u.bpts u.nbCam u.geoms.length l c0 b0 rep ∧
      ∀ u' : Setup V G Pt K K' Q Img, Exactly u' w pix b0 c0 C → u'.nbCam = u.nbCam → u'.geoms.length = u.geoms.length →
        u'.bpts = u.bpts → u'.keypoints = keypointFile u.en.save → Ready u'.en.save u'.name d' →
        (u'.debug = true → ∀ c < u.nbCam, c ∈ observingCams u.nbCam l) → ∀ l',
        ∃ rep' d'', Verif.Whole.run u' l' d' = .ok d'' ∧ Props.Disk.Written u'.en.save u'.name rep' kp d' d'' ∧
          Ready u'.en.save u'.name d'' ∧ Calibrated w u.bpts u.nbCam u.geoms.length l c0 b0 rep' := by
  obtain ⟨rep, kp, d', s, sz, q1, q2, q3, q4, q5, q6, q7⟩ := directory_of u w pix b0 c0 hx ts hts l hl hdet hc himg d hd hkey
  refine ⟨rep, kp, d', q1, q2, q3, q4, fun u' hx' e1 e2 e3 e4 hr hne l' => ?_⟩
  have hp : Plain "detected_keypoints_data.yml".toList := (Props.Disk.plain_report (by simp [reportNames])).1
  have hloc : loc u'.keypoints = below u.en.save ["detected_keypoints_data.yml".toList] := by
    rw [e4]
    exact loc_join_plain _ hp
  have hfn : filename u'.keypoints = "detected_keypoints_data.yml".toList := by
    rw [e4]
    exact filename_plain _ hp
  have hnil : u'.keypoints ≠ [] := by
    rw [e4]
    exact join_ne_nil _ hp
  rw [← e1, ← e2, ← e3]
  rw [← e1, ← e2] at q5
  rw [← e3] at hdet
  rw [← e1] at q6 hne
  refine from_keypoints_of u' w pix b0 c0 hsame hx' l s q5 hdet hc sz q6 kp q7 hne d' hr hnil ?_ ?_ ?_ l'
  · intro h
    rw [h] at hfn
    exact absurd hfn (by decide)
  · unfold Disk.has
    rw [hloc, q2.keypoints, hfn]
    simp [hnil]
  · rw [hloc]
    exact q2.keypoints

/-- C85: two runs. The first starts from images, in any schedule; the second (with any options and libraries that are
exact) is given the keypoint file in the output directory of the first, and may write to the same directory. Both end;
both directories hold the complete and true results; cameras have the same poses in both, points the same positions. -/
theorem C85_rerun (hx : ExactParts u w pix b0 c0) [Field Q] [LinearOrder Q] (ts : List (List (List (Insertion (ℝ × ℝ) Str))))
    (hts : cameraTasks u.fitLine u.cfg u.geoms u.raw u.glob u.root u.pre u.nbCam = .ok ts)
    (l : List (Insertion (ℝ × ℝ) Str)) (hl : Detection.Schedule ts l) (hdet : ∀ a ∈ l, ExactDetection w pix u.bpts a.obs)
    (hc : Connected G u.nbCam u.geoms.length l b0 c0)
    (himg : ∀ c < u.nbCam, ∃ p, (images u.glob u.root u.pre c).head? = some p ∧ (u.sizeOf p).isSome = true)
    (d : Files V G Pt K Img) (hd : Ready u.en.save u.name d)
    (hkey : u.keypoints = [] ∨ u.keypoints = "None".toList ∨ d.has u.keypoints = false) :
    ∃ rep kp d', Verif.Whole.run u l d = .ok d' ∧ Props.Disk.Written u.en.save u.name rep kp d d' ∧
      Ready u.en.save u.name d' ∧ Calibrated w u.bpts u.nbCam u.geoms.length l c0 b0 rep ∧
      ∀ u' : Setup V G Pt K K' Q Img, ExactParts u' w pix b0 c0 → u'.nbCam = u.nbCam → u'.geoms.length = u.geoms.length →
        u'.bpts = u.bpts → u'.keypoints = keypointFile u.en.save → Ready u'.en.save u'.name d' →
        (u'.debug = true → ∀ c < u.nbCam, c ∈ observingCams u.nbCam l) → ∀ l',
        ∃ rep' d'', Verif.Whole.run u' l' d' = .ok d'' ∧ Props.Disk.Written u'.en.save u'.name rep' kp d' d'' ∧
          Ready u'.en.save u'.name d'' ∧ Calibrated w u.bpts u.nbCam u.geoms.length l c0 b0 rep' := by
  obtain ⟨rep, kp, d', q1, q2, q3, q4, h⟩ := rerun_of u w pix b0 c0 (fun _ _ h => h.connected) (exactly u w pix b0 c0 hx) ts hts l hl hdet
    hc himg d hd hkey
  refine ⟨rep, kp, d', q1, q2, q3, q4, fun u' hx' e1 e2 => h u' ?_ e1 e2⟩
  rw [← e1, ← e2]
  exact exactly u' w pix b0 c0 hx'

end
end Verif.Props.Whole
