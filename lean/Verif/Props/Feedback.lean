import Verif.Model.Feedback
import Verif.Spec.Feedback
import Verif.Props.FromConfigMore

/-! C103: a run that takes its intrinsics from a camera parameter file and holds them fixed. -/
namespace Verif.Props.Feedback
open Verif Verif.Folders Verif.Start Verif.Disk Verif.Order Verif.Whole Verif.FromConfig Verif.Feedback
open Verif.Output (lookup loadCamerasParams loadCamera loadStep saveCamerasParams saveCamera saveGroup CamEntry CamNode CamData Storage)
open Verif.Spec.Disk Verif.Spec.Whole Verif.Spec.Order Verif.Spec.Feedback

/-! ### Reading -/

section Load
variable {K G : Type} [Zero K] [One K]

/-- What a camera has after its parameters were set. -/
structure Set (m : Int) (I : Camera.Intr K) (M : Rigid.Mat3 K) (d : List K) : Prop where
  matrix : Camera.getCameraMat I = !![M 0 0, 0, M 0 2; 0, M 1 1, M 1 2; 0, 0, 1]
  brown : m = 0 → Camera.getDistortionVector m I = d.take 5
  kannala : m = 1 → Camera.getDistortionVector m I = d.take 4
  other : m ≠ 0 → m ≠ 1 → Camera.getDistortionVector m I = List.replicate 5 0

theorem set_iff (m : Int) (I : Camera.Intr K) (M : Rigid.Mat3 K) (d : List K) :
    (∃ I', Camera.setIntrinsics m I M d = .ok I') ↔ coefficients m ≤ d.length := by
  unfold coefficients Camera.setIntrinsics
  split
  · next h =>
    subst h
    constructor
    · rintro ⟨I', h⟩
      by_contra hn
      rw [Props.Camera.C37_distortion_short 0 5 rfl _ _ (by omega)] at h
      cases h
    · intro h
      obtain ⟨I', h, -⟩ := Props.Camera.C37_distortion 0 5 rfl (Camera.setCameraMat I M) d h
      exact ⟨I', h⟩
  · split
    · next h =>
      subst h
      constructor
      · rintro ⟨I', h⟩
        by_contra hn
        rw [Props.Camera.C37_distortion_short 1 4 rfl _ _ (by omega)] at h
        cases h
      · intro h
        obtain ⟨I', h, -⟩ := Props.Camera.C37_distortion 1 4 rfl (Camera.setCameraMat I M) d h
        exact ⟨I', h⟩
    · next h0 h1 =>
      refine ⟨fun _ => Nat.zero_le _, fun _ => ⟨Camera.setCameraMat I M, ?_⟩⟩
      unfold Camera.setDistortionVector
      rw [if_neg h0, if_neg h1]

theorem set_ok {m : Int} {I I' : Camera.Intr K} {M : Rigid.Mat3 K} {d : List K} (h : Camera.setIntrinsics m I M d = .ok I') :
    Set m I' M d := by
  have hd := (set_iff m I M d).1 ⟨I', h⟩
  unfold coefficients at hd
  unfold Camera.setIntrinsics at h
  by_cases h0 : m = 0
  · subst h0
    rw [if_pos rfl] at hd
    obtain ⟨J, k1, k2, k3⟩ := Props.Camera.C37_distortion 0 5 rfl (Camera.setCameraMat I M) d hd
    obtain rfl := Outcome.ok.inj (h.symm.trans k1)
    exact ⟨k3.trans (Props.Camera.C37_camera_matrix_any I M), fun _ => k2, fun e => absurd e (by decide), fun e => absurd rfl e⟩
  · by_cases h1 : m = 1
    · subst h1
      rw [if_neg h0, if_pos rfl] at hd
      obtain ⟨J, k1, k2, k3⟩ := Props.Camera.C37_distortion 1 4 rfl (Camera.setCameraMat I M) d hd
      obtain rfl := Outcome.ok.inj (h.symm.trans k1)
      exact ⟨k3.trans (Props.Camera.C37_camera_matrix_any I M), fun e => absurd e (by decide), fun _ => k2, fun _ e => absurd rfl e⟩
    · unfold Camera.setDistortionVector at h
      rw [if_neg h0, if_neg h1] at h
      obtain rfl := Outcome.ok.inj h
      refine ⟨Props.Camera.C37_camera_matrix_any I M, fun e => absurd e h0, fun e => absurd e h1, fun _ _ => ?_⟩
      unfold Camera.getDistortionVector
      rw [if_neg h0, if_neg h1]

theorem load_one_iff (F : List (CamEntry K G)) (c : Nat) (cam : CamData K) :
    (∃ r, loadCamera F c cam = .ok r) ↔ ∃ n, lookup F c = some n ∧ coefficients cam.model ≤ n.distortion.length := by
  unfold loadCamera
  cases hl : lookup F c with
  | none => simp
  | some n =>
    simp only [Option.some.injEq, exists_eq_left']
    rw [← set_iff cam.model cam.intr n.matrix n.distortion]
    constructor
    · rintro ⟨r, h⟩
      obtain ⟨I, hI, -⟩ := Outcome.bind_eq_ok.1 h
      exact ⟨I, hI⟩
    · rintro ⟨I, hI⟩
      exact ⟨{ cam with intr := I }, by rw [hI]; rfl⟩

theorem load_one {F : List (CamEntry K G)} {c : Nat} {cam r : CamData K} (h : loadCamera F c cam = .ok r) :
    r.model = cam.model ∧ r.size = cam.size ∧ ∃ n, lookup F c = some n ∧ Set r.model r.intr n.matrix n.distortion := by
  unfold loadCamera at h
  cases hl : lookup F c with
  | none => rw [hl] at h; cases h
  | some n =>
    rw [hl] at h
    obtain ⟨I, hI, h⟩ := Outcome.bind_eq_ok.1 h
    obtain rfl := Outcome.ok.inj h
    exact ⟨rfl, rfl, n, rfl, set_ok hI⟩

omit [Zero K] [One K] in
theorem load_all {F : List (CamEntry K G)} {cams r : List (CamData K)} (h : loadCamerasParams F cams = .ok r) :
    ∀ (c : Nat) y, r[c]? = some y → ∃ cam, cams[c]? = some cam ∧ loadCamera F c cam = .ok y := by
  unfold loadCamerasParams at h
  obtain ⟨ys, e, hf⟩ := Lemmas.Collect.foldlM_append_inv (f := loadStep F) (v := fun e => loadCamera F e.2 e.1) (fun _ _ => rfl) h
  rw [List.nil_append] at e
  subst e
  intro c y hy
  obtain ⟨hlt, hy'⟩ := List.getElem?_eq_some_iff.1 hy
  have hlen : c < cams.zipIdx.length := by rw [hf.length_eq]; exact hlt
  have := hf.get (i := c) hlen hlt
  simp only [List.get_eq_getElem, List.getElem_zipIdx, Nat.zero_add] at this
  rw [hy'] at this
  exact ⟨cams[c]'(by simpa using hlen), List.getElem?_eq_getElem _, this⟩

theorem load_iff (F : List (CamEntry K G)) (cams : List (CamData K)) :
    (∃ r, loadCamerasParams F cams = .ok r) ↔
      ∀ (c : Nat) cam, cams[c]? = some cam → ∃ n, lookup F c = some n ∧ coefficients cam.model ≤ n.distortion.length := by
  constructor
  · rintro ⟨r, h⟩ c cam hc
    have h' := h
    unfold loadCamerasParams at h'
    obtain ⟨ys, e, hf⟩ := Lemmas.Collect.foldlM_append_inv (f := loadStep F) (v := fun e => loadCamera F e.2 e.1) (fun _ _ => rfl) h'
    rw [List.nil_append] at e
    subst e
    obtain ⟨hlt, hc'⟩ := List.getElem?_eq_some_iff.1 hc
    have hlen : c < r.length := by rw [← hf.length_eq]; simpa using hlt
    obtain ⟨cam', h1, h2⟩ := load_all h c r[c] (List.getElem?_eq_getElem hlen)
    obtain rfl := Option.some.inj (h1.symm.trans hc)
    exact (load_one_iff F c cam').1 ⟨_, h2⟩
  · intro h
    unfold loadCamerasParams
    have : ∀ (l : List (CamData K × Nat)) acc, (∀ e ∈ l, ∃ y, loadCamera F e.2 e.1 = .ok y) →
        ∃ r, Outcome.foldlM (loadStep F) acc l = .ok r := by
      intro l
      induction l with
      | nil => intro acc _; exact ⟨acc, rfl⟩
      | cons e l ih =>
        intro acc h
        obtain ⟨y, hy⟩ := h e (by simp)
        have hs : loadStep F acc e = .ok (acc ++ [y]) := by
          unfold loadStep
          rw [hy]
          rfl
        rw [Outcome.foldlM_cons, hs]
        exact ih _ fun e he => h e (by simp [he])
    exact this _ _ fun e he => (load_one_iff F e.2 e.1).2 (h e.2 e.1 (List.mem_zipIdx_iff_getElem?.1 he))

omit [Zero K] [One K] in
theorem cameras_get (blank : Nat → Camera.Intr K) (models : List Int) (c : Nat) :
    (cameras blank models)[c]? = models[c]?.map fun m => ⟨m, blank c, none⟩ := by
  unfold cameras
  rw [List.getElem?_map, List.getElem?_zipIdx]
  cases models[c]? with
  | none => rfl
  | some m => simp

theorem given_iff (blank : Nat → Camera.Intr K) (models : List Int) (F : List (CamEntry K G)) :
    (∃ r, given blank models F = .ok r) ↔ Provides models F := by
  unfold given Provides
  rw [load_iff]
  constructor
  · intro h c m hm
    exact h c ⟨m, blank c, none⟩ (by rw [cameras_get, hm]; rfl)
  · intro h c cam hc
    rw [cameras_get, Option.map_eq_some_iff] at hc
    obtain ⟨m, hm, e⟩ := hc
    subst e
    exact h c m hm

end Load

/-! ### Writing -/

section Save
variable {K G : Type} [Zero K] [One K] [Group G]

/-- The entry of a camera is about a known camera. -/
def About (cams : List (CamData K)) (x : CamEntry K G) : Prop :=
  ∀ c n, x = .camera c n → ∃ cam, cams[c]? = some cam ∧ n.model = cam.model ∧ n.matrix = Camera.getCameraMat cam.intr ∧
    n.distortion = Camera.getDistortionVector cam.model cam.intr

theorem about_count (cams : List (CamData K)) (k : Nat) : About cams (.nbCamera k : CamEntry K G) :=
  fun _ _ en => nomatch en

theorem about_put {cams : List (CamData K)} {fs : Storage (CamEntry K G)} {x : CamEntry K G} (h : ∀ y ∈ fs.out, About cams y)
    (hx : About cams x) : ∀ y ∈ (fs.put x).out, About cams y := by
  unfold Storage.put
  split
  · intro y hy
    rw [List.mem_append, List.mem_singleton] at hy
    rcases hy with hy | rfl
    · exact h y hy
    · exact hx
  · exact h

theorem about_camera {cams : List (CamData K)} {i : Nat} {g : Groups.CamGroup G} {fs fs' : Storage (CamEntry K G)} {e : Nat × Unit}
    (h : ∀ y ∈ fs.out, About cams y) (hs : saveCamera cams i g fs e = .ok fs') : ∀ y ∈ fs'.out, About cams y := by
  unfold saveCamera at hs
  split at hs
  · cases hs; exact h
  · next cam hc =>
    split at hs
    · split at hs
      · cases hs
      · obtain rfl := Outcome.ok.inj hs
        refine about_put h fun c n en => ?_
        cases en
        exact ⟨cam, hc, rfl, rfl, rfl⟩
    · cases hs; exact h

theorem saved {cams : List (CamData K)} {gs : OMap Nat (Groups.CamGroup G)} {F : List (CamEntry K G)}
    (h : saveCamerasParams cams gs = .ok F) {c : Nat} {n : CamNode K G} (hn : lookup F c = some n) :
    ∃ cam, cams[c]? = some cam ∧ n.model = cam.model ∧ n.matrix = Camera.getCameraMat cam.intr ∧
      n.distortion = Camera.getDistortionVector cam.model cam.intr := by
  unfold saveCamerasParams at h
  obtain ⟨fs, hfs, e⟩ := Outcome.bind_eq_ok.1 h
  obtain rfl := Outcome.ok.inj e
  have key : ∀ y ∈ fs.out, About cams y := by
    refine Outcome.foldlM_inv (fun fs : Storage (CamEntry K G) => ∀ y ∈ fs.out, About cams y) ?_ (by intro y hy; cases hy) hfs
    intro s t x _ hs ht
    unfold saveGroup at ht
    obtain ⟨s', ht', e⟩ := Outcome.bind_eq_ok.1 ht
    obtain rfl := Outcome.ok.inj e
    show ∀ y ∈ s'.out, About cams y
    exact Outcome.foldlM_inv (fun fs : Storage (CamEntry K G) => ∀ y ∈ fs.out, About cams y)
      (fun _ _ _ _ h1 h2 => about_camera h1 h2) (about_put hs (about_count cams _)) ht'
  unfold lookup at hn
  obtain ⟨y, hy, hn'⟩ := List.exists_of_findSome?_eq_some hn
  cases y with
  | nbCamera _ => cases hn'
  | camera i m =>
    simp only at hn'
    split at hn'
    · next e =>
      subst e
      obtain rfl := Option.some.inj hn'
      exact key _ hy i m rfl
    · cases hn'

end Save

/-! ### Whole runs -/

section Run
variable {V G Pt K K' Q Img : Type} [Zero K] [One K] [Group G] [SMul G Pt] [Field K'] [LinearOrder K']
variable (half half0 : Str → Content V G Pt K Img (KeyFile (ℝ × ℝ) Str)) (l l0 : List (Insertion (ℝ × ℝ) Str))

/-- The camera file of a run. -/
theorem camera_file (u : Setup V G Pt K K' Q Img) {d d' : Files V G Pt K Img} (hr : Ready u.en.save u.name d)
    (h : Verif.Whole.run u l d = .ok d') :
    ∃ F', d'.file (below u.en.save [cameraName u.name]) = some (.cameras F') ∧
      ∀ c n', lookup F' c = some n' → ∃ cam, u.en.cams[c]? = some cam ∧ n'.model = cam.model ∧
        n'.matrix = Camera.getCameraMat cam.intr ∧ n'.distortion = Camera.getDistortionVector cam.model cam.intr := by
  obtain ⟨k, y, r, rep, kp, -, -, -, h4, -, h6⟩ := Props.FromConfig.contents_run l u hr h
  refine ⟨rep.cameras, ?_, fun c n' hn => ?_⟩
  · unfold Props.FromConfig.contents at h6
    rw [List.map_cons] at h6
    exact (List.cons.inj h6).1
  · have hsave : ∃ gs, saveCamerasParams (withSizes u.en k.sizes).cams gs = .ok rep.cameras := by
      unfold Finish.report at h4
      obtain ⟨_, _, h4⟩ := Outcome.bind_eq_ok.1 h4
      obtain ⟨_, _, h4⟩ := Outcome.bind_eq_ok.1 h4
      obtain ⟨_, _, h4⟩ := Outcome.bind_eq_ok.1 h4
      obtain ⟨_, _, h4⟩ := Outcome.bind_eq_ok.1 h4
      obtain ⟨cs, c1, h4⟩ := Outcome.bind_eq_ok.1 h4
      obtain ⟨_, _, h4⟩ := Outcome.bind_eq_ok.1 h4
      obtain ⟨_, _, h4⟩ := Outcome.bind_eq_ok.1 h4
      obtain ⟨_, _, h4⟩ := Outcome.bind_eq_ok.1 h4
      cases h4
      exact ⟨_, c1⟩
    obtain ⟨gs, hsave⟩ := hsave
    obtain ⟨cam, e1, e2, e3, e4⟩ := saved hsave hn
    unfold withSizes at e1
    rw [List.getElem?_zipWith] at e1
    cases hc : u.en.cams[c]? with
    | none => rw [hc] at e1; cases e1
    | some cam0 =>
      rw [hc] at e1
      cases hz : k.sizes[c]? with
      | none => rw [hz] at e1; cases e1
      | some z =>
        rw [hz] at e1
        obtain rfl := Option.some.inj e1
        exact ⟨cam0, rfl, e2, e3, e4⟩

omit [Zero K] [One K] [Group G] [SMul G Pt] [Field K'] [LinearOrder K'] in
/-- The distortion models of a configuration that is accepted. -/
theorem models_eq (x : Parts V G Pt K K' Q Img) {f : Config.File} {s : Config.Setup} (h : Config.calibration x.version f = .ok s) :
    s.models = (Config.distortions f).take (Config.int f "number_camera").toNat := by
  obtain ⟨h1, _, xs, ys, _, pats, _, _, _, k2, k3, k4⟩ := Props.Config.setup_boards h
  refine List.ext_getElem? fun c => ?_
  rw [List.getElem?_take]
  split
  · next hc =>
    obtain ⟨m, e1, e2⟩ := k3 c hc
    rw [e1, e2]
  · next hc =>
    exact List.getElem?_eq_none (by rw [k4]; omega)

theorem runs (x : Parts V G Pt K K' Q Img) {f : Config.File} {d d' : Files V G Pt K Img} (hs : Sound d)
    (ha : Apart (str f "save_path") (str f "keypoints_path")) (h : program x half l f d = (d', .ok ())) :
    ∃ s, Config.calibration x.version f = .ok s ∧
      Verif.Whole.run (setup x f s (initial d (str f "cam_params_path"))) l d = .ok d' := by
  have hacc : ∃ s, Config.calibration x.version f = .ok s := by
    by_contra hn
    exact (Props.FromConfig.C92_rejected x half l (fun s e => hn ⟨s, e⟩) hs).1 () (by rw [h])
  obtain ⟨s, hc⟩ := hacc
  rw [Props.FromConfig.C92_runs x half l hc hs] at h
  exact ⟨s, hc, (Props.Order.C90_complete (setup x f s (initial d (str f "cam_params_path"))) half l ha hs).1 h⟩

theorem initial_file {C : Type} {d : Disk C} {p : Str} (h0 : p ≠ []) (h1 : p ≠ "None".toList) (hp : available d.has p = true) {F : C}
    (hF : d.file (loc p) = some F) : initial d p = .file F := by
  unfold initial
  rw [if_pos ⟨h0, h1⟩, if_pos hp, hF]

variable (blank : Nat → Camera.Intr K) (x x0 : Parts V G Pt K K' Q Img)

/-- C103: a run that is given the intrinsics of a camera parameter file and told to keep them writes, for every camera in its
own camera file, the focal lengths, the principal point and the distortion coefficients that the given file has for that
camera. -/
theorem C103_fixed {f : Config.File} {d d' : Files V G Pt K Img}
    (hr : Ready (str f "save_path") (str f "camera_params_file_name") d) (ha : Apart (str f "save_path") (str f "keypoints_path"))
    (hfix : Config.int f "fix_intrinsic" ≠ 0) (h0 : str f "cam_params_path" ≠ []) (h1 : str f "cam_params_path" ≠ "None".toList)
    (hp : available d.has (str f "cam_params_path") = true) {F : List (CamEntry K G)}
    (hF : d.file (loc (str f "cam_params_path")) = some (.cameras F))
    (hall : Provides ((Config.distortions f).take (Config.int f "number_camera").toNat) F)
    (h : program (feed blank x) half l f d = (d', .ok ())) :
    ∃ F', d'.file (below (str f "save_path") [cameraName (str f "camera_params_file_name")]) = some (.cameras F') ∧
      ∀ c n', lookup F' c = some n' → (Config.distortions f)[c]? = some n'.model ∧ ∃ n, lookup F c = some n ∧ Taken n n' := by
  obtain ⟨s, hc, hrun⟩ := runs half l (feed blank x) hr.sound ha h
  rw [initial_file h0 h1 hp hF] at hrun
  obtain ⟨F', e1, e2⟩ := camera_file l (setup (feed blank x) f s (.file (.cameras F))) hr hrun
  have hm := models_eq (feed blank x) hc
  obtain ⟨cams, hg⟩ := (given_iff blank s.models F).2 (hm ▸ hall)
  have hcams : (setup (feed blank x) f s (.file (.cameras F))).en.cams = cams := by
    have hfree : (tuning f s).free = false := by
      show (Config.int f "fix_intrinsic" == 0) = false
      simpa using hfix
    have hmod : (tuning f s).models = s.models := rfl
    show ((feed blank x).numeric (tuning f s) (.file (.cameras F))).en.cams = cams
    unfold feed
    simp only [hmod, hg, hfree]
    rfl
  refine ⟨F', e1, fun c n' hn => ?_⟩
  obtain ⟨cam, k1, k2, k3, k4⟩ := e2 c n' hn
  rw [hcams] at k1
  obtain ⟨cam0, j1, j2⟩ := load_all hg c cam k1
  obtain ⟨j3, -, n, j4, j5⟩ := load_one j2
  rw [cameras_get, Option.map_eq_some_iff] at j1
  obtain ⟨m, j1, e⟩ := j1
  subst e
  refine ⟨?_, n, j4, ?_⟩
  · rw [k2, j3]
    rw [hm] at j1
    rw [List.getElem?_take] at j1
    split at j1
    · exact j1
    · cases j1
  · exact ⟨k3.trans j5.matrix, fun h => k4.trans (j5.brown (k2 ▸ h)), fun h => k4.trans (j5.kannala (k2 ▸ h)),
      fun a b => k4.trans (j5.other (k2 ▸ a) (k2 ▸ b))⟩

/-- C103: a run writes its camera file; a later run that is given this file, and told to keep the intrinsics, for cameras of
the same models, writes the same intrinsics for every camera in its own camera file. -/
theorem C103_same {f0 : Config.File} {d0 d1 : Files V G Pt K Img}
    (hr0 : Ready (str f0 "save_path") (str f0 "camera_params_file_name") d0)
    (ha0 : Apart (str f0 "save_path") (str f0 "keypoints_path")) (hrun0 : program x0 half0 l0 f0 d0 = (d1, .ok ())) :
    ∃ F, d1.file (below (str f0 "save_path") [cameraName (str f0 "camera_params_file_name")]) = some (.cameras F) ∧
      ∀ (f : Config.File) (d d' : Files V G Pt K Img), d.file (below (str f0 "save_path") [cameraName (str f0 "camera_params_file_name")]) = some (.cameras F) →
        loc (str f "cam_params_path") = below (str f0 "save_path") [cameraName (str f0 "camera_params_file_name")] →
        Ready (str f "save_path") (str f "camera_params_file_name") d → Apart (str f "save_path") (str f "keypoints_path") →
        Config.int f "fix_intrinsic" ≠ 0 → str f "cam_params_path" ≠ [] → str f "cam_params_path" ≠ "None".toList →
        available d.has (str f "cam_params_path") = true →
        Provides ((Config.distortions f).take (Config.int f "number_camera").toNat) F →
        (∀ c n, lookup F c = some n → (Config.distortions f)[c]? = some n.model) →
        program (feed blank x) half l f d = (d', .ok ()) →
        ∃ F', d'.file (below (str f "save_path") [cameraName (str f "camera_params_file_name")]) = some (.cameras F') ∧
          ∀ c n', lookup F' c = some n' → ∃ n, lookup F c = some n ∧ Same n n' := by
  obtain ⟨s0, hc0, hw0⟩ := runs half0 l0 x0 hr0.sound ha0 hrun0
  obtain ⟨F, e1, e2⟩ := camera_file l0 (setup x0 f0 s0 (initial d0 (str f0 "cam_params_path"))) hr0 hw0
  refine ⟨F, e1, fun f d d' hF hpl hr ha hfix h0 h1 hp hall hmod h => ?_⟩
  obtain ⟨F', g1, g2⟩ := C103_fixed half l blank x hr ha hfix h0 h1 hp (hpl ▸ hF) hall h
  refine ⟨F', g1, fun c n' hn => ?_⟩
  obtain ⟨hm, n, hl, ht⟩ := g2 c n' hn
  have hmm : n'.model = n.model := Option.some.inj (hm.symm.trans (hmod c n hl))
  obtain ⟨cam, -, k2, k3, k4⟩ := e2 c n hl
  refine ⟨n, hl, hmm, ?_, ?_⟩
  · rw [ht.matrix, k3]
    rfl
  · unfold Camera.getDistortionVector at k4
    rw [← k2] at k4
    by_cases a : n.model = 0
    · rw [if_pos a] at k4
      rw [ht.brown (hmm.trans a), k4]
      rfl
    · rw [if_neg a] at k4
      by_cases b : n.model = 1
      · rw [if_pos b] at k4
        rw [ht.kannala (hmm.trans b), k4]
        rfl
      · rw [if_neg b] at k4
        rw [ht.other (by rwa [hmm]) (by rwa [hmm]), k4]

/-- C103: if the file does not have intrinsics for every camera, as after a run whose cameras ended up in several groups, a run
that detects a board does not end well and leaves no file. -/
theorem C103_incomplete {f : Config.File} {d : Files V G Pt K Img} (hs : Sound d) (h0 : str f "cam_params_path" ≠ [])
    (h1 : str f "cam_params_path" ≠ "None".toList) (hp : available d.has (str f "cam_params_path") = true) {F : List (CamEntry K G)}
    (hF : d.file (loc (str f "cam_params_path")) = some (.cameras F))
    (hno : ¬ Provides ((Config.distortions f).take (Config.int f "number_camera").toNat) F)
    (hkey : str f "keypoints_path" = [] ∨ str f "keypoints_path" = "None".toList ∨
      d.has (str f "keypoints_path") = false ∧ NotAbove (str f "save_path") (str f "keypoints_path")) (hl : l ≠ []) :
    OnlySaveDir (str f "save_path") d (program (feed blank x) half l f d).1 ∧
      (program (feed blank x) half l f d).2 ≠ .ok () := by
  by_cases h : ∃ s, Config.calibration x.version f = .ok s
  · obtain ⟨s, h⟩ := h
    have h' : Config.calibration (feed blank x).version f = .ok s := h
    rw [Props.FromConfig.C92_runs (feed blank x) half l h' hs, initial_file h0 h1 hp hF]
    have hsearch : (setup (feed blank x) f s (.file (.cameras F))).search = fun _ _ _ _ => .ub := by
      show ((feed blank x).numeric (tuning f s) (.file (.cameras F))).search = _
      unfold feed
      have hmod : (tuning f s).models = s.models := rfl
      simp only [hmod]
      cases hg : given blank s.models F with
      | ok r =>
        refine absurd ((given_iff blank s.models F).1 ⟨r, hg⟩) ?_
        rw [models_eq x h]
        exact hno
      | _ => rfl
    refine Props.Order.C90_early (setup (feed blank x) f s (.file (.cameras F))) half l (hkey.imp_right fun h => h.imp_right And.right) hs
      fun k y hk hc => ?_
    obtain ⟨z, hz, -⟩ := (Props.Order.calibrate_iff _ k y).1 hc
    obtain ⟨e, he, -⟩ := Outcome.bind_eq_ok.1 hz
    rw [hsearch] at he
    refine Props.FromConfig.searches_unread _ _ ?_ e he
    unfold Whole.extract boardExtraction at hk
    rw [if_neg] at hk
    · obtain ⟨sz, -, hk⟩ := Outcome.bind_eq_ok.1 hk
      obtain ⟨st, hst, hk⟩ := Outcome.bind_eq_ok.1 hk
      cases hk
      show st.obs ≠ []
      rw [(Lemmas.Schedule.describes_of_run hst).1.obs]
      simpa using hl
    · rintro ⟨a, b, c⟩
      rcases hkey with e | e | ⟨e, -⟩
      · exact a e
      · exact b e
      · exact absurd (c.symm.trans e) (by decide)
  · have := Props.FromConfig.C92_rejected (feed blank x) half l (fun s hx => h ⟨s, hx⟩) hs
    exact ⟨this.2.1, this.1 ()⟩

end Run

end Verif.Props.Feedback
