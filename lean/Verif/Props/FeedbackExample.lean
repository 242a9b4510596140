import Verif.Props.Feedback
import Verif.Props.FromConfigExample

/-! Example for C103: the scene of the examples for C92 is calibrated; then it is calibrated again with the intrinsics of the
camera file of the first run. -/
namespace Verif.Props.Feedback.Example
open Verif Verif.Folders Verif.Start Verif.Disk Verif.Order Verif.Whole Verif.Feedback
open Verif.FromConfig hiding geom setup
open Verif.Spec.Disk Verif.Spec.Whole Verif.Spec.Order Verif.Spec.Exact Verif.Spec.Pixels Verif.Spec.Feedback
open Verif.Props.Whole.Example Verif.Props.Pixels.Example
open Verif.Props.Order.Example (half)
open Verif.Props.ExactReport.Example (pix)
open Verif.Props.Exact.Example (w)
open Verif.Props.Pipeline (S3)
open Verif.Props.FromConfig.Example (cf cs parts us accepted geoms_eq bpts_eq models_ok exact_us ready_of)
open Verif.Output (CamEntry CamData lookup)
open Verif.Config (File)

/-- The configuration of the first run. -/
def first : File := cf "out" 0

/-- That of the second: the intrinsics are those the first run wrote. -/
def second : File := Spec.FromConfig.put first "cam_params_path" (some (.str "out/calibrated_cameras_data.yml"))

theorem accepted2 : Config.calibration .legacy second = .ok cs := by
  refine Eq.trans (Lemmas.FromConfig.calibration_congr (fun k hk => ?_) _) (accepted "out" 0)
  have : k ≠ "cam_params_path" := by rintro rfl; revert hk; decide
  exact Lemmas.FromConfig.alike_of_eq (if_neg this)

/-- What is read has a camera for each camera of the configuration. -/
theorem given_length {blank : Nat → Camera.Intr ℝ} {models : List Int} {F : List (CamEntry ℝ S3)} {cams : List (CamData ℝ)}
    (h : given blank models F = .ok cams) : cams.length = models.length := by
  unfold given Output.loadCamerasParams at h
  obtain ⟨ys, e, hf⟩ := Lemmas.Collect.foldlM_append_inv (f := Output.loadStep F) (v := fun e => Output.loadCamera F e.2 e.1) (fun _ _ => rfl) h
  rw [List.nil_append] at e
  subst e
  rw [← hf.length_eq]
  simp [cameras]

noncomputable def u2 (cams : List (CamData ℝ)) (F : List (CamEntry ℝ S3)) : Setup S3 S3 (Fin 3) ℝ ℝ ℚ Str :=
  let u := FromConfig.setup parts second cs (.file (.cameras F))
  { u with en := { u.en with cams := cams } }

theorem u2_eq {blank : Nat → Camera.Intr ℝ} {F : List (CamEntry ℝ S3)} {cams : List (CamData ℝ)} (h : given blank cs.models F = .ok cams) :
    FromConfig.setup (feed blank parts) second cs (.file (.cameras F)) = u2 cams F := by
  have hmod : (tuning second cs).models = cs.models := rfl
  have hfree : (tuning second cs).free = false := by
    show (Config.int second "fix_intrinsic" == 0) = false
    decide
  unfold FromConfig.setup feed
  simp only [hmod, h, hfree]
  rfl

theorem geoms2 (cams F) : (u2 cams F).geoms = [geom, geom] := geoms_eq "out" 0
theorem bpts2 (cams F) : (u2 cams F).bpts = bpts := bpts_eq "out" 0

theorem exact2 {cams : List (CamData ℝ)} (hc : cams.length = 2) (F : List (CamEntry ℝ S3)) :
    Props.Whole.ExactParts (u2 cams F) w pix 0 0 where
  search := ⟨search_sound, search_exact⟩
  searches _ := ⟨search_sound, search_fails, search_exact⟩
  projection := pointwise
  models := md_ok
  brownEmpty _ _ := rfl
  kannalaEmpty _ _ := .inl rfl
  refine := fun f hf => nomatch hf
  numerics := numerics
  reportModels c _ := models_ok c
  ofVec := rfl
  brown _ _ _ _ := rfl
  kannala _ _ _ _ := rfl
  cams := hc
  boards := by rw [bpts2, geoms2]; rfl

/-- One run on the scene. -/
theorem run_of (u : Setup S3 S3 (Fin 3) ℝ ℝ ℚ Str) (hx : Props.Whole.ExactParts u w pix 0 0) (hg : u.geoms = [geom, geom])
    (hb : u.bpts = bpts) (ht : cameraTasks u.fitLine u.cfg [geom, geom] u.raw u.glob u.root u.pre u.nbCam = .ok ts)
    (hn : u.nbCam = 2) (himg : ∀ c < u.nbCam, ∃ p, (images u.glob u.root u.pre c).head? = some p ∧ (u.sizeOf p).isSome = true)
    (hkey : u.keypoints = "None".toList) {l' : List (Insertion (ℝ × ℝ) Str)} (h : Detection.Schedule ts l')
    {d : Files S3 S3 (Fin 3) ℝ Str} (hr : Ready u.en.save u.name d) :
    ∃ d' rep kp, Verif.Whole.run u l' d = .ok d' ∧ Props.Disk.Written u.en.save u.name rep kp d d' ∧
      Ready u.en.save u.name d' ∧ Calibrated w bpts 2 2 l' 0 0 rep := by
  have hs := Props.Whole.Example.same h
  obtain ⟨rep, kp, d', _, _, h1, h2, h3, h4, -⟩ := Props.Whole.C85_directory u w pix 0 0 hx ts (by rw [hg]; exact ht) l' h
    (fun x hx => by
      obtain ⟨b, hb', e⟩ := (hs x.obs).2 ⟨x, hx, rfl⟩
      rw [hb]
      exact e ▸ detected b hb') (by rw [hg, hn]; exact hs.connected connected) himg d hr (.inr (.inl hkey))
  rw [hb, hg, hn] at h4
  exact ⟨d', rep, kp, h1, h2, h3, h4⟩

/-- The first run writes a camera file from which the second run takes its intrinsics; the second run ends well and its own
camera file, which replaces the first one, has two cameras with the intrinsics of the first. -/
example (blank : Nat → Camera.Intr ℝ) (l' : List (Insertion (ℝ × ℝ) Str)) (h : Detection.Schedule ts l') :
    ∃ d1 d2 F F', program parts half l' first d0 = (d1, .ok ()) ∧ program (feed blank parts) half l' second d1 = (d2, .ok ()) ∧
      d1.file (below "out".toList ["calibrated_cameras_data.yml".toList]) = some (.cameras F) ∧
      d2.file (below "out".toList ["calibrated_cameras_data.yml".toList]) = some (.cameras F') ∧
      ∀ c < 2, ∃ n n', lookup F c = some n ∧ lookup F' c = some n' ∧ Same n n' := by
  have hs := Props.Whole.Example.same h
  have hobs : ∀ c < 2, c ∈ Spec.Groups.observingCams 2 l' := by
    intro c hc
    rw [← hs.observingCams]
    have : c = 0 ∨ c = 1 := by omega
    rcases this with rfl | rfl
    · decide +kernel
    · decide +kernel
  obtain ⟨d1, rep, kp, a1, a2, a3, a4⟩ := run_of (us "out" 0) (exact_us "out" 0) (geoms_eq _ _) (bpts_eq _ _) Props.Whole.Example.tasks rfl
    himg rfl h (ready_of "out" (by decide))
  have p1 : program parts half l' first d0 = (d1, .ok ()) := by
    unfold first
    rw [FromConfig.C92_runs parts half l' (accepted "out" 0) ready.sound]
    exact (Props.Order.C90_complete (us "out" 0) half l' (.inr (.inl rfl)) ready.sound).2 a1
  obtain ⟨F, b1, b2⟩ := C103_same half half l' l' blank parts parts (f0 := first) (ready_of "out" (by decide)) (.inr (.inl rfl)) p1
  obtain ⟨F0, c1, c2⟩ := camera_file l' (us "out" 0) (ready_of "out" (by decide)) a1
  have b3 : d1.file (below "out".toList ["calibrated_cameras_data.yml".toList]) = some (.cameras F) := b1
  obtain rfl : F0 = F := Content.cameras.inj (Option.some.inj (c1.symm.trans b1))
  have hrep : rep.cameras = F0 := Content.cameras.inj (Option.some.inj (a2.cameras.symm.trans b1))
  have hcs : cs.models = [0, 1] := by decide +kernel
  have hmods : ∀ c n, lookup F0 c = some n → (Config.distortions second)[c]? = some n.model := by
    intro c n hn
    obtain ⟨cam, e1, e2, -⟩ := c2 c n hn
    have henv : (us "out" 0).en.cams = env.cams := rfl
    rw [e2]
    have : Config.distortions second = [0, 1] := by decide +kernel
    rw [this]
    rw [henv] at e1
    match c, e1 with
    | 0, e1 => cases e1; rfl
    | 1, e1 => cases e1; rfl
  have hprov : Provides cs.models F0 := by
    intro c m hm
    have hc : c < 2 := by
      have := (List.getElem?_eq_some_iff.1 hm).1
      rwa [hcs] at this
    obtain ⟨n, hn⟩ := (a4.cameras c).2 (hobs c hc)
    rw [hrep] at hn
    refine ⟨n, hn, ?_⟩
    obtain ⟨cam, e1, -, -, e4⟩ := c2 c n hn
    have henv : (us "out" 0).en.cams = env.cams := rfl
    rw [henv] at e1
    rw [hcs] at hm
    rw [e4]
    match c, hm, e1 with
    | 0, hm, e1 => cases hm; cases e1; decide
    | 1, hm, e1 => cases hm; cases e1; decide
  obtain ⟨cams, hg⟩ := (given_iff blank cs.models F0).2 hprov
  obtain ⟨d2, rep2, kp2, g1, g2, -, g4⟩ := run_of (u2 cams F0) (exact2 (by rw [given_length hg, hcs]; rfl) F0) (geoms2 _ _) (bpts2 _ _)
    Props.Whole.Example.tasks rfl himg rfl h (d := d1) a3
  have havail : available d1.has (FromConfig.str second "cam_params_path") = true := by
    have hl : loc (FromConfig.str second "cam_params_path") = below "out".toList ["calibrated_cameras_data.yml".toList] := by decide +kernel
    have hh : d1.has (FromConfig.str second "cam_params_path") = true := by
      unfold Disk.has
      rw [hl, b3]
      have e1 : FromConfig.str second "cam_params_path" ≠ [] := by decide
      have e2 : filename (FromConfig.str second "cam_params_path") ≠ [] := by decide +kernel
      simp [e1, e2]
    unfold available
    rw [hh]
    decide +kernel
  have hinit : initial d1 (FromConfig.str second "cam_params_path") = .file (.cameras F0) :=
    initial_file (by decide) (by decide) havail (by
      have hl : loc (FromConfig.str second "cam_params_path") = below "out".toList ["calibrated_cameras_data.yml".toList] := by decide +kernel
      rw [hl]
      exact b1)
  have p2 : program (feed blank parts) half l' second d1 = (d2, .ok ()) := by
    rw [FromConfig.C92_runs (feed blank parts) half l' accepted2 a3.sound, hinit, u2_eq hg]
    exact (Props.Order.C90_complete (u2 cams F0) half l' (.inr (.inl rfl)) a3.sound).2 g1
  have hdist : (Config.distortions second).take (Config.int second "number_camera").toNat = cs.models :=
    (models_eq parts (f := second) (s := cs) accepted2).symm
  obtain ⟨F', k1, k2⟩ := b2 second d1 d2 b1 (by decide +kernel) a3 (.inr (.inl rfl)) (by decide) (by decide) (by decide) havail
    (hdist ▸ hprov) hmods p2
  have hrep2 : rep2.cameras = F' := Content.cameras.inj (Option.some.inj (g2.cameras.symm.trans k1))
  refine ⟨d1, d2, F0, F', p1, p2, b1, k1, fun c hc => ?_⟩
  obtain ⟨n', hn'⟩ := (g4.cameras c).2 (hobs c hc)
  rw [hrep2] at hn'
  obtain ⟨n, hn, hsame⟩ := k2 c n' hn'
  exact ⟨n, n', hn, hn', hsame⟩

end Verif.Props.Feedback.Example
