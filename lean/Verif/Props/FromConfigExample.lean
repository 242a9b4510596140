import Verif.Props.FromConfigMore
import Verif.Props.OrderExample

/-! Examples for C92: the scene of the examples for C85 to C90, set up from a configuration. -/
namespace Verif.Props.FromConfig.Example
open Verif Verif.Folders Verif.Start Verif.Disk Verif.Order Verif.Whole
open Verif.FromConfig hiding geom setup
open Verif.Spec.Disk Verif.Spec.Whole Verif.Spec.Order Verif.Spec.Exact Verif.Spec.Pixels
open Verif.Spec.FromConfig hiding put
open Verif.Props.Whole.Example Verif.Props.Pixels.Example
open Verif.Props.Order.Example (half)
open Verif.Props.ExactReport.Example (pix)
open Verif.Props.Exact.Example (w)
open Verif.Props.Pipeline (S3)
open Verif.Config (File)

/-- Two cameras with different distortion models, two boards of five corners; where to save and whether to save the images
with detections is left open. -/
def cf (save : String) (det : Int) : File := fun k =>
  if k = "save_path" then some (.str save)
  else if k = "save_detection" then some (.int det)
  else if k = "number_camera" then some (.int 2)
  else if k = "number_board" then some (.int 2)
  else if k = "number_x_square" then some (.int 6)
  else if k = "number_y_square" then some (.int 2)
  else if k = "square_size" then some (.int 1)
  else if k = "length_square" then some (.real (4 / 100))
  else if k = "length_marker" then some (.real (3 / 100))
  else if k = "distortion_per_camera" then some (.ints [0, 1])
  else if k = "root_path" then some (.str "d")
  else if k = "cam_prefix" then some (.str "Cam_")
  else if k = "keypoints_path" then some (.str "None")
  else if k = "cam_params_path" then some (.str "None")
  else if k = "fix_intrinsic" then some (.int 1)
  else if k = "save_reprojection" then some (.int 1)
  else none

def cs : Config.Setup := match Config.calibration .legacy (cf "" 0) with
  | .ok s => s
  | _ => ⟨[], true, []⟩

theorem alike {k : String} (h1 : k ≠ "save_path") (h2 : k ≠ "save_detection") (a b : String) (m n : Int) :
    Alike (cf a m) (cf b n) k := by
  have e : cf a m k = cf b n k := by
    unfold cf
    rw [if_neg h1, if_neg h2, if_neg h1, if_neg h2]
  constructor
  · unfold Config.int; rw [e]
  · unfold Config.real; rw [e]
  · unfold Config.ints; rw [e]
  · unfold Config.reals; rw [e]
  · unfold FromConfig.str; rw [e]

theorem accepted (a : String) (m : Int) : Config.calibration .legacy (cf a m) = .ok cs := by
  rw [Lemmas.FromConfig.calibration_congr (fun k hk => alike (by rintro rfl; revert hk; decide) (by rintro rfl; revert hk; decide) a "" m 0)]
  decide +kernel

noncomputable def parts : Parts S3 S3 (Fin 3) ℝ ℝ ℚ Str where
  version := .legacy
  debug := true
  fitLine := fit
  raw _ _ := raw
  glob := glob
  sizeOf _ := some (640, 480)
  other _ := .throw
  num := id
  point p := if p.1 = 0 ∨ p.1 = 3 then 0 else if p.1 = 1 ∨ p.1 = 4 then 1 else 2
  numeric _ _ := ⟨search, fun _ => .throw, proj, est, n, env⟩

noncomputable def us (a : String) (m : Int) : Setup S3 S3 (Fin 3) ℝ ℝ ℚ Str :=
  FromConfig.setup parts (cf a m) cs .images

deriving instance DecidableEq for Detection.Geom

theorem geoms_eq (a : String) (m : Int) : (us a m).geoms = [geom, geom] := by
  show cs.boards.map (FromConfig.geom id) = _
  decide +kernel

theorem bpts_eq (a : String) (m : Int) : (us a m).bpts = bpts := by
  show cs.boards.map (fun b => b.pts.map fun p : ℚ × ℚ × ℚ => (if p.1 = 0 ∨ p.1 = 3 then 0 else if p.1 = 1 ∨ p.1 = 4 then 1 else 2 : Fin 3)) = _
  decide +kernel

theorem models_ok (c : Nat) : cs.models.getD c 0 = 0 ∨ cs.models.getD c 0 = 1 := by
  have : cs.models = [0, 1] := by decide +kernel
  rw [this]
  match c with
  | 0 => exact .inl rfl
  | 1 => exact .inr rfl
  | c + 2 => exact .inl rfl

theorem exact_us (a : String) (m : Int) : Props.Whole.ExactParts (us a m) w pix 0 0 where
  search := ⟨search_sound, search_exact⟩
  searches _ := ⟨search_sound, search_fails, search_exact⟩
  projection := pointwise
  models := md_ok
  brownEmpty _ _ := rfl
  kannalaEmpty _ _ := .inl rfl
  refine := fun f hf => nomatch hf
  numerics := numerics
  reportModels c _ := models_ok c
  ofVec := rfl
  brown _ _ _ _ := rfl
  kannala _ _ _ _ := rfl
  cams := rfl
  boards := by rw [bpts_eq, geoms_eq]; rfl

/-- Every schedule of the program on this configuration ends well, with the true poses in its results. -/
theorem run_us (a : String) (m : Int) {l' : List (Insertion (ℝ × ℝ) Str)} (h : Detection.Schedule ts l')
    (hr : Ready a.toList [] d0) :
    ∃ d' rep kp, program parts half l' (cf a m) d0 = (d', .ok ()) ∧ Props.Disk.Written a.toList [] rep kp d0 d' ∧
      Calibrated w bpts 2 2 l' 0 0 rep := by
  have hs := Props.Whole.Example.same h
  have ht : cameraTasks (us a m).fitLine (us a m).cfg (us a m).geoms (us a m).raw (us a m).glob (us a m).root (us a m).pre
      (us a m).nbCam = .ok ts := by
    rw [geoms_eq]
    exact Props.Whole.Example.tasks
  obtain ⟨rep, kp, d', _, _, h1, h2, _, h4, -⟩ := Props.Whole.C85_directory (us a m) w pix 0 0 (exact_us a m) ts ht l' h
    (fun x hx => by
      obtain ⟨b, hb, e⟩ := (hs x.obs).2 ⟨x, hx, rfl⟩
      rw [bpts_eq]
      exact e ▸ detected b hb) (by rw [geoms_eq]; exact hs.connected connected) himg d0 hr (.inr (.inl rfl))
  refine ⟨d', rep, kp, ?_, h2, ?_⟩
  · rw [C92_runs parts half l' (accepted a m) hr.sound]
    exact (Props.Order.C90_complete (us a m) half l' (.inr (.inl rfl)) hr.sound).2 h1
  · rw [bpts_eq, geoms_eq] at h4
    exact h4


theorem ready_of (a : String) (ha : filename a.toList ≠ []) : Ready a.toList [] d0 where
  sound := ready.sound
  clear := ⟨fun _ _ => rfl, by
    rintro x ⟨kind, _, c, f, rfl⟩
    simp [below, d0]⟩
  free b _ := by simp [below, d0]
  name := .inl rfl
  place := .inr ha

/-- The same scene saved to two directories, with and without the images of the detections: both runs end well, the five
files of results have the same contents, and the run without the images leaves the folder of them as it was. -/
example (l' : List (Insertion (ℝ × ℝ) Str)) (h : Detection.Schedule ts l') :
    ∃ df dg, program parts half l' (cf "out" 1) d0 = (df, .ok ()) ∧ program parts half l' (cf "results/new" 0) d0 = (dg, .ok ()) ∧
      contents "out".toList [] df = contents "results/new".toList [] dg ∧
      ∀ y, InFolder "results/new".toList "Detection".toList y → dg.file y = none := by
  obtain ⟨df, _, _, hf, -⟩ := run_us "out" 1 h (ready_of _ (by decide))
  obtain ⟨dg, _, _, hg, -⟩ := run_us "results/new" 0 h (ready_of _ (by decide))
  refine ⟨df, dg, hf, hg, ?_, fun y hy => ?_⟩
  · exact C92_same_results parts half l' (f := cf "out" 1) (g := cf "results/new" 0)
      (fun k hk hn => alike (by rintro rfl; exact hn (by decide)) (by rintro rfl; exact hn (by decide)) _ _ _ _)
      (ready_of _ (by decide)) (ready_of _ (by decide)) (.inr (.inl rfl)) (.inr (.inl rfl)) hf hg
  · have := (C92_images parts half l' (f := cf "results/new" 0) (.inl rfl) (d := d0) ready.sound).1 (by decide) y hy
    rw [hg] at this
    exact this

/-- With a misspelt number of boards the configuration is rejected and nothing is created. -/
example (l' : List (Insertion (ℝ × ℝ) Str)) :
    program parts half l' (Spec.FromConfig.put (cf "out" 1) "number_board" none) d0 = (d0, .throw) := by
  refine (C92_rejected parts half l' (fun s hs => ?_) ready.sound).2.2 (.inr (by decide))
  have : Config.calibration .legacy (Spec.FromConfig.put (cf "out" 1) "number_board" none) = .throw := by decide +kernel
  exact absurd (this.symm.trans hs) (by simp)

/-- A key that is not read, under any value. -/
example (l' : List (Insertion (ℝ × ℝ) Str)) (v : Option Config.Value) :
    program parts half l' (Spec.FromConfig.put (cf "out" 1) "quaternion_averaging" v) = program parts half l' (cf "out" 1) :=
  C92_ignored parts half l' _ (by decide) v

end Verif.Props.FromConfig.Example
