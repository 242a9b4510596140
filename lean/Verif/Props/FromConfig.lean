import Verif.Lemmas.FromConfig
import Verif.Props.OrderFail

/-!
C92: from the configuration file to the run: which keys matter, what a missing key means, where results go and which
options change nothing but what they name.
-/
namespace Verif.Props.FromConfig
open Verif Verif.Folders Verif.Start Verif.Disk Verif.Order Verif.Order.Act Verif.Whole Verif.FromConfig Verif.Spec.FromConfig
open Verif.Spec.Disk Verif.Spec.Order Verif.Spec.Whole Verif.Lemmas.FromConfig Verif.Lemmas.Order Verif.Lemmas.Disk
open Verif.Props.Order (stays_save stays_workflow remains_of_within Way)
open Verif.Props.Crash (Within)
open Verif.Config (File)

/-! ### The output directory is made once -/

section
variable {C : Type}

theorem mkdirs_dir (ls : List Loc) : ∀ {d d' : Disk C}, Outcome.foldlM mkdir d ls = .ok d' →
    (∀ x, d.dir x = true → d'.dir x = true) ∧ ∀ x ∈ ls, d'.dir x = true := by
  induction ls with
  | nil => intro d d' h; cases h; exact ⟨fun _ => id, by simp⟩
  | cons a ls ih =>
    intro d d' h
    rw [Outcome.foldlM_cons] at h
    obtain ⟨e, h1, h2⟩ := Outcome.bind_eq_ok.1 h
    obtain ⟨i1, i2⟩ := ih h2
    have he : (∀ x, d.dir x = true → e.dir x = true) ∧ e.dir a = true := by
      unfold mkdir at h1
      split at h1
      · next hd => cases h1; exact ⟨fun _ => id, hd⟩
      · split at h1
        · cases h1
        · cases h1
          unfold Disk.addDir
          exact ⟨fun x hx => by simp [hx], by simp⟩
    refine ⟨fun x hx => i1 x (he.1 x hx), fun x hx => ?_⟩
    rcases List.mem_cons.1 hx with rfl | hx
    · exact i1 _ he.2
    · exact i2 _ hx

theorem ensure_twice {p : Str} {d d1 : Disk C} (hs : Sound d) (h : ensure p d = (d1, .ok ())) : ensure p d1 = (d1, .ok ()) := by
  have hs1 : Sound d1 := by
    have := (stays_save p d hs).sound
    rwa [h] at this
  by_cases hc : (!d.has p && decide (filename p ≠ [])) = true
  · have h' := h
    unfold ensure at h'
    rw [if_pos hc, Lemmas.Order.create_ok] at h'
    have hd : d1.dir (loc p) = true := by
      unfold Disk.createDirectories at h'
      have hm := (mkdirs_dir _ h').2
      cases hn : (loc p).names.length with
      | zero =>
        have : loc p = ⟨(loc p).abs, []⟩ := by
          have h0 := List.length_eq_zero_iff.1 hn
          cases hl : loc p
          rw [hl] at h0
          cases h0
          rfl
        rw [this]
        exact hs1.base _
      | succ n =>
        refine hm _ (List.mem_map.2 ⟨n, by simp [hn], ?_⟩)
        rw [← hn, List.take_length]
    unfold ensure
    rw [if_neg]
    intro hc'
    simp only [Bool.and_eq_true, Bool.not_eq_true', decide_eq_true_eq] at hc'
    have hp : p ≠ [] := by rintro rfl; exact hc'.2 rfl
    have : d1.has p = true := by
      unfold Disk.has
      simp [hp, hd]
    rw [this] at hc'
    cases hc'.1
  · have h' := h
    unfold ensure at h'
    rw [if_neg hc] at h'
    cases h'
    exact h

end

section
variable {V G Pt K K' Q Img : Type} [Group G] [SMul G Pt] [Field K'] [LinearOrder K'] [Zero K] [One K]
    (x : Parts V G Pt K K' Q Img) (half : Str → Content V G Pt K Img (KeyFile (ℝ × ℝ) Str)) (l : List (Insertion (ℝ × ℝ) Str))

theorem initial_ensure {C : Type} {p params : Str} {d : Disk C} (hs : Sound d) :
    initial (ensure p d).1 params = initial d params := by
  have hw := stays_save p d hs
  have hf : (ensure p d).1.file (loc params) = d.file (loc params) := hw.others _ id
  unfold initial
  split
  · rw [hf]
    cases h2 : d.file (loc params) with
    | none => simp
    | some c =>
      have hh : available (ensure p d).1.has params = available d.has params := by
        unfold available Disk.has
        rw [hf, h2]
        have hdir : d.dir (loc params) = false := by
          cases hx : d.dir (loc params) with
          | false => rfl
          | true => rw [hs.either _ hx] at h2; cases h2
        have hdir' : (ensure p d).1.dir (loc params) = false := by
          cases hx : (ensure p d).1.dir (loc params) with
          | false => rfl
          | true => rw [hw.sound.either _ hx] at hf; rw [h2] at hf; cases hf
        rw [hdir, hdir']
      rw [hh]
  · rfl

theorem checks_of_calibration {v : Config.Version} {f : File} {s : Config.Setup} (h : Config.calibration v f = .ok s) :
    checks f = .ok () := by
  unfold Config.calibration at h
  unfold checks
  split at h
  · cases h
  · next h1 =>
    rw [if_neg h1]
    split at h
    · cases h
    · next h2 =>
      rw [if_neg h2]
      obtain ⟨q, hq, -⟩ := Outcome.bind_eq_ok.1 h
      rw [hq]
      rfl

theorem workflow_ensure (u : Setup V G Pt K K' Q Img) {d d1 : Files V G Pt K Img} (hs : Sound d)
    (h : ensure u.en.save d = (d1, .ok ())) : workflow u half l d1 = workflow u half l d := by
  unfold workflow
  rw [bind_of (ensure_twice hs h), bind_of h]

/-- C92: a configuration that the constructor accepts runs as the workflow of C90 with the values of the file. -/
theorem C92_runs {f : File} {s : Config.Setup} (h : Config.calibration x.version f = .ok s) {d : Files V G Pt K Img}
    (hs : Sound d) :
    program x half l f d = workflow (setup x f s (initial d (str f "cam_params_path"))) half l d := by
  unfold program construct
  have hc := checks_of_calibration h
  rw [hc, h]
  rcases he : ensure (str f "save_path") d with ⟨d1, o⟩
  have h1 : (ensure (str f "save_path") d).1 = d1 := by rw [he]
  have h2 : (ensure (setup x f s (initial d (str f "cam_params_path"))).en.save d) = (d1, o) := he
  cases o with
  | ok _ =>
    rw [← workflow_ensure half l _ hs h2]
    show (Act.bind _ _) d = _
    have hi := initial_ensure (p := str f "save_path") (params := str f "cam_params_path") hs
    rw [h1] at hi
    rw [← hi]
    have e1 : (Act.bind (Act.compute (.ok ())) fun _ => Act.bind (ensure (str f "save_path")) fun _ =>
        Act.bind (Act.compute (.ok s)) fun s => Act.bind (Act.read fun d => .ok (initial d (str f "cam_params_path"))) fun ini =>
          (pure (setup x f s ini) : Act (Files V G Pt K Img) (Setup V G Pt K K' Q Img))) d =
        (d1, .ok (setup x f s (initial d1 (str f "cam_params_path")))) := by
      simp only [Act.bind, Act.compute, Act.read, he]
      rfl
    exact bind_of (D := Files V G Pt K Img) e1
  | _ =>
    simp only [workflow, Bind.bind, Act.bind, Act.compute, h2, he]

/-- C92: a configuration that the constructor rejects fails, and at most the output directory is made; with a number of
cameras or boards that is missing or not positive nothing at all is done. -/
theorem C92_rejected {f : File} (h : ∀ s, Config.calibration x.version f ≠ .ok s) {d : Files V G Pt K Img} (hs : Sound d) :
    (∀ y, (program x half l f d).2 ≠ .ok y) ∧ OnlySaveDir (str f "save_path") d (program x half l f d).1 ∧
    (Config.int f "number_camera" ≤ 0 ∨ Config.int f "number_board" ≤ 0 → program x half l f d = (d, .throw)) := by
  have hw := stays_save (str f "save_path") d hs
  have only : OnlySaveDir (str f "save_path") d (ensure (str f "save_path") d).1 :=
    ⟨hw.dirs, hw.newDirs, funext fun x => hw.others x id⟩
  have same : OnlySaveDir (str f "save_path") d d := ⟨fun _ => id, fun _ => .inl, rfl⟩
  have hbad : Config.int f "number_camera" ≤ 0 ∨ Config.int f "number_board" ≤ 0 → program x half l f d = (d, .throw) := by
    intro hb
    have hc : checks f = .throw := by
      unfold checks
      by_cases h1 : Config.int f "number_camera" ≤ 0
      · rw [if_pos h1]
      · rw [if_neg h1, if_pos (hb.resolve_left h1)]
    unfold program construct
    rw [hc]
    rfl
  refine ⟨?_, ?_, hbad⟩
  all_goals
    unfold program construct
    simp only [Bind.bind, Act.bind, Act.compute]
    cases checks f with
    | ok _ =>
      simp only
      rcases he : ensure (str f "save_path") d with ⟨d1, o⟩
      rw [he] at only
      cases o with
      | ok _ =>
        simp only
        cases hcal : Config.calibration x.version f with
        | ok s => exact absurd hcal (h s)
        | _ => first | exact only | (intro y hy; cases hy)
      | _ => first | exact only | (intro y hy; cases hy)
    | _ => first | exact same | (intro y hy; cases hy)

/-- C92: whatever the configuration and however the run ends, nothing is gone, and nothing is new or changed but result files
in the directory that `save_path` names (the camera parameters under `camera_params_file_name`) and directories for them. -/
theorem C92_where {f : File} (hname : str f "camera_params_file_name" = [] ∨ Plain (str f "camera_params_file_name"))
    {d : Files V G Pt K Img} (hs : Sound d) :
    Remains (str f "save_path") (str f "camera_params_file_name") d (program x half l f d).1 := by
  by_cases h : ∃ s, Config.calibration x.version f = .ok s
  · obtain ⟨s, h⟩ := h
    rw [C92_runs x half l h hs]
    exact Props.Order.C90_left (setup x f s (initial d (str f "cam_params_path"))) half l hname hs
  · have h' := (C92_rejected x half l (fun s hx => h ⟨s, hx⟩) hs).2.1
    refine ⟨?_, h'.dirs, fun y hy => (h'.newDirs y hy).imp_right Or.inl, fun y _ => by rw [h'.files]⟩
    have hst : Stays (Way (str f "save_path")) (fun _ => False) (construct x f) := by
      unfold construct
      exact Stays.bind (Stays.compute _) fun _ => Stays.bind (stays_save _) fun _ => Stays.bind (Stays.compute _) fun _ =>
        Stays.bind (Stays.read _) fun _ => fun _ hs => .refl hs
    have hno : ∀ y, (construct x f d).2 ≠ .ok y := by
      intro y hy
      have : construct x f d = ((construct x f d).1, .ok y) := Prod.ext rfl hy
      unfold construct at this
      obtain ⟨_, _, _, h2⟩ := bind_ok.1 this
      obtain ⟨_, _, _, h3⟩ := bind_ok.1 h2
      obtain ⟨_, s, h4, _⟩ := bind_ok.1 h3
      exact h ⟨s, (compute_ok.1 h4).1⟩
    have : (program x half l f d).1 = (construct x f d).1 := by
      unfold program Act.bind
      cases hc : (construct x f d).2 with
      | ok y => exact absurd hc (hno y)
      | _ => rfl
    rw [this]
    exact (hst d hs).sound

/-- C92: only the named keys matter: two files in which each of them reads the same give the same run, in files and in
outcome. -/
theorem C92_keys {f g : File} (h : ∀ k ∈ keys, Alike f g k) : program x half l f = program x half l g := by
  unfold program
  rw [construct_congr x h]

/-- C92: a key that is not among them may have any value. -/
theorem C92_ignored (f : File) {k : String} (hk : k ∉ keys) (v : Option Config.Value) :
    program x half l (Spec.FromConfig.put f k v) = program x half l f := by
  refine C92_keys x half l fun k' hk' => alike_of_eq ?_
  unfold Spec.FromConfig.put
  rw [if_neg]
  rintro rfl
  exact hk hk'

/-- C92: a key that is missing counts as 0, as an empty list or as an empty string; the initial values in the class
(RANSAC threshold 10, 1000 iterations, quaternion averaging, corner refinement) are never used. -/
theorem C92_missing (f : File) (k : String) {v : Config.Value} (hv : v ∈ blanks) :
    program x half l (Spec.FromConfig.put f k none) = program x half l (Spec.FromConfig.put f k (some v)) := by
  refine C92_keys x half l fun k' _ => ?_
  by_cases hk : k' = k
  · subst hk
    simp only [blanks, List.mem_cons, List.not_mem_nil, or_false] at hv
    rcases hv with rfl | rfl | rfl | rfl | rfl <;>
      constructor <;>
      simp [Config.int, Config.real, Config.ints, Config.reals, FromConfig.str, Spec.FromConfig.put]
  · refine alike_of_eq ?_
    simp [Spec.FromConfig.put, hk]

end

end Verif.Props.FromConfig
