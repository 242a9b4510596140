import Verif.Props.OrderFail
import Verif.Props.CrashExample

/-! Examples for C90: the scene of the examples for C85 to C87. -/
namespace Verif.Props.Order.Example
open Verif Verif.Folders Verif.Start Verif.Disk Verif.Order Verif.Whole Verif.Spec.Disk Verif.Spec.Crash Verif.Spec.Whole
open Verif.Spec.Order
open Verif.Props.Whole.Example Verif.Props.Pixels.Example Verif.Props.WholeSame.Example Verif.Props.Crash.WholeExample
open Verif.Props.ExactReport.Example (pix)
open Verif.Props.Exact.Example (w)
open Verif.Props.Pipeline (S3)

/-- A setup whose refinement throws. -/
noncomputable def uf : Setup S3 S3 (Fin 3) ℝ ℝ ℚ Str := { u with refine := some fun _ => .throw }

def half (_ : Str) : Content S3 S3 (Fin 3) ℝ Str (KeyFile (ℝ × ℝ) Str) := .other 5

theorem uf_fails (k : KStore (ℝ × ℝ) Str) (s : Found S3 S3 (Fin 3)) : calibrate uf k ≠ .ok s := by
  intro h
  obtain ⟨x, h1, -⟩ := (calibrate_iff uf k s).1 h
  obtain ⟨y, -, h2⟩ := Outcome.bind_eq_ok.1 h1
  obtain ⟨z, h3, -⟩ := Outcome.bind_eq_ok.1 h2
  cases h3

/-- The run that fails leaves no file; the next one, with the refinement left out, leaves its results. -/
example (l₁ l₂ : List (Insertion (ℝ × ℝ) Str)) (h₂ : Detection.Schedule ts l₂) :
    OnlySaveDir u.en.save d0 (workflow uf half l₁ d0).1 ∧ (workflow uf half l₁ d0).2 ≠ .ok () ∧
    ∃ d' e', workflow u half l₂ d0 = (d', .ok ()) ∧ workflow u half l₂ (workflow uf half l₁ d0).1 = (e', .ok ()) ∧
      e'.file (below u.en.save ["detected_keypoints_data.yml".toList]) = d'.file (below u.en.save ["detected_keypoints_data.yml".toList]) := by
  have h := C90_early uf half l₁ (.inr (.inl rfl)) (d := d0) ready.sound fun k s _ => uf_fails k s
  obtain ⟨d', hr⟩ := runs _ (.inr (.inl rfl)) h₂
  have hw := (C90_complete u half l₂ (.inr (.inl rfl)) ready.sound).2 hr
  obtain ⟨e', k, q, -, -, h3, h4, -⟩ := C90_rerun uf half l₁ u half l₂ rfl rfl (.inr (.inl rfl)) ready hw
  exact ⟨h.1, h.2, d', e', hw, h3, h4 _ (.inl ⟨_, by simp [reportNames], rfl⟩)⟩

theorem sizes : imageSizes u.debug u.sizeOf u.glob u.root u.pre u.nbCam = .ok [some (640, 480), some (640, 480)] := by
  show imageSizes true (fun _ => some (640, 480)) glob root pre 2 = _
  decide +kernel

/-- For this scene, and any order of the insertions: if the keypoint file was changed, the run has succeeded. -/
example (l' : List (Insertion (ℝ × ℝ) Str))
    (h : (workflow u half l' d0).1.file (loc (keypointFile u.en.save)) ≠ d0.file (loc (keypointFile u.en.save))) :
    (workflow u half l' d0).2 = .ok () := by
  refine C90_last u half l' (.inl rfl) (.inr (.inl rfl)) ready.sound (fun k hk c hc => ?_) h
  unfold extract boardExtraction at hk
  rw [if_neg (fun h => h.2.1 rfl)] at hk
  obtain ⟨sz, h1, hk⟩ := Outcome.bind_eq_ok.1 hk
  obtain ⟨s, h2, hk⟩ := Outcome.bind_eq_ok.1 hk
  cases hk
  rw [sizes] at h1
  cases h1
  rw [(Lemmas.Schedule.describes_of_run h2).1.cams_length] at hc
  have : c = 0 ∨ c = 1 := by
    have : c < 2 := hc
    omega
  rcases this with rfl | rfl <;> exact ⟨_, rfl⟩

/-! With a configuration file. -/

def conf : Str := "rig.yml".toList

def d1 : Files S3 S3 (Fin 3) ℝ Str := ⟨fun x => x.names == [], fun x => if x = loc conf then some (.other 7) else none⟩

noncomputable def setup (c : Content S3 S3 (Fin 3) ℝ Str (KeyFile (ℝ × ℝ) Str)) : Outcome (Setup S3 S3 (Fin 3) ℝ ℝ ℚ Str) :=
  match c with
  | .other 7 => .ok u
  | _ => .throw

theorem loc_conf : loc conf = ⟨false, [conf]⟩ := by decide

theorem conf_file : d1.file (loc conf) = some (.other 7) := by simp [d1]

theorem loc_save : loc u.en.save = ⟨false, ["out".toList]⟩ := by decide

theorem other_place {x : Loc} (h : x ≠ ⟨false, [conf]⟩) : d1.file x = none := if_neg (by rw [loc_conf]; exact h)

theorem not_conf (bs : List Str) : below u.en.save bs ≠ ⟨false, [conf]⟩ := by
  unfold below
  rw [loc_save]
  intro h
  have h := List.cons.inj (congrArg Loc.names h)
  exact absurd h.1 (by decide)

theorem ready1 : Ready u.en.save u.name d1 where
  sound := by
    refine ⟨fun _ => rfl, fun a xs x h => by simp [d1] at h, fun a xs x h => ?_, fun x h => ?_⟩
    · by_cases e : (⟨a, xs ++ [x]⟩ : Loc) = ⟨false, [conf]⟩
      · have h1 : xs ++ [x] = [] ++ [conf] := congrArg Loc.names e
        have := (List.append_inj' h1 rfl).1
        subst this
        rfl
      · exact absurd (other_place e) h
    · refine other_place fun e => ?_
      rw [e] at h
      exact absurd h (by simp [d1])
  clear := by
    refine ⟨fun x hx => other_place ?_, ?_⟩
    · rcases hx with ⟨k, rfl⟩ | ⟨kind, _, rfl | ⟨c, rfl⟩⟩
      · rw [loc_save]
        intro e
        have e := congrArg Loc.names e
        cases k with
        | zero => cases e
        | succ k => exact absurd (List.cons.inj e).1 (by decide)
      · exact not_conf _
      · exact not_conf _
    · rintro x ⟨kind, _, c, f, rfl⟩
      simp [below, d1]
  free b _ := by simp [below, d1]
  name := .inl rfl
  place := .inr (by decide)

/-- The program returns 0 and leaves its results. -/
example (l' : List (Insertion (ℝ × ℝ) Str)) (h : Detection.Schedule ts l') :
    ∃ d' rep kp, Order.main setup half l' ["calibrate".toList, conf] d1 = (d', .ok 0) ∧ Props.Disk.Written u.en.save [] rep kp d1 d' ∧
      d'.file (loc conf) = some (.other 7) := by
  have hs := Props.Whole.Example.same h
  obtain ⟨rep, kp, d', _, _, h1, h2, -⟩ := Props.Whole.C85_directory u w pix 0 0 (exactParts _) ts
    Props.Whole.Example.tasks l' h (fun a ha => by
      obtain ⟨b, hb, e⟩ := (hs a.obs).2 ⟨a, ha, rfl⟩
      exact e ▸ detected b hb) (hs.connected connected) himg d1 ready1 (.inr (.inl rfl))
  refine ⟨d', rep, kp, C90_exit_zero u half l' setup _ rfl ready1.sound (by decide +kernel) conf_file rfl (.inr (.inl rfl)) h1, h2, ?_⟩
  have h3 := (C90_left u half l' (.inl rfl) ready1.sound).others (loc conf) ?_
  · rw [(C90_complete u half l' (.inr (.inl rfl)) ready1.sound).2 h1] at h3
    rw [h3]
    exact conf_file
  · rw [loc_conf]
    rintro (⟨b, _, e⟩ | ⟨kind, _, c, f, e⟩)
    · exact not_conf _ e.symm
    · exact not_conf _ e.symm

/-- With another name it returns -1 and leaves everything as it is. -/
example (l' : List (Insertion (ℝ × ℝ) Str)) :
    Order.main setup half l' ["calibrate".toList, "rig.yaml".toList] d1 = (d1, .ok (-1)) := rfl

end Verif.Props.Order.Example
