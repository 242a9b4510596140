import Verif.Props.Crash
import Verif.Props.WholeSameExample

/-! An example for C87: the scene of the examples for C85 and C86. -/
namespace Verif.Props.Crash.WholeExample
open Verif Verif.Folders Verif.Start Verif.Disk Verif.Crash Verif.Whole Verif.Spec.Disk Verif.Spec.Crash Verif.Spec.Whole
open Verif.Props.Whole.Example Verif.Props.Pixels.Example Verif.Props.WholeSame.Example
open Verif.Props.ExactReport.Example (pix)
open Verif.Props.Exact.Example (w)
open Verif.Props.Pipeline (S3)

theorem run_results {V G Pt K Img K' Q : Type} [Group G] [SMul G Pt] [Field K'] [LinearOrder K'] [Zero K] [One K]
    {u : Setup V G Pt K K' Q Img} {l : List (Insertion (ℝ × ℝ) Str)} {d d' : Files V G Pt K Img} (h : Verif.Whole.run u l d = .ok d') :
    ∃ k q, extract u l d = .ok k ∧ results u k = .ok q := by
  unfold Verif.Whole.run at h
  obtain ⟨k, h1, h⟩ := Outcome.bind_eq_ok.1 h
  rw [conclude_eq] at h
  obtain ⟨q, h2, -⟩ := Outcome.bind_eq_ok.1 h
  exact ⟨k, q, h1, h2⟩

theorem runs (key : Str) (hkey : key = [] ∨ key = "None".toList ∨ d0.has key = false) {l' : List (Insertion (ℝ × ℝ) Str)}
    (h : Detection.Schedule ts l') : ∃ d', Verif.Whole.run { u with keypoints := key } l' d0 = .ok d' := by
  have hs := Props.Whole.Example.same h
  obtain ⟨_, _, d', _, _, h, -⟩ := Props.Whole.C85_directory { u with keypoints := key } w pix 0 0 (exactParts _) ts
    Props.Whole.Example.tasks l' h (fun a ha => by
      obtain ⟨b, hb, e⟩ := (hs a.obs).2 ⟨a, ha, rfl⟩
      exact e ▸ detected b hb) (hs.connected connected) himg d0 ready hkey
  exact ⟨d', h⟩

/-- Interrupted while writing the last file, and started again with another schedule: as if nothing had happened. -/
example (l₁ l₂ : List (Insertion (ℝ × ℝ) Str)) (h₁ : Detection.Schedule ts l₁) (h₂ : Detection.Schedule ts l₂) :
    ∃ dk d', dk.file (loc (keypointFile u.en.save)) = some (.other 13) ∧ Verif.Whole.run u l₁ d0 = .ok d' ∧
      Verif.Whole.run u l₂ dk = .ok d' := by
  obtain ⟨d', h⟩ := runs _ (.inr (.inl rfl)) h₁
  obtain ⟨k, q, hk, hq⟩ := run_results h
  obtain ⟨dk, c1, c2⟩ := crash_last (rep := q.1) (save := u.en.save) ready (shapes_results u hk hq) q.2 (.other 13)
  obtain ⟨d', r1, r2⟩ := C87_rerun_schedules u dataOnly orderFree ts Props.Whole.Example.tasks l₁ l₂ h₁ h₂ ready hk hq c1 (.inr (.inl rfl))
  exact ⟨dk, d', c2, r1, r2⟩

/-- The same run with its own keypoint file as input cannot be started again: here a damaged file cannot be read. -/
example (l₁ : List (Insertion (ℝ × ℝ) Str)) (h₁ : Detection.Schedule ts l₁) :
    ∃ d' dk, Verif.Whole.run { u with keypoints := keypointFile u.en.save } l₁ d0 = .ok d' ∧
      ∀ l₂, Verif.Whole.run { u with keypoints := keypointFile u.en.save } l₂ dk = .throw := by
  have hno : d0.has (keypointFile u.en.save) = false := by decide +kernel
  obtain ⟨d', h⟩ := runs _ (.inr (.inr hno)) h₁
  obtain ⟨k, q, hk, hq⟩ := run_results h
  obtain ⟨dk, -, c2⟩ := C87_own_keypoints { u with keypoints := keypointFile u.en.save } rfl l₁ ready hk hq 13
  refine ⟨d', dk, h, fun l₂ => ?_⟩
  unfold Verif.Whole.run
  rw [c2]
  rfl

end Verif.Props.Crash.WholeExample
