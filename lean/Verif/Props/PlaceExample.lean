import Verif.Props.Place
import Verif.Props.AnalysisWhole

/-! C108: the run of `RealExample`, with its results in another directory, under another name, and without images of detections. -/
namespace Verif.Props.Place.Example
open Verif Verif.Folders Verif.Start Verif.Disk Verif.Objects Verif.Groups Verif.Pipeline Verif.Program Verif.Whole Verif.Output
open Verif.Spec.Pixels Verif.Spec.Exact Verif.Spec.Whole Verif.Spec.Disk Verif.Spec.Objects Verif.Spec.Groups
open Verif.Rigid Verif.Props.RealExample Verif.Props.Whole Verif.Props.Agree Verif.Props.Pixels

theorem ready' : Ready "results/1".toList "cams.yml".toList d0 where
  sound := ready.sound
  clear := ⟨fun _ _ => rfl, by
    rintro x ⟨kind, _, c, f, rfl⟩
    simp [below, d0]⟩
  free b _ := by simp [below, d0]
  name := .inr (by
    refine ⟨⟨by decide, by decide⟩, by decide +kernel, by decide +kernel⟩)
  place := .inr (by decide)

example (l' : List (Insertion (ℝ × ℝ) Str)) (h : Detection.Schedule ts l') :
    ∃ d' d'' rep rep' kp, Verif.Whole.run RealExample.u l' d0 = .ok d' ∧
      Verif.Whole.run (savedTo RealExample.u "results/1".toList "cams.yml".toList 0 1) l' d0 = .ok d'' ∧
      Props.Disk.Written env.save [] rep kp d0 d' ∧ Props.Disk.Written "results/1".toList "cams.yml".toList rep' kp d0 d'' ∧
      rep'.cameras = rep.cameras ∧ rep'.errors = rep.errors ∧ rep'.detections = [] := by
  have hs := same h
  have hdet : ∀ a ∈ l', ExactDetection w RealExample.pix RealExample.u.bpts a.obs := fun a ha => by
    obtain ⟨b, hb, e⟩ := (hs a.obs).2 ⟨a, ha, rfl⟩
    exact e ▸ detected b hb
  obtain ⟨rep, kp, d', s, sz, h1, -⟩ := C85_directory RealExample.u w RealExample.pix 0 0 exactParts ts tasks l' h
    hdet (hs.connected connected) himg _ ready (.inr (.inl rfl))
  obtain ⟨rep, rep', kp, d'', fr, sn, ex, a1, a2, a3, a4, -, a6, -⟩ := C108_place RealExample.u RealExample.pix
    ⟨exactParts.search.1, fun k => ⟨(exactParts.searches k).1, (exactParts.searches k).2.1⟩, (fun f hf => nomatch hf),
      exactParts.reportModels, exactParts.brown, exactParts.kannala, exactParts.cams, exactParts.boards⟩
    l' d0 d' ready (AnalysisWhole.detected_usable RealExample.u (by
      intro b g hg
      match b, hg with
      | 0, hg => cases hg; exact ⟨_, rfl, rfl⟩
      | 1, hg => cases hg; exact ⟨_, rfl, rfl⟩) (by
      intro p w hw b hb
      have hw : RealExample.raw p = some w := hw
      unfold RealExample.raw at hw
      have : ∃ c f, w = RealExample.rawOf c f := by
        split_ifs at hw
        all_goals exact ⟨_, _, (Option.some.inj hw).symm⟩
      obtain ⟨c, f, rfl⟩ := this
      match b, hb with
      | 0, _ => rfl
      | 1, _ => rfl) ts tasks l' h _ (.inr (.inl rfl))) h1 _ _ 0 1 ready'
  refine ⟨d', d'', rep, rep', kp, h1, a2, a1, a3, by rw [a4], by rw [a4], ?_⟩
  rw [a6]
  rfl

end Verif.Props.Place.Example
