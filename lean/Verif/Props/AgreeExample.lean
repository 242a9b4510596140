import Verif.Props.Agree
import Verif.Props.WholeSameExample

/-! An example for C89: the scene of the example for C85. -/
namespace Verif.Props.Agree.Example
open Verif Verif.Folders Verif.Start Verif.Disk Verif.Pipeline Verif.Ransac Verif.Program Verif.Whole
open Verif.Spec.Pixels Verif.Spec.Exact Verif.Spec.Whole Verif.Spec.Disk
open Verif.Props.Whole.Example Verif.Props.Pixels.Example
open Verif.Props.ExactReport.Example (pix)
open Verif.Props.Exact.Example (w)

theorem parts : Parts u pix :=
  have h := exactParts u.keypoints
  ⟨h.search.1, fun k => ⟨(h.searches k).1, (h.searches k).2.1⟩, (fun f hf => nomatch hf), h.reportModels, h.brown, h.kannala, h.cams,
    h.boards⟩

/-- For every schedule there is a run, and its files agree. -/
example (l' : List (Insertion (ℝ × ℝ) Str)) (h : Detection.Schedule ts l') :
    ∃ d' rep kp, Verif.Whole.run u l' d0 = .ok d' ∧ Props.Disk.Written u.en.save u.name rep kp d0 d' ∧
      Spec.Agree.Agree kp rep.cameras rep.objects rep.poses rep.errors := by
  have hs := Props.Whole.Example.same h
  obtain ⟨rep, kp, d', s, sz, hr, -⟩ := Props.Whole.C85_directory u w pix 0 0 (exactParts _) ts Props.Whole.Example.tasks l' h (fun a ha => by
    obtain ⟨b, hb, e⟩ := (hs a.obs).2 ⟨a, ha, rfl⟩
    exact e ▸ detected b hb) (hs.connected connected) himg d0 ready (.inr (.inl rfl))
  obtain ⟨rep, kp, h1, h2⟩ := C89_images u pix parts (by
      intro b g hg
      match b, hg with
      | 0, hg => cases hg; exact ⟨_, rfl, rfl⟩
      | 1, hg => cases hg; exact ⟨_, rfl, rfl⟩) (by
      intro p w hw b hb
      simp only [u] at hw
      unfold raw at hw
      have : ∃ c f, w = rawOf c f := by
        split_ifs at hw
        all_goals exact ⟨_, _, (Option.some.inj hw).symm⟩
      obtain ⟨c, f, rfl⟩ := this
      match b, hb with
      | 0, _ => rfl
      | 1, _ => rfl) ts Props.Whole.Example.tasks l' h d0 d' ready (.inr (.inl rfl)) hr
  exact ⟨d', rep, kp, hr, h1, h2⟩

end Verif.Props.Agree.Example
