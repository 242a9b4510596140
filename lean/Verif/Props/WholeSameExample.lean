import Verif.Props.WholeSame
import Verif.Props.WholeExample

/-! An example for C86: the scene of the example for C85. -/
namespace Verif.Props.WholeSame.Example
open Verif Verif.Folders Verif.Start Verif.Disk Verif.Pipeline Verif.Ransac Verif.Program Verif.Whole
open Verif.Spec.Pixels Verif.Spec.Exact Verif.Spec.Whole Verif.Spec.Disk
open Verif.Props.Whole.Example Verif.Props.Pixels.Example
open Verif.Props.ExactReport.Example (pix)
open Verif.Props.Exact.Example (w)

theorem dataOnly : DataOnly u.search := fun _ _ _ _ _ => rfl

theorem orderFree : ∀ f ∈ u.refine, OrderFree f := fun f hf => nomatch hf

theorem settled {l' : List (Insertion (ℝ × ℝ) Str)} (h : Detection.Schedule ts l') :
    Settled u.search u.e.garbage u.bpts (l'.map (·.obs)) := by
  have hs := Props.Whole.Example.same h
  have hx := Lemmas.Pixels.boards_exact (w := w) (bpts := bpts) search_exact u.e.garbage (obs := l'.map (·.obs)) (by
    intro bo hbo
    obtain ⟨a, ha, rfl⟩ := List.mem_map.1 hbo
    obtain ⟨b, hb, e⟩ := (hs a.obs).2 ⟨a, ha, rfl⟩
    exact e ▸ detected b hb)
  intro est he
  have he' := hx.symm.trans he
  cases he'
  rw [List.map_map]
  have : (l'.map (·.obs)).map ((·.obs) ∘ fun bo => (⟨bo, true, seenAt w bo⟩ : Estimated (ℝ × ℝ) Props.Pipeline.S3)) = l'.map (·.obs) :=
    List.map_id _
  rw [this]
  exact hx

/-- For every schedule there is a run; any two of them leave the same files; a run from the keypoint file changes none. -/
example (l₁ l₂ : List (Insertion (ℝ × ℝ) Str)) (h₁ : Detection.Schedule ts l₁) (h₂ : Detection.Schedule ts l₂) :
    ∃ d', Verif.Whole.run u l₁ d0 = .ok d' ∧ Verif.Whole.run u l₂ d0 = .ok d' ∧
      Verif.Whole.run { u with keypoints := keypointFile u.en.save } [] d' = .ok d' := by
  have hs := Props.Whole.Example.same h₁
  obtain ⟨rep, kp, d', s, sz, h, -⟩ := Props.Whole.C85_directory u w pix 0 0 (exactParts _) ts Props.Whole.Example.tasks l₁ h₁ (fun a ha => by
    obtain ⟨b, hb, e⟩ := (hs a.obs).2 ⟨a, ha, rfl⟩
    exact e ▸ detected b hb) (hs.connected connected) himg d0 ready (.inr (.inl rfl))
  refine ⟨d', h, (C86_schedules u dataOnly orderFree ts Props.Whole.Example.tasks l₁ l₂ h₁ h₂ d0 d').1 h, ?_⟩
  refine C86_reload u dataOnly orderFree ts Props.Whole.Example.tasks l₁ h₁ (settled h₁) ?_ d0 d' ready (.inr (.inl rfl)) h []
  intro _ c hc
  have : c = 0 ∨ c = 1 := by
    have : c < 2 := hc
    omega
  have hm : c ∈ Spec.Groups.observingCams 2 l₁ := by
    rw [← hs.observingCams]
    rcases this with rfl | rfl
    · exact cam0
    · exact cam1
  obtain ⟨a, ha, e⟩ := List.any_eq_true.1 (List.mem_filter.1 hm).2
  exact ⟨a, ha, beq_iff_eq.1 e⟩

/-- And its keypoint file is the one C86 describes. -/
example (l' : List (Insertion (ℝ × ℝ) Str)) (d' : Files Props.Pipeline.S3 Props.Pipeline.S3 (Fin 3) ℝ Str)
    (h : Verif.Whole.run u l' d0 = .ok d') : ∃ rep kp, Props.Disk.Written u.en.save [] rep kp d0 d' := by
  obtain ⟨k, x, rep, kp, -, -, -, h, -⟩ := C86_written u l' d0 d' ready h
  exact ⟨rep, kp, h⟩

end Verif.Props.WholeSame.Example
