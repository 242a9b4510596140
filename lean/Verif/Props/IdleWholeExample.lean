import Verif.Props.IdleWhole
import Verif.Props.AnalysisWhole

/-! C102: a run with one more camera, which has images but sees no board, and one more board, which is never seen. -/
namespace Verif.Props.IdleWhole.Example
open Verif Verif.Folders Verif.Start Verif.Disk Verif.Objects Verif.Groups Verif.Pipeline Verif.Program Verif.Whole Verif.Output
open Verif.Spec.Pixels Verif.Spec.Exact Verif.Spec.Whole Verif.Spec.Disk Verif.Spec.Objects Verif.Spec.Groups
open Verif.Rigid Verif.Props.RealExample Verif.Props.Whole Verif.Props.Agree Verif.Props.Pixels

/-- Camera 2 has an image too. -/
def glob2 (p : Str) : List Str := if p = folder root pre 2 then ["Cam_003/1.png".toList] else glob p

/-- The scene of `RealExample`; the empty path is not that of an image. -/
noncomputable def u2 : Setup (Pose ℝ) (Pose ℝ) (Vec3 ℝ) ℝ ℝ ℚ Str :=
  { RealExample.u with glob := glob2, en := { env with imread := fun p => if p = [] then none else some p } }

theorem parts2 : ExactParts u2 w RealExample.pix 0 0 := { exactParts with }

theorem images2_0 : images glob2 root pre 0 = [path 0 0, path 0 1] := by decide +kernel

theorem images2_1 : images glob2 root pre 1 = [path 1 0, path 1 1] := by decide +kernel

theorem images2_2 : images glob2 root pre 2 = ["Cam_003/1.png".toList] := by decide +kernel

theorem tasks2 : cameraTasks u2.fitLine u2.cfg u2.geoms u2.raw u2.glob u2.root u2.pre u2.nbCam = .ok ts := by
  show cameraTasks fit cfg [geom, geom] raw glob2 root pre 2 = _
  simp only [cameraTasks, show List.range 2 = [0, 1] from rfl, Outcome.foldlM, cameraStep, images2_0, images2_1,
    List.zipIdx_cons, List.zipIdx_nil, Nat.zero_add, taskStep, raw00, raw01, raw10, raw11, image, Outcome.bind_ok]
  rfl

theorem himg2 : ∀ c < 3, ∃ p, (images u2.glob u2.root u2.pre c).head? = some p ∧ (u2.sizeOf p).isSome = true := by
  intro c hc
  have : c = 0 ∨ c = 1 ∨ c = 2 := by omega
  rcases this with rfl | rfl | rfl
  · exact ⟨path 0 0, by show (images glob2 root pre 0).head? = _; rw [images2_0]; rfl, rfl⟩
  · exact ⟨path 1 0, by show (images glob2 root pre 1).head? = _; rw [images2_1]; rfl, rfl⟩
  · exact ⟨_, by show (images glob2 root pre 2).head? = _; rw [images2_2]; rfl, rfl⟩

theorem ready2 : Ready u2.en.save u2.name d0 := RealExample.ready

/-- For every schedule, the run ends, and so does that with camera 2 and board 2, with the same results. -/
example (l' : List (Insertion (ℝ × ℝ) Str)) (h : Detection.Schedule ts l') :
    ∃ rep kp d' d'' sz, Verif.Whole.run u2 l' d0 = .ok d' ∧ Props.Disk.Written u2.en.save u2.name rep kp d0 d' ∧
      Verif.Whole.run (larger u2 [⟨0, intr 1, none⟩] [geom] [grid]) l' d0 = .ok d'' ∧
      Props.Disk.Written u2.en.save u2.name (withIdle rep 1 3 1 1)
        ⟨kp.nbCamera + 1, kp.cams ++ Lemmas.IdleWhole.emptyEntries 2 sz⟩ d0 d'' := by
  have hs := same h
  have hdet : ∀ a ∈ l', ExactDetection w RealExample.pix u2.bpts a.obs := fun a ha => by
    obtain ⟨b, hb, e⟩ := (hs a.obs).2 ⟨a, ha, rfl⟩
    exact e ▸ detected b hb
  obtain ⟨rep, kp, d', s, sz, h1, -⟩ := C85_directory u2 w RealExample.pix 0 0 parts2 ts tasks2 l' h hdet
    (hs.connected connected) (fun c hc => himg2 c (Nat.lt_succ_of_lt hc)) d0 ready2 (.inr (.inl rfl))
  obtain ⟨rep, kp, d'', sz, -, a1, a2, a3⟩ := C102_whole u2 RealExample.pix
    ⟨parts2.search.1, fun k => ⟨(parts2.searches k).1, (parts2.searches k).2.1⟩, (fun f hf => nomatch hf),
      parts2.reportModels, parts2.brown, parts2.kannala, parts2.cams, parts2.boards⟩ l' d0 d' ready2
    (by
      have hu : ∀ k, extract u2 l' d0 = .ok k → ∀ o ∈ k.store.obs, Spec.Agree.Usable u2.bpts o := by
        refine AnalysisWhole.detected_usable u2 ?_ ?_ ts tasks2 l' h d0 (.inr (.inl rfl))
        · intro b g hg
          match b, hg with
          | 0, hg => cases hg; exact ⟨_, rfl, rfl⟩
          | 1, hg => cases hg; exact ⟨_, rfl, rfl⟩
        · intro p w hw b hb
          have hw : RealExample.raw p = some w := hw
          unfold RealExample.raw at hw
          have : ∃ c f, w = RealExample.rawOf c f := by
            split_ifs at hw
            all_goals exact ⟨_, _, (Option.some.inj hw).symm⟩
          obtain ⟨c, f, rfl⟩ := this
          match b, hb with
          | 0, _ => rfl
          | 1, _ => rfl
      exact hu)
    (.inr (.inl rfl)) h1 rfl [⟨0, intr 1, none⟩] [geom] [grid] rfl (fun c hc => himg2 c hc)
  exact ⟨rep, kp, d', d'', sz, h1, a1, a2, a3⟩

end Verif.Props.IdleWhole.Example
