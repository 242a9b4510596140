import Verif.Props.ScriptsExact
import Verif.Props.RigsExample

/-!
C99 for rigs without common views (C93).
-/
namespace Verif.Props.ScriptsExact
open Verif Verif.Output Verif.Groups Verif.Scripts Verif.Lemmas.Scripts Verif.Rigid Verif.Spec.Exact Verif.Spec.Groups
open Verif.Spec.Whole Verif.Props.ScriptsTruth Verif.Props.ExactReport Verif.Folders Verif.Disk Verif.Spec.Disk Verif.Whole
open Verif.Props.Whole Verif.Start Verif.Spec.Pixels Verif.Spec.Rigs Verif.Props.Rigs

section
variable {V G Pt K K' Q Img : Type} [Group G] [MulAction G Pt] [Field K'] [LinearOrder K'] [Inhabited Pt] [Zero K] [One K]
  (u : Setup V G Pt K K' Q Img) (w : World G) (pix : Nat → Pt → ℝ × ℝ) {fc fb : Nat → Nat} {c0 b0 : Nat} {cs bs : List Nat}

/-- C99: after a run on exact images of rigs without common views (as in C93) the script draws one bar of height 0 for each frame
with a detection. -/
theorem C99_rig_bars (hx : ExactLibraries u w pix) (hn : RigNumerics w fc fb c0 b0 cs bs u.e u.n) [Field Q] [LinearOrder Q] (ts : List (List (List (Insertion (ℝ × ℝ) Str))))
    (hts : cameraTasks u.fitLine u.cfg u.geoms u.raw u.glob u.root u.pre u.nbCam = .ok ts)
    (l : List (Insertion (ℝ × ℝ) Str)) (hl : Detection.Schedule ts l) (hdet : ∀ a ∈ l, ExactDetection w pix u.bpts a.obs)
    (hc : Separate w u.nbCam u.geoms.length l fc fb c0 b0 cs bs)
    (himg : ∀ c < u.nbCam, ∃ p, (images u.glob u.root u.pre c).head? = some p ∧ (u.sizeOf p).isSome = true)
    (d : Files V G Pt K Img) (hd : Ready u.en.save u.name d)
    (hkey : u.keypoints = [] ∨ u.keypoints = "None".toList ∨ d.has u.keypoints = false) (h100 : u.nbCam ≤ 100) :
    ∃ d' file, ∃ fs : List Nat, Verif.Whole.run u l d = .ok d' ∧
      d'.file (below u.en.save ["reprojection_error_data.yml".toList]) = some (.errors file) ∧
      fs.Nodup ∧ (∀ f, f ∈ fs ↔ ∃ a ∈ l, a.obs.frame = f) ∧ errorStatistic file = .ok (fs.map fun _ => 0) := by
  obtain ⟨a, ha, _⟩ := hc.rigs.seeing c0 List.mem_cons_self
  exact bars_run u w pix b0 c0 (Rigs.exactly u w pix hx hn) ts hts l hl hdet hc (List.ne_nil_of_mem ha) himg d hd hkey h100

end

section
variable {V Pt K' Q Img : Type} [MulAction (Pose ℝ) Pt] [Field K'] [LinearOrder K'] [Inhabited Pt]
  (u : Setup V (Pose ℝ) Pt ℝ K' Q Img) (w : World (Pose ℝ)) (pix : Nat → Pt → ℝ × ℝ) {fc fb : Nat → Nat} {c0 b0 : Nat}
  {cs bs : List Nat}

/-- C99: after a run on exact images of rigs without common views (as in C93) in which every camera has a detection the
comparison with a ground truth prints six numbers, all 0 exactly if the ground truth is that of the scene. -/
theorem C99_rig_truth (hx : ExactLibraries u w pix) (hn : RigNumerics w fc fb c0 b0 cs bs u.e u.n) [Field Q] [LinearOrder Q] (ts : List (List (List (Insertion (ℝ × ℝ) Str))))
    (hts : cameraTasks u.fitLine u.cfg u.geoms u.raw u.glob u.root u.pre u.nbCam = .ok ts)
    (l : List (Insertion (ℝ × ℝ) Str)) (hl : Detection.Schedule ts l) (hdet : ∀ a ∈ l, ExactDetection w pix u.bpts a.obs)
    (hc : Separate w u.nbCam u.geoms.length l fc fb c0 b0 cs bs)
    (himg : ∀ c < u.nbCam, ∃ p, (images u.glob u.root u.pre c).head? = some p ∧ (u.sizeOf p).isSome = true)
    (d : Files V (Pose ℝ) Pt ℝ Img) (hd : Ready u.en.save u.name d)
    (hkey : u.keypoints = [] ∨ u.keypoints = "None".toList ∨ d.has u.keypoints = false)
    (hall : ∀ c < u.nbCam, ∃ a ∈ l, a.obs.cam = c) (truth : List (Pose ℝ × Mat3 ℝ)) (ht : truth.length = u.nbCam) :
    ∃ d' file p, Verif.Whole.run u l d = .ok d' ∧ d'.file (below u.en.save [cameraName u.name]) = some (.cameras file) ∧
      poseErrors file (truth.map fun t => (t.1.1, t.2)) = .ok p ∧
      (∀ x ∈ [p.rot, p.trans, p.fx, p.fy, p.u0, p.v0], ∃ v, x = some v) ∧
      ((∀ x ∈ [p.rot, p.trans, p.fx, p.fy, p.u0, p.v0], x = some 0) ↔
        ∀ c cam t, u.en.cams[c]? = some cam → truth[c]? = some t → Agrees cam (w.cam c * (w.cam c0)⁻¹) t) := by
  obtain ⟨a, ha, _⟩ := hc.rigs.seeing c0 List.mem_cons_self
  exact truth_run u w pix b0 c0 (Rigs.exactly u w pix hx hn) hx.cams ts hts l hl hdet hc (List.ne_nil_of_mem ha) himg d hd hkey
    hall truth ht

end

/-- The three rigs of the example of C93 meet the hypotheses: in every schedule the bars are those of frames 0 to 8. -/
example (l' : List (Insertion (ℝ × ℝ) Str)) (h : Detection.Schedule Rigs.Example.ts l') :
    ∃ d' file, ∃ fs : List Nat, Verif.Whole.run Rigs.Example.u l' Whole.Example.d0 = .ok d' ∧
      d'.file (below Rigs.Example.u.en.save ["reprojection_error_data.yml".toList]) = some (.errors file) ∧
      fs.Nodup ∧ (∀ f, f ∈ fs ↔ ∃ a ∈ l', a.obs.frame = f) ∧ errorStatistic file = .ok (fs.map fun _ => 0) := by
  have hs := Rigs.Example.same h
  exact C99_rig_bars Rigs.Example.u Rigs.Example.w _ (Rigs.Example.libraries _) Rigs.Example.numerics _ Rigs.Example.tasks l' h
    (fun a ha => by
      obtain ⟨b, hb, e⟩ := (hs a.obs).2 ⟨a, ha, rfl⟩
      exact e ▸ Rigs.Example.detected b hb) (hs.separate Rigs.Example.separate) Rigs.Example.himg Whole.Example.d0
    Whole.Example.ready (.inr (.inl rfl)) (by show (4 : Nat) ≤ 100; omega)

end Verif.Props.ScriptsExact
