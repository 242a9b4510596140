import Verif.Props.Rigs
import Verif.Props.Whole

/-! C93 for runs of the whole program: from the images of the rigs to files, and again from the keypoint file. -/
namespace Verif.Props.Rigs
open Verif Verif.Folders Verif.Start Verif.Disk Verif.Pipeline Verif.Ransac Verif.Program Verif.Whole
open Verif.Spec.Pixels Verif.Spec.Exact Verif.Spec.Objects Verif.Spec.Groups Verif.Spec.Pipeline Verif.Spec.Whole Verif.Spec.Disk
open Verif.Props.Pixels Verif.Props.Outliers Verif.Props.Exact Verif.Lemmas.Disk Verif.Spec.Rigs Verif.Props.Whole

variable {V G Pt K K' Q Img : Type}

/-- Detections of rigs that allow a calibration. -/
structure Separate [Group G] {P Path : Type} (w : World G) (nCam nBoard : Nat) (l : List (Insertion P Path)) (fc fb : Nat → Nat)
    (c0 b0 : Nat) (cs bs : List Nat) : Prop where
  rigs : Rigs nCam nBoard l fc fb (c0 :: cs) (b0 :: bs)
  around : Around w l fc c0 cs
  simple : Simple G l (l.map (·.obs))

theorem _root_.Verif.Props.Whole.SameObs.separate [Group G] {P Path : Type} {w : World G} {nCam nBoard : Nat} {l l' : List (Insertion P Path)}
    {fc fb : Nat → Nat} {c0 b0 : Nat} {cs bs : List Nat} (h : SameObs l l') (hS : Separate w nCam nBoard l fc fb c0 b0 cs bs) :
    Separate w nCam nBoard l' fc fb c0 b0 cs bs := by
  obtain ⟨⟨h1, h2, h3, h4, h5, h6, h7⟩, ⟨h8, h9⟩, h10⟩ := hS
  rw [h.observingCams] at h3
  rw [h.camsLinked] at h3
  rw [h.observedBoards, h.coSeen] at h4
  have hin : ∀ r f, InFrame l fc r f ↔ InFrame l' fc r f := fun r f => h.exists fun o => o.frame = f ∧ fc o.cam = r
  have hj : ∀ r r' fs, Joint l fc r r' fs ↔ Joint l' fc r r' fs := fun r r' fs => by
    unfold Joint
    simp only [hin]
  simp only [hj] at h8 h9
  refine ⟨⟨h1, h2, h3, h4, fun a ha a' ha' => ?_, fun r hr => ?_, fun r hr => ?_⟩, ⟨h8, h9⟩, ?_⟩
  · obtain ⟨b, hb, e⟩ := (h a.obs).2 ⟨a, ha, rfl⟩
    obtain ⟨b', hb', e'⟩ := (h a'.obs).2 ⟨a', ha', rfl⟩
    rw [← e, ← e']
    exact h5 b hb b' hb'
  · exact (h.exists fun o => fc o.cam = r).1 (h6 r hr)
  · exact (h.exists fun o => fb o.board = r).1 (h7 r hr)
  · unfold Simple at h10 ⊢
    simp only [h.camsLinked, h.seenTwice] at h10
    exact h10

section
variable [Group G] [MulAction G Pt] [Field K'] [LinearOrder K'] [Inhabited Pt] [Zero K] [One K]
  (u : Setup V G Pt K K' Q Img) (w : World G) (pix : Nat → Pt → ℝ × ℝ) {fc fb : Nat → Nat} {c0 b0 : Nat} {cs bs : List Nat}

theorem exactly (hx : ExactLibraries u w pix) (hn : RigNumerics w fc fb c0 b0 cs bs u.e u.n) :
    Exactly u w pix b0 c0 (Separate w u.nbCam u.geoms.length · fc fb c0 b0 cs bs) := by
  intro l hl hdet hc s hs sz hsz
  exact C93_files u.nbCam u.geoms.length l hl s hs u.bpts hx.boards w pix hdet u.search
    hx.search.1 hx.search.2 u.e (fun k => (hx.searches k).1) (fun k => (hx.searches k).2.1) (fun k => (hx.searches k).2.2)
    u.pr hx.projection hx.models hx.brownEmpty hx.kannalaEmpty u.refine u.n u.fix hx.refine hc.rigs hc.around
    hn hc.simple (withSizes u.en (sz.map some)) hx.reportModels hx.ofVec hx.brown hx.kannala
    (sized u hx.cams sz hsz l)

/-- C93: rigs without common views, from images to files and again. In every schedule of the detection threads, a run
on exact images of the rigs, each with its own target, ends, and the output directory holds the complete and true results
for the cameras of all rigs and the corners of all targets; and a second run that is given the keypoint file in this
directory comes to the same results. -/
theorem C93_runs (hx : ExactLibraries u w pix) (hn : RigNumerics w fc fb c0 b0 cs bs u.e u.n) [Field Q] [LinearOrder Q]
    (ts : List (List (List (Insertion (ℝ × ℝ) Str))))
    (hts : cameraTasks u.fitLine u.cfg u.geoms u.raw u.glob u.root u.pre u.nbCam = .ok ts)
    (l : List (Insertion (ℝ × ℝ) Str)) (hl : Detection.Schedule ts l) (hdet : ∀ a ∈ l, ExactDetection w pix u.bpts a.obs)
    (hc : Separate w u.nbCam u.geoms.length l fc fb c0 b0 cs bs)
    (himg : ∀ c < u.nbCam, ∃ p, (images u.glob u.root u.pre c).head? = some p ∧ (u.sizeOf p).isSome = true)
    (d : Files V G Pt K Img) (hd : Ready u.en.save u.name d)
    (hkey : u.keypoints = [] ∨ u.keypoints = "None".toList ∨ d.has u.keypoints = false) :
    ∃ rep kp d', Verif.Whole.run u l d = .ok d' ∧ Props.Disk.Written u.en.save u.name rep kp d d' ∧
      Ready u.en.save u.name d' ∧ Calibrated w u.bpts u.nbCam u.geoms.length l c0 b0 rep ∧
      ∀ u' : Setup V G Pt K K' Q Img, ExactLibraries u' w pix → RigNumerics w fc fb c0 b0 cs bs u'.e u'.n →
        u'.nbCam = u.nbCam → u'.geoms.length = u.geoms.length →
        u'.bpts = u.bpts → u'.keypoints = keypointFile u.en.save → Ready u'.en.save u'.name d' →
        (u'.debug = true → ∀ c < u.nbCam, c ∈ observingCams u.nbCam l) → ∀ l',
        ∃ rep' d'', Verif.Whole.run u' l' d' = .ok d'' ∧ Props.Disk.Written u'.en.save u'.name rep' kp d' d'' ∧
          Ready u'.en.save u'.name d'' ∧ Calibrated w u.bpts u.nbCam u.geoms.length l c0 b0 rep' := by
  obtain ⟨rep, kp, d', q1, q2, q3, q4, h⟩ := rerun_of u w pix b0 c0 (fun _ _ h => h.separate) (exactly u w pix hx hn) ts hts
    l hl hdet hc himg d hd hkey
  refine ⟨rep, kp, d', q1, q2, q3, q4, fun u' hx' hn' e1 e2 => h u' ?_ e1 e2⟩
  rw [← e1, ← e2]
  exact exactly u' w pix hx' hn'

end
end Verif.Props.Rigs
