import Verif.Props.Whole
import Verif.Props.PixelExample

/-! An example for C85: the scene of the example for C84, in a file system without files. -/
namespace Verif.Props.Whole.Example
open Verif Verif.Folders Verif.Start Verif.Disk Verif.Pipeline Verif.Ransac Verif.Program Verif.Whole
open Verif.Spec.Pixels Verif.Spec.Exact Verif.Spec.Whole Verif.Spec.Disk
open Verif.Props.Pipeline (S3)
open Verif.Props.Exact.Example (w)
open Verif.Props.ExactReport.Example (pix)
open Verif.Props.Pixels.Example

def fit (_ : List (ℚ × ℚ)) : ℚ × ℚ × ℚ × ℚ := (0, 1, 0, 0)

def cfg : Detection.Cfg := ⟨false, 0⟩

def geom : Detection.Geom ℚ := ⟨5, [(0, 0), (1, 0), (2, 0), (3, 0), (4, 0)], 1⟩

noncomputable def rawOf (c f b : Nat) : Detection.Raw (ℝ × ℝ) := ⟨(det c f b).obs.pts, [0, 1, 2, 3, 4], []⟩

/-- The images show all boards; other files cannot be read. -/
noncomputable def raw (p : Str) : Option (Nat → Detection.Raw (ℝ × ℝ)) :=
  if p = path 0 0 then some (rawOf 0 0) else if p = path 0 1 then some (rawOf 0 1) else
  if p = path 1 0 then some (rawOf 1 0) else if p = path 1 1 then some (rawOf 1 1) else none

/-- Besides its images the folder of camera 0 has another file. -/
def glob (p : Str) : List Str :=
  if p = folder root pre 0 then [join p "notes.txt".toList, path 0 0, path 0 1] else
  if p = folder root pre 1 then [path 1 0, path 1 1] else []

noncomputable def u : Setup S3 S3 (Fin 3) ℝ ℝ ℚ Str where
  nbCam := 2
  debug := true
  fitLine := fit
  cfg := cfg
  geoms := [geom, geom]
  raw := raw
  glob := glob
  root := root
  pre := pre
  sizeOf _ := some (640, 480)
  keypoints := "None".toList
  other _ := .throw
  bpts := bpts
  search := search
  refine := none
  pr := proj
  e := est
  n := n
  fix := 0
  en := env
  name := []

def d0 : Files S3 S3 (Fin 3) ℝ Str := ⟨fun x => x.names == [], fun _ => none⟩

theorem exactParts (k : Str) : ExactParts { u with keypoints := k } w pix 0 0 where
  search := ⟨search_sound, search_exact⟩
  searches _ := ⟨search_sound, search_fails, search_exact⟩
  projection := pointwise
  models := md_ok
  brownEmpty _ _ := rfl
  kannalaEmpty _ _ := .inl rfl
  refine := fun f hf => nomatch hf
  numerics := numerics
  reportModels c _ := md_ok c
  ofVec := rfl
  brown _ _ _ _ := rfl
  kannala _ _ _ _ := rfl
  cams := rfl
  boards := rfl

theorem ready : Ready u.en.save u.name d0 where
  sound := ⟨fun _ => rfl, fun a xs x h => by simp [d0] at h, fun a xs x h => absurd rfl h, fun _ _ => rfl⟩
  clear := ⟨fun _ _ => rfl, by
    rintro x ⟨kind, _, c, f, rfl⟩
    simp [below, d0]⟩
  free b _ := by simp [below, d0]
  name := .inl rfl
  place := .inr (by decide)

theorem min : Detection.minCorners cfg geom.nbPts = .ok 0 := by decide +kernel

theorem bp : Detection.boardPts geom [0, 1, 2, 3, 4] = .ok geom.pts := by decide +kernel

theorem residual : Detection.lineResidual fit geom.pts > geom.square * (1 / 10) := by decide +kernel

theorem board (c f b : Nat) (hb : b = 0 ∨ b = 1) :
    Detection.detectBoard fit cfg geom (rawOf c f b) = .ok (some ((det c f b).obs.pts, [0, 1, 2, 3, 4])) := by
  have hlen : (rawOf c f b).corners.length = 5 := by
    rcases hb with rfl | rfl <;> simp [rawOf, det, bpts]
  unfold Detection.detectBoard
  rw [min]
  simp only [Outcome.bind_ok, hlen]
  rw [if_pos (by decide)]
  show Outcome.bind (.ok (rawOf c f b).corners) _ = _
  simp only [Outcome.bind]
  show Outcome.bind (Detection.boardPts geom [0, 1, 2, 3, 4]) _ = _
  rw [bp]
  simp only [Outcome.bind]
  rw [if_pos ⟨residual, by rw [hlen]; decide⟩]
  rfl

theorem image (c f : Nat) : Detection.detectImage fit cfg [geom, geom] c f (path c f) (some (rawOf c f)) =
    .ok [det c f 0, det c f 1] := by
  simp only [Detection.detectImage, List.zipIdx_cons, List.zipIdx_nil, Outcome.foldlM, Nat.zero_add,
    board c f 0 (.inl rfl), board c f 1 (.inr rfl), Outcome.bind_ok]
  rfl

noncomputable def ts : List (List (List (Insertion (ℝ × ℝ) Str))) :=
  [[[det 0 0 0, det 0 0 1], [det 0 1 0, det 0 1 1]], [[det 1 0 0, det 1 0 1], [det 1 1 0, det 1 1 1]]]

theorem images0 : images glob root pre 0 = [path 0 0, path 0 1] := by decide +kernel

theorem images1 : images glob root pre 1 = [path 1 0, path 1 1] := by decide +kernel

theorem raw00 : raw (path 0 0) = some (rawOf 0 0) := if_pos rfl

theorem raw01 : raw (path 0 1) = some (rawOf 0 1) := by
  unfold raw
  rw [if_neg (by decide +kernel), if_pos rfl]

theorem raw10 : raw (path 1 0) = some (rawOf 1 0) := by
  unfold raw
  rw [if_neg (by decide +kernel), if_neg (by decide +kernel), if_pos rfl]

theorem raw11 : raw (path 1 1) = some (rawOf 1 1) := by
  unfold raw
  rw [if_neg (by decide +kernel), if_neg (by decide +kernel), if_neg (by decide +kernel), if_pos rfl]

theorem tasks : cameraTasks u.fitLine u.cfg u.geoms u.raw u.glob u.root u.pre u.nbCam = .ok ts := by
  show cameraTasks fit cfg [geom, geom] raw glob root pre 2 = _
  simp only [cameraTasks, show List.range 2 = [0, 1] from rfl, Outcome.foldlM, cameraStep, images0, images1,
    List.zipIdx_cons, List.zipIdx_nil, Nat.zero_add, taskStep, raw00, raw01, raw10, raw11, image, Outcome.bind_ok]
  rfl

theorem same {l' : List (Insertion (ℝ × ℝ) Str)} (h : Detection.Schedule ts l') : SameObs l l' := by
  refine .of_perm (List.Perm.map _ ?_)
  exact h.perm.symm

theorem connected : Connected S3 2 2 l 0 0 :=
  ⟨fun _ _ => Nat.zero_le _, boards_linked, cam0, fun _ _ => Nat.zero_le _, cams_linked, simple⟩

theorem himg : ∀ c < u.nbCam, ∃ p, (images u.glob u.root u.pre c).head? = some p ∧ (u.sizeOf p).isSome = true := by
  intro c hc
  have : c = 0 ∨ c = 1 := by
    have : c < 2 := hc
    omega
  rcases this with rfl | rfl
  · exact ⟨path 0 0, by show (images glob root pre 0).head? = _; rw [images0]; rfl, rfl⟩
  · exact ⟨path 1 0, by show (images glob root pre 1).head? = _; rw [images1]; rfl, rfl⟩

/-- The hypotheses hold, for every schedule; the second run writes to the same directory. -/
example (l' : List (Insertion (ℝ × ℝ) Str)) (h : Detection.Schedule ts l') :
    ∃ rep kp d', Verif.Whole.run u l' d0 = .ok d' ∧ Props.Disk.Written env.save [] rep kp d0 d' ∧ Ready env.save [] d' ∧
      Calibrated w bpts 2 2 l' 0 0 rep ∧ ∃ rep' d'', Verif.Whole.run { u with keypoints := keypointFile env.save } [] d' = .ok d'' ∧
        Props.Disk.Written env.save [] rep' kp d' d'' ∧ Calibrated w bpts 2 2 l' 0 0 rep' := by
  have hs := same h
  obtain ⟨rep, kp, d', h1, h2, h3, h4, h5⟩ := C85_rerun u w pix 0 0 (exactParts _) ts tasks l' h (fun a ha => by
    obtain ⟨b, hb, e⟩ := (hs a.obs).2 ⟨a, ha, rfl⟩
    exact e ▸ detected b hb) (hs.connected connected) himg d0 ready (.inr (.inl rfl))
  obtain ⟨rep', d'', g1, g2, _, g4⟩ := h5 { u with keypoints := keypointFile env.save } (exactParts _) rfl rfl rfl rfl h3
    (fun _ c hc => by
      show c ∈ Spec.Groups.observingCams 2 l'
      rw [← hs.observingCams]
      have : c = 0 ∨ c = 1 := by
        have : c < 2 := hc
        omega
      rcases this with rfl | rfl
      · exact cam0
      · exact cam1) []
  exact ⟨rep, kp, d', h1, h2, h3, h4, rep', d'', g1, g2, g4⟩

/-- There are schedules. -/
example : Detection.Schedule ts l :=
  ⟨[_, _], .cons (.step (i := 0) rfl (.step (i := 0) rfl (.step (i := 1) rfl (.step (i := 1) rfl (.nil (by simp))))))
    (.cons (.step (i := 0) rfl (.step (i := 0) rfl (.step (i := 1) rfl (.step (i := 1) rfl (.nil (by simp)))))) .nil), rfl⟩

end Verif.Props.Whole.Example
