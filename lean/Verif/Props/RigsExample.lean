import Verif.Props.RigsWhole
import Verif.Props.WholeExample

/-! An example for C93, with three rigs: cameras 0 and 2 see board 1 only, in nine frames, camera 1 sees boards 0 and 2 in the
first six frames, and camera 3 sees board 3 in the last six frames. -/
namespace Verif.Props.Rigs.Example
open Verif Verif.Folders Verif.Start Verif.Disk Verif.Pipeline Verif.Ransac Verif.Program Verif.Whole
open Verif.Spec.Pixels Verif.Spec.Exact Verif.Spec.Whole Verif.Spec.Disk Verif.Spec.Objects Verif.Spec.Groups Verif.Spec.Pipeline
open Verif.Spec.Rigs Verif.Props.Whole
open Verif.Props.Pipeline (S3)
open Verif.Props.Exact.Example (all solve solves val)
open Verif.Props.ExactReport.Example (pix)
open Verif.Props.Pixels.Example (root pre path search est proj md md_ok search_sound search_exact search_fails pointwise avg_ok)
open Verif.Props.Whole.Example (fit cfg geom bp residual)

def bpts : List (List (Fin 3)) := [[0, 1, 2, 0, 1], [0, 1, 2, 0, 1], [0, 1, 2, 0, 1], [0, 1, 2, 0, 1]]

def w : World S3 := { Exact.Example.w with motion := fun f => Exact.Example.w.motion (f % 4) }

/-- The first camera of a rig: cameras 0 and 2 are one rig, camera 1 another, camera 3 the last. -/
def fc (c : Nat) : Nat := if c = 1 then 1 else if c = 3 then 3 else 0

/-- The first board of a target: boards 0 and 2 are one target, board 1 another, board 3 the last. -/
def fb (b : Nat) : Nat := if b = 1 then 1 else if b = 3 then 3 else 0

/-- The boards a camera sees in a frame. -/
def sees (c f : Nat) : List Nat :=
  if c = 1 then (if f < 6 then [0, 2] else []) else if c = 3 then (if 3 ≤ f then [3] else []) else [1]

/-- The detection of all corners of a board, where the camera sees them. -/
noncomputable def det (c f b : Nat) : Insertion (ℝ × ℝ) Str :=
  ⟨⟨c, f, b, [0, 1, 2, 0, 1].map fun x => pix c ((w.cam c * (w.motion f * w.board b)) • x), [0, 1, 2, 3, 4]⟩, path c f⟩

noncomputable def l : List (Insertion (ℝ × ℝ) Str) :=
  (List.range 4).flatMap fun c => (List.range 9).flatMap fun f => (sees c f).map (det c f)

theorem det_exact (c f b : Nat) (hb : b < 4) : ExactDetection w pix bpts (det c f b).obs := by
  have hb' : bpts[b]? = some [0, 1, 2, 0, 1] := by
    have : b = 0 ∨ b = 1 ∨ b = 2 ∨ b = 3 := by omega
    rcases this with rfl | rfl | rfl | rfl <;> rfl
  refine ⟨rfl, by simp [det], ?_, ?_⟩
  · intro p k hp
    simp [det] at hp
    rcases hp with ⟨rfl, rfl⟩ | ⟨rfl, rfl⟩ | ⟨rfl, rfl⟩ | ⟨rfl, rfl⟩ | ⟨rfl, rfl⟩ <;> exact ⟨_, _, hb', rfl, rfl⟩
  · intro g hg
    have hpix : ∀ x y : Fin 3, pix c x = pix c y → x = y := by
      intro x y h
      simp only [pix, Prod.mk.injEq, Nat.cast_inj] at h
      exact Fin.ext h.1
    have hall : ∀ k x, [0, 1, 2, 0, 1][k]? = some x →
        (pix c ((w.cam c * (w.motion f * w.board b)) • x), k) ∈ (det c f b).obs.pts.zip (det c f b).obs.ids →
        (w.cam c * (w.motion f * w.board b)) • x = g • x := fun k x h2 h3 => hpix _ _ (hg _ k _ x h3 hb' h2)
    apply Equiv.ext
    intro x
    have hx : x = 0 ∨ x = 1 ∨ x = 2 := by omega
    rcases hx with rfl | rfl | rfl
    · exact (hall 0 0 rfl (by simp [det])).symm
    · exact (hall 1 1 rfl (by simp [det])).symm
    · exact (hall 2 2 rfl (by simp [det])).symm

theorem sees_lt : ∀ c f, ∀ b ∈ sees c f, b < 4 := by
  intro c f b h
  unfold sees at h
  split at h <;> split at h <;> (try split at h) <;> simp at h <;> omega

theorem detected : ∀ a ∈ l, ExactDetection w pix bpts a.obs := by
  intro a ha
  obtain ⟨c, _, ha⟩ := List.mem_flatMap.1 ha
  obtain ⟨f, _, ha⟩ := List.mem_flatMap.1 ha
  obtain ⟨b, hb, rfl⟩ := List.mem_map.1 ha
  exact det_exact c f b (sees_lt c f b hb)

theorem det_mem (c f b : Nat) (hc : c < 4) (hf : f < 9) (hb : b ∈ sees c f) : det c f b ∈ l :=
  List.mem_flatMap.2 ⟨c, List.mem_range.2 hc, List.mem_flatMap.2 ⟨f, List.mem_range.2 hf, List.mem_map_of_mem hb⟩⟩

def n : Numerics S3 S3 where
  boardPose _ := 1
  objPose _ _ := 1
  inGroup k i f j := if k = 2 then w.cam ([0, 1, 3].getD i 0) * (w.motion f * w.board ([0, 1, 3].getD j 0))
    else w.cam 0 * (w.motion f * w.board 0)
  board k _ b := if k ≤ 2 then (w.board (fb b))⁻¹ * w.board b else (w.board 0)⁻¹ * w.board b
  cam k _ c := if k ≤ 2 then w.cam c * (w.cam (fc c))⁻¹ else w.cam c * (w.cam 0)⁻¹
  avg := Props.Objects.firstOr
  avgV := Props.Objects.firstOr
  toVec g := g
  ofVec g := g
  he := solve
  choose _ _ _ _ := 0

theorem numerics : RigNumerics w fc fb 0 0 [1, 3] [1, 3] est n where
  avg := avg_ok
  avgV := avg_ok
  vec _ := rfl
  refined _ _ := rfl
  board k hk i b := if_pos hk
  cam k hk i c := if_pos hk
  inGroup i j c b hc hb f := by
    show w.cam (List.getD [0, 1, 3] i 0) * (w.motion f * w.board (List.getD [0, 1, 3] j 0)) = _
    rw [List.getD_eq_getElem?_getD, List.getD_eq_getElem?_getD, hc, hb]
    rfl
  board_last k hk i b := if_neg (by omega)
  cam_last k hk i c := if_neg (by omega)
  inGroup_last k hk i f j := if_neg (by omega)
  he := solves

theorem rigs : Rigs 4 4 l fc fb [0, 1, 3] [0, 1, 3] where
  cams_lt := by decide
  boards_lt := by decide
  cams := by
    have h : ∀ c ∈ observingCams 4 l, c = 0 ∨ c = 1 ∨ c = 2 ∨ c = 3 := by decide +kernel
    have h20 : CamsLinked l (l.map (·.obs)) 2 0 := by
      refine ⟨by decide, (det 2 0 1).obs, List.mem_map_of_mem (det_mem _ _ _ (by decide) (by decide) (by decide)), (det 0 0 1).obs,
        List.mem_map_of_mem (det_mem _ _ _ (by decide) (by decide) (by decide)), rfl, rfl, rfl, ?_, ?_, Relation.ReflTransGen.refl⟩
      · simp [det]
      · simp [det]
    intro c hc
    rcases h c hc with rfl | rfl | rfl | rfl
    · exact ⟨by decide, by decide, .refl⟩
    · exact ⟨by decide, by decide, .refl⟩
    · exact ⟨by decide, by decide, .single h20⟩
    · exact ⟨by decide, by decide, .refl⟩
  boards := by
    have h : ∀ c ∈ observedBoards 4 l, c = 0 ∨ c = 1 ∨ c = 2 ∨ c = 3 := by decide +kernel
    have h20 : CoSeen l 2 0 :=
      ⟨by decide, det 1 0 2, det_mem _ _ _ (by decide) (by decide) (by decide), det 1 0 0,
        det_mem _ _ _ (by decide) (by decide) (by decide), rfl, rfl, rfl, rfl⟩
    intro c hc
    rcases h c hc with rfl | rfl | rfl | rfl
    · exact ⟨by decide, by decide, .refl⟩
    · exact ⟨by decide, by decide, .refl⟩
    · exact ⟨by decide, by decide, .single h20⟩
    · exact ⟨by decide, by decide, .refl⟩
  own := by
    have h : ∀ a ∈ l, fc a.obs.cam = 0 ∧ fb a.obs.board = 1 ∨ fc a.obs.cam = 1 ∧ fb a.obs.board = 0 ∨
      fc a.obs.cam = 3 ∧ fb a.obs.board = 3 := by decide +kernel
    intro a ha a' ha'
    have h1 := h a ha
    have h2 := h a' ha'
    omega
  seeing := by
    intro r hr
    simp only [List.mem_cons, List.not_mem_nil, or_false] at hr
    rcases hr with rfl | rfl | rfl
    · exact ⟨det 0 0 1, det_mem _ _ _ (by decide) (by decide) (by decide), rfl⟩
    · exact ⟨det 1 0 0, det_mem _ _ _ (by decide) (by decide) (by decide), rfl⟩
    · exact ⟨det 3 3 3, det_mem _ _ _ (by decide) (by decide) (by decide), rfl⟩
  seen := by
    intro r hr
    simp only [List.mem_cons, List.not_mem_nil, or_false] at hr
    rcases hr with rfl | rfl | rfl
    · exact ⟨det 1 0 0, det_mem _ _ _ (by decide) (by decide) (by decide), rfl⟩
    · exact ⟨det 0 0 1, det_mem _ _ _ (by decide) (by decide) (by decide), rfl⟩
    · exact ⟨det 3 3 3, det_mem _ _ _ (by decide) (by decide) (by decide), rfl⟩

theorem frames_of : ∀ a ∈ l, (fc a.obs.cam = 1 → a.obs.frame < 6) ∧ (fc a.obs.cam = 3 → 3 ≤ a.obs.frame) := by decide +kernel

/-- Rigs 1 and 3 have detections together in at most three frames. -/
theorem few {fs : List Nat} (h : ∀ f ∈ fs, InFrame l fc 1 f ∧ InFrame l fc 3 f) (hn : fs.Nodup) : fs.length ≤ 3 := by
  have : fs ⊆ [3, 4, 5] := by
    intro f hf
    obtain ⟨⟨a, ha, e, e1⟩, ⟨a', ha', e', e1'⟩⟩ := h f hf
    have h1 := (frames_of a ha).1 e1
    have h2 := (frames_of a' ha').2 e1'
    have : f = 3 ∨ f = 4 ∨ f = 5 := by omega
    rcases this with rfl | rfl | rfl <;> decide
  exact (hn.subperm this).length_le

theorem around : Around w l fc 0 [1, 3] where
  hub := by
    intro r hr
    simp only [List.mem_cons, List.not_mem_nil, or_false] at hr
    rcases hr with rfl | rfl
    · refine ⟨List.range 6, fun f hf => ?_, by decide, by decide, by unfold Rich; decide +kernel⟩
      have hf := List.mem_range.1 hf
      exact ⟨⟨det 0 f 1, det_mem _ _ _ (by decide) (by omega) (by simp [sees]), rfl, rfl⟩,
        ⟨det 1 f 0, det_mem _ _ _ (by decide) (by omega) (by simp [sees, hf]), rfl, rfl⟩⟩
    · refine ⟨[3, 4, 5, 6, 7, 8], fun f hf => ?_, by decide, by decide, by unfold Rich; decide +kernel⟩
      have hf : 3 ≤ f ∧ f < 9 := by
        simp only [List.mem_cons, List.not_mem_nil, or_false] at hf
        omega
      exact ⟨⟨det 0 f 1, det_mem _ _ _ (by decide) (by omega) (by simp [sees]), rfl, rfl⟩,
        ⟨det 3 f 3, det_mem _ _ _ (by decide) (by omega) (by simp [sees, hf]), rfl, rfl⟩⟩
  others := by
    intro r hr r' hr' hne fs h hn h4
    simp only [List.mem_cons, List.not_mem_nil, or_false] at hr hr'
    have : fs.length ≤ 3 := by
      rcases hr with rfl | rfl <;> rcases hr' with rfl | rfl
      · exact absurd rfl hne
      · exact few h hn
      · exact few (fun f hf => (h f hf).symm) hn
      · exact absurd rfl hne
    omega

theorem simple : Exact.Simple S3 l (l.map (·.obs)) := by
  refine .inr fun r c h _ hne => .inr fun d hd => ?_
  have hv : ∀ a ∈ l, a.obs.cam = 0 ∨ a.obs.cam = 1 ∨ a.obs.cam = 2 ∨ a.obs.cam = 3 := by decide +kernel
  rcases Relation.ReflTransGen.cases_head h with rfl | ⟨x, hx, _⟩
  · exact absurd rfl hne
  have hr : r = 0 ∨ r = 1 ∨ r = 2 ∨ r = 3 := by
    obtain ⟨h1, x, hx, y, hy, e1, e2, e3, e4, e5, e6⟩ := hx
    obtain ⟨a, ha, rfl⟩ := List.mem_map.1 hx
    exact e1 ▸ hv a ha
  have hlt : ∀ {y}, Relation.ReflTransGen (CamsLinked l (l.map (·.obs))) r y → y = 0 ∨ y = 1 ∨ y = 2 ∨ y = 3 := by
    intro y hy
    rcases Relation.ReflTransGen.cases_tail hy with rfl | ⟨x, _, hx⟩
    · exact hr
    · obtain ⟨_, _, _, y, hy', _, rfl, _⟩ := hx
      obtain ⟨a, ha, rfl⟩ := List.mem_map.1 hy'
      exact hv a ha
  have h1 := hlt h
  have h2 := hlt hd
  have h3 := Lemmas.Rigs.linked_cams rigs h
  have h4 := Lemmas.Rigs.linked_cams rigs hd
  unfold fc at h3 h4
  rcases hr with rfl | rfl | rfl | rfl <;> rcases h1 with rfl | rfl | rfl | rfl <;> rcases h2 with rfl | rfl | rfl | rfl <;> simp_all

theorem separate : Separate w 4 4 l fc fb 0 0 [1, 3] [1, 3] := ⟨rigs, around, simple⟩

/-! ### The run -/

noncomputable def rawOf (c f b : Nat) : Detection.Raw (ℝ × ℝ) :=
  if b ∈ sees c f then ⟨(det c f b).obs.pts, [0, 1, 2, 3, 4], []⟩ else ⟨[], [], []⟩

def pairs : List (Nat × Nat) := (List.range 4).flatMap fun c => (List.range 9).map fun f => (c, f)

noncomputable def raw (p : Str) : Option (Nat → Detection.Raw (ℝ × ℝ)) :=
  (pairs.find? fun q => path q.1 q.2 == p).map fun q => rawOf q.1 q.2

def glob (p : Str) : List Str :=
  ((List.range 4).filter fun c => folder root pre c == p).flatMap fun c => (List.range 9).map (path c)

noncomputable def env : Finish.Env S3 S3 (Fin 3) ℝ Str Str :=
  { Pixels.Example.env with
    cams := [⟨0, fun _ => 1, some (640, 480)⟩, ⟨1, fun _ => 2, some (640, 480)⟩, ⟨1, fun _ => 3, some (640, 480)⟩,
      ⟨1, fun _ => 4, some (640, 480)⟩] }

noncomputable def u : Setup S3 S3 (Fin 3) ℝ ℝ ℚ Str where
  nbCam := 4
  debug := true
  fitLine := fit
  cfg := cfg
  geoms := [geom, geom, geom, geom]
  raw := raw
  glob := glob
  root := root
  pre := pre
  sizeOf _ := some (640, 480)
  keypoints := "None".toList
  other _ := .throw
  bpts := bpts
  search := search
  refine := none
  pr := proj
  e := est
  n := n
  fix := 0
  en := env
  name := []

theorem libraries (k : Str) : ExactLibraries { u with keypoints := k } w pix where
  search := ⟨search_sound, search_exact⟩
  searches _ := ⟨search_sound, search_fails, search_exact⟩
  projection := pointwise
  models := md_ok
  brownEmpty _ _ := rfl
  kannalaEmpty _ _ := .inl rfl
  refine := fun f hf => nomatch hf
  reportModels c _ := md_ok c
  ofVec := rfl
  brown _ _ _ _ := rfl
  kannala _ _ _ _ := rfl
  cams := rfl
  boards := rfl

theorem board (c f b : Nat) (hb : b ∈ sees c f) :
    Detection.detectBoard fit cfg geom (rawOf c f b) = .ok (some ((det c f b).obs.pts, [0, 1, 2, 3, 4])) := by
  have hr : rawOf c f b = ⟨(det c f b).obs.pts, [0, 1, 2, 3, 4], []⟩ := if_pos hb
  have hlen : (det c f b).obs.pts.length = 5 := rfl
  rw [hr]
  unfold Detection.detectBoard
  rw [Whole.Example.min]
  simp only [Outcome.bind_ok, hlen]
  rw [if_pos (by decide)]
  show Outcome.bind (.ok (det c f b).obs.pts) _ = _
  simp only [Outcome.bind]
  show Outcome.bind (Detection.boardPts geom [0, 1, 2, 3, 4]) _ = _
  rw [bp]
  simp only [Outcome.bind]
  rw [if_pos ⟨residual, by rw [hlen]; decide⟩]
  rfl

theorem noBoard (c f b : Nat) (hb : b ∉ sees c f) : Detection.detectBoard fit cfg geom (rawOf c f b) = .ok none := by
  have hr : rawOf c f b = ⟨[], [], []⟩ := if_neg hb
  rw [hr]
  unfold Detection.detectBoard
  rw [Whole.Example.min]
  simp

theorem image (c f : Nat) : Detection.detectImage fit cfg [geom, geom, geom, geom] c f (path c f) (some (rawOf c f)) =
    .ok ((sees c f).map (det c f)) := by
  have hs : sees c f = [0, 2] ∨ sees c f = [] ∨ sees c f = [3] ∨ sees c f = [1] := by
    unfold sees
    split <;> split <;> (try split) <;> simp
  rcases hs with hs | hs | hs | hs
  · simp only [Detection.detectImage, List.zipIdx_cons, List.zipIdx_nil, Outcome.foldlM, Nat.zero_add, Nat.reduceAdd,
      board c f 0 (by rw [hs]; decide), noBoard c f 1 (by rw [hs]; decide), board c f 2 (by rw [hs]; decide),
      noBoard c f 3 (by rw [hs]; decide), Outcome.bind_ok, hs]
    rfl
  · simp only [Detection.detectImage, List.zipIdx_cons, List.zipIdx_nil, Outcome.foldlM, Nat.zero_add, Nat.reduceAdd,
      noBoard c f 0 (by rw [hs]; decide), noBoard c f 1 (by rw [hs]; decide), noBoard c f 2 (by rw [hs]; decide),
      noBoard c f 3 (by rw [hs]; decide), Outcome.bind_ok, hs]
    rfl
  · simp only [Detection.detectImage, List.zipIdx_cons, List.zipIdx_nil, Outcome.foldlM, Nat.zero_add, Nat.reduceAdd,
      noBoard c f 0 (by rw [hs]; decide), noBoard c f 1 (by rw [hs]; decide), noBoard c f 2 (by rw [hs]; decide),
      board c f 3 (by rw [hs]; decide), Outcome.bind_ok, hs]
    rfl
  · simp only [Detection.detectImage, List.zipIdx_cons, List.zipIdx_nil, Outcome.foldlM, Nat.zero_add, Nat.reduceAdd,
      noBoard c f 0 (by rw [hs]; decide), board c f 1 (by rw [hs]; decide), noBoard c f 2 (by rw [hs]; decide),
      noBoard c f 3 (by rw [hs]; decide), Outcome.bind_ok, hs]
    rfl

noncomputable def ts : List (List (List (Insertion (ℝ × ℝ) Str))) :=
  (List.range 4).map fun c => (List.range 9).map fun f => (sees c f).map (det c f)

theorem images_eq : ∀ c ∈ List.range 4, images glob root pre c = (List.range 9).map (path c) := by decide +kernel

theorem raw_eq (c f : Nat) (hc : c < 4) (hf : f < 9) : raw (path c f) = some (rawOf c f) := by
  have : ∀ c ∈ List.range 4, ∀ f ∈ List.range 9, (pairs.find? fun q => path q.1 q.2 == path c f) = some (c, f) := by decide +kernel
  unfold raw
  rw [this c (List.mem_range.2 hc) f (List.mem_range.2 hf)]
  rfl

theorem tasks : cameraTasks u.fitLine u.cfg u.geoms u.raw u.glob u.root u.pre u.nbCam = .ok ts := by
  show cameraTasks fit cfg [geom, geom, geom, geom] raw glob root pre 4 = _
  simp only [cameraTasks, show List.range 4 = [0, 1, 2, 3] from rfl, Outcome.foldlM, cameraStep, images_eq 0 (by decide),
    images_eq 1 (by decide), images_eq 2 (by decide), images_eq 3 (by decide), show List.range 9 = [0, 1, 2, 3, 4, 5, 6, 7, 8] from rfl, List.map_cons, List.map_nil,
    List.zipIdx_cons, List.zipIdx_nil, Nat.zero_add, Nat.reduceAdd, taskStep, raw_eq, Nat.reduceLT, image, Outcome.bind_ok]
  rfl

theorem himg : ∀ c < u.nbCam, ∃ p, (images u.glob u.root u.pre c).head? = some p ∧ (u.sizeOf p).isSome = true := by
  intro c hc
  refine ⟨path c 0, ?_, rfl⟩
  show (images glob root pre c).head? = _
  rw [images_eq c (List.mem_range.2 hc)]
  rfl

/-- There is a schedule with the detections in order. -/
theorem schedule : Detection.Schedule ts l := by
  refine ⟨ts.map List.flatten, ?_, ?_⟩
  · unfold ts
    rw [List.map_map]
    refine List.forall₂_map_left_iff.2 (List.forall₂_map_right_iff.2 (List.forall₂_same.2 fun c _ => ?_))
    exact Detection.Interleave.sequential _
  · rfl

theorem same {l' : List (Insertion (ℝ × ℝ) Str)} (h : Detection.Schedule ts l') : SameObs l l' :=
  .of_perm (List.Perm.map _ (schedule.perm.trans h.perm.symm))

theorem observing : ∀ c < 4, c ∈ observingCams 4 l := by decide +kernel

/-- The hypotheses hold, for every schedule; the second run writes to the same directory. -/
example (l' : List (Insertion (ℝ × ℝ) Str)) (h : Detection.Schedule ts l') :
    ∃ rep kp d', Verif.Whole.run u l' Whole.Example.d0 = .ok d' ∧ Props.Disk.Written env.save [] rep kp Whole.Example.d0 d' ∧
      Calibrated w bpts 4 4 l' 0 0 rep ∧ ∃ rep' d'', Verif.Whole.run { u with keypoints := keypointFile env.save } [] d' = .ok d'' ∧
        Props.Disk.Written env.save [] rep' kp d' d'' ∧ Calibrated w bpts 4 4 l' 0 0 rep' := by
  have hs := same h
  obtain ⟨rep, kp, d', h1, h2, h3, h4, h5⟩ := C93_runs u w pix (libraries _) numerics ts tasks l' h (fun a ha => by
    obtain ⟨b, hb, e⟩ := (hs a.obs).2 ⟨a, ha, rfl⟩
    exact e ▸ detected b hb) (hs.separate separate) himg Whole.Example.d0 Whole.Example.ready (.inr (.inl rfl))
  obtain ⟨rep', d'', g1, g2, _, g4⟩ := h5 { u with keypoints := keypointFile env.save } (libraries _) numerics rfl rfl rfl rfl h3
    (fun _ c hc => by
      show c ∈ observingCams 4 l'
      rw [← hs.observingCams]
      exact observing c hc) []
  exact ⟨rep, kp, d', h1, h2, h4, rep', d'', g1, g2, g4⟩

end Verif.Props.Rigs.Example
