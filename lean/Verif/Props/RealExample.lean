import Verif.Lemmas.Pinhole
import Verif.Props.ScriptsExact

/-!
An example with cameras, for C84, C85 and C99: poses are rigid motions of space, cameras are pinhole cameras with different
focal lengths and whose poses do not commute with those of the boards; two cameras see two boards of six corners in
two frames.
-/
namespace Verif.Props.RealExample
open Verif Verif.Folders Verif.Start Verif.Disk Verif.Objects Verif.Groups Verif.Pipeline Verif.Ransac Verif.Program Verif.Whole
open Verif.Spec.Pixels Verif.Spec.Exact Verif.Spec.Whole Verif.Spec.Disk Verif.Spec.Objects Verif.Spec.Groups Verif.Spec.Pipeline
open Verif.Rigid Verif.Lemmas.Rigid Verif.Lemmas.Pinhole Verif.Props.Outliers Verif.Props.Exact Verif.Props.Pixels
open Verif.Props.Whole Verif.Scripts Verif.Props.ScriptsTruth

/-! ### The scene -/

/-- A quarter turn about the third axis. -/
def quarter : Mat3 ℝ := !![0, -1, 0; 1, 0, 0; 0, 0, 1]

theorem quarter_rot : IsRot quarter := by
  constructor
  · ext i j
    fin_cases i <;> fin_cases j <;> simp [quarter, Matrix.mul_apply, Fin.sum_univ_succ]
  · simp [quarter, Matrix.det_fin_three]

noncomputable def turn (x y z : ℝ) : Pose ℝ := ⟨RT2Proj quarter ![x, y, z], quarter, _, quarter_rot, rfl⟩

noncomputable def shift (x y z : ℝ) : Pose ℝ := ⟨RT2Proj 1 ![x, y, z], 1, _, .one, rfl⟩

theorem turn_upright (x y z : ℝ) : Upright z (turn x y z) := by
  constructor <;> simp [turn, projRot_RT2Proj, projTrans_RT2Proj, quarter]

theorem shift_upright (x y z : ℝ) : Upright z (shift x y z) := by
  constructor <;> simp [shift, projRot_RT2Proj, projTrans_RT2Proj]

noncomputable def w : World (Pose ℝ) where
  cam c := if c = 0 then shift 0 0 0 else turn 1 0 0
  motion f := if f = 0 then shift 0 0 5 else turn 0 1 6
  board b := if b = 0 then shift 0 0 0 else turn 3 0 0

/-- The poses do not commute. -/
theorem not_comm : w.cam 1 * w.board 1 ≠ w.board 1 * w.cam 1 := by
  intro h
  have := congrArg (fun g : Pose ℝ => projTrans g.1 0) h
  simp only [trans_mul, transformPt_eq] at this
  simp [w, turn, projRot_RT2Proj, projTrans_RT2Proj, quarter] at this

/-- The pose of a board in a camera. -/
noncomputable def at' (c f b : Nat) : Pose ℝ := w.cam c * (w.motion f * w.board b)

theorem at_upright (c f b : Nat) : ∃ z, 0 < z ∧ Upright z (at' c f b) := by
  have h1 : Upright 0 (w.cam c) := by
    unfold w; dsimp only; split
    · exact shift_upright _ _ _
    · exact turn_upright _ _ _
  have h2 : ∃ z, 0 < z ∧ Upright z (w.motion f) := by
    unfold w; dsimp only; split
    · exact ⟨5, by norm_num, shift_upright _ _ _⟩
    · exact ⟨6, by norm_num, turn_upright _ _ _⟩
  have h3 : Upright 0 (w.board b) := by
    unfold w; dsimp only; split
    · exact shift_upright _ _ _
    · exact turn_upright _ _ _
  obtain ⟨z, hz, h2⟩ := h2
  exact ⟨_, by linarith, h1.mul (h2.mul h3)⟩

/-- Six corners. -/
def grid : List (Vec3 ℝ) := [corner 0 0, corner 1 0, corner 2 0, corner 0 1, corner 1 1, corner 2 1]

def bpts : List (List (Vec3 ℝ)) := [grid, grid]

noncomputable def focal (c : Nat) : ℝ := if c = 0 then 100 else 120

theorem focal_pos (c : Nat) : 0 < focal c := by unfold focal; split <;> norm_num

/-- The pinhole camera: centre (320, 240). -/
noncomputable def pinhole (c : Nat) (p : Vec3 ℝ) : ℝ × ℝ := (focal c * (p 0 / p 2) + 320, focal c * (p 1 / p 2) + 240)

/-- A pixel where no corner is seen. -/
noncomputable def nothing : ℝ × ℝ :=
  (Infinite.exists_notMem_finset (((List.range 2).flatMap fun c => (List.range 2).flatMap fun f => (List.range 2).flatMap fun b =>
    grid.map fun x => pinhole c (at' c f b • x)) : List (ℝ × ℝ)).toFinset).choose

theorem nothing_spec (c f b : Nat) (hc : c < 2) (hf : f < 2) (hb : b < 2) (x : Vec3 ℝ) (hx : x ∈ grid) :
    pinhole c (at' c f b • x) ≠ nothing := by
  have := (Infinite.exists_notMem_finset (((List.range 2).flatMap fun c => (List.range 2).flatMap fun f => (List.range 2).flatMap fun b =>
    grid.map fun x => pinhole c (at' c f b • x)) : List (ℝ × ℝ)).toFinset).choose_spec
  intro h
  apply this
  rw [List.mem_toFinset]
  show nothing ∈ _
  rw [← h]
  exact List.mem_flatMap.2 ⟨c, List.mem_range.2 hc, List.mem_flatMap.2 ⟨f, List.mem_range.2 hf, List.mem_flatMap.2
    ⟨b, List.mem_range.2 hb, List.mem_map_of_mem hx⟩⟩⟩

open Classical in
/-- Where a camera sees a point: only points in front of it are seen. -/
noncomputable def pix (c : Nat) (p : Vec3 ℝ) : ℝ × ℝ := if 0 < p 2 then pinhole c p else nothing

theorem depth (c f b : Nat) (x : Vec3 ℝ) (hx : x ∈ grid) : 0 < (at' c f b • x) 2 := by
  obtain ⟨z, hz, h⟩ := at_upright c f b
  simp only [grid, List.mem_cons, List.not_mem_nil, or_false] at hx
  rcases hx with rfl | rfl | rfl | rfl | rfl | rfl <;> · rw [at_corner, h.a, h.b, h.d]; linarith

theorem ray (c f b : Nat) (hc : c < 2) (hf : f < 2) (hb : b < 2) (x : Vec3 ℝ) (hx : x ∈ grid) (g : Pose ℝ)
    (h : pix c (at' c f b • x) = pix c (g • x)) : SameRay (g • x) (at' c f b • x) := by
  have hd := depth c f b x hx
  unfold pix at h
  rw [if_pos hd] at h
  by_cases hg : 0 < (g • x) 2
  · rw [if_pos hg] at h
    unfold pinhole at h
    rw [Prod.mk.injEq, add_left_inj, add_left_inj] at h
    exact sameRay_of hg hd (mul_left_cancel₀ (focal_pos c).ne' h.1.symm) (mul_left_cancel₀ (focal_pos c).ne' h.2.symm)
  · rw [if_neg hg] at h
    exact absurd h (nothing_spec c f b hc hf hb x hx)

/-! ### Detections -/

def root : Str := "d".toList
def pre : Str := "Cam_".toList

/-- The image of a camera in a frame. -/
def path (c f : Nat) : Str := join (folder root pre c) (Images.paddedTo 6 f ++ ".png".toList)

/-- The detection of all corners of a board, where the camera sees them. -/
noncomputable def det (c f b : Nat) : Insertion (ℝ × ℝ) Str :=
  ⟨⟨c, f, b, grid.map fun x => pix c (at' c f b • x), [0, 1, 2, 3, 4, 5]⟩, path c f⟩

noncomputable def l : List (Insertion (ℝ × ℝ) Str) :=
  (List.range 2).flatMap fun c => (List.range 2).flatMap fun f => [det c f 0, det c f 1]

theorem det_exact (c f b : Nat) (hc : c < 2) (hf : f < 2) (hb : b = 0 ∨ b = 1) :
    ExactDetection w pix bpts (det c f b).obs := by
  have hbp : bpts[b]? = some grid := by rcases hb with rfl | rfl <;> rfl
  have hblt : b < 2 := by omega
  refine ⟨rfl, by simp [det, grid], ?_, ?_⟩
  · intro p k hp
    simp [det, grid] at hp
    rcases hp with ⟨rfl, rfl⟩ | ⟨rfl, rfl⟩ | ⟨rfl, rfl⟩ | ⟨rfl, rfl⟩ | ⟨rfl, rfl⟩ | ⟨rfl, rfl⟩ <;> exact ⟨_, _, hbp, rfl, rfl⟩
  · intro g hg
    obtain ⟨z, hz, hu⟩ := at_upright c f b
    have key : ∀ (k : Nat) x, grid[k]? = some x → (pix c (at' c f b • x), k) ∈ (det c f b).obs.pts.zip (det c f b).obs.ids →
        SameRay (g • x) (at' c f b • x) := fun k x hx hm =>
      ray c f b hc hf hblt x (List.mem_of_getElem? hx) g (hg _ k grid x hm hbp hx)
    exact unique hz hu (key 0 _ rfl (by simp [det, grid])) (key 1 _ rfl (by simp [det, grid]))
      (key 3 _ rfl (by simp [det, grid])) (key 4 _ rfl (by simp [det, grid]))

theorem detected : ∀ a ∈ l, ExactDetection w pix bpts a.obs := by
  intro a ha
  obtain ⟨c, hc, ha⟩ := List.mem_flatMap.1 ha
  obtain ⟨f, hf, ha⟩ := List.mem_flatMap.1 ha
  simp only [List.mem_cons, List.not_mem_nil, or_false] at ha
  rcases ha with rfl | rfl
  · exact det_exact c f 0 (List.mem_range.1 hc) (List.mem_range.1 hf) (.inl rfl)
  · exact det_exact c f 1 (List.mem_range.1 hc) (List.mem_range.1 hf) (.inr rfl)

/-! ### Parts that are not modelled -/

open Classical in
/-- A pose that explains all points, if there is one. -/
noncomputable def find (c : Nat) (scene : List (Vec3 ℝ)) (image : List (ℝ × ℝ)) : Pose ℝ :=
  if h : ∃ g, Explains (pix c) g scene image then h.choose else 1

noncomputable def search : Search (Vec3 ℝ) (ℝ × ℝ) (Pose ℝ) := fun _ c scene image =>
  if image.length < 4 then .ub else .ok (List.range image.length, find c scene image)

theorem search_sound : Sound search := by
  intro k c scene image _ h4
  exact ⟨_, _, if_neg (by omega), List.Sublist.refl _⟩

theorem search_fails : Fails search := fun _ _ _ _ h => if_pos h

theorem search_exact : ExactSearch pix search := by
  intro k c scene image g _ h4 hg hu
  unfold search
  rw [if_neg (by omega)]
  have h : ∃ g, Explains (pix c) g scene image := ⟨g, hg⟩
  have : find c scene image = g := by
    unfold find
    rw [dif_pos h]
    exact hu _ h.choose_spec
  rw [this]

noncomputable def est : Program.Estimator (Vec3 ℝ) (ℝ × ℝ) (Pose ℝ) where
  search _ := search
  garbage := 1
  refined ps := ps

open Classical in
/-- Hand-eye calibration. -/
noncomputable def solve (ps : List (Pose ℝ × Pose ℝ)) : Outcome (Pose ℝ) :=
  if h : ∃ x, ∃ d, ∀ p ∈ ps, p.1⁻¹ * x * p.2 = d then .ok h.choose else .ok 1

theorem solves : Solves solve := by
  intro ps _
  unfold solve
  split
  · next h => exact ⟨_, rfl, fun _ => h.choose_spec⟩
  · next h => exact ⟨_, rfl, fun h' => absurd h' h⟩

/-- An average of equal poses. -/
noncomputable def firstOr (zs : List (Pose ℝ)) : Pose ℝ := zs.head?.getD 1

noncomputable def n : Numerics (Pose ℝ) (Pose ℝ) where
  boardPose _ := 1
  objPose _ _ := 1
  inGroup _ _ f _ := w.cam 0 * (w.motion f * w.board 0)
  board _ _ b := (w.board 0)⁻¹ * w.board b
  cam _ _ c := w.cam c * (w.cam 0)⁻¹
  avg := firstOr
  avgV := firstOr
  toVec g := g
  ofVec g := g
  he := solve
  choose _ _ _ _ := 0

theorem avg_ok (zs : List (Pose ℝ)) (x : Pose ℝ) (h : zs ≠ []) (ha : ∀ z ∈ zs, z = x) : firstOr zs = x := by
  cases zs with
  | nil => exact absurd rfl h
  | cons z zs => exact ha z List.mem_cons_self

theorem numerics : TrueNumerics w 0 0 est n :=
  ⟨avg_ok, avg_ok, fun _ => rfl, fun _ _ => rfl, fun _ _ _ => rfl, fun _ _ _ => rfl, fun _ _ _ _ => rfl, solves⟩

noncomputable def proj : ReproErr.Projection (ℝ × ℝ) (Pose ℝ) (Vec3 ℝ) ℝ where
  model _ := 0
  brown c g ps := if ps = [] then .throw else .ok (ps.map fun p => pix c (g • p))
  kannala c g ps := .ok (ps.map fun p => pix c (g • p))
  dist p q := |p.1 - q.1| + |p.2 - q.2|

theorem pointwise : Spec.ReproErr.Pointwise proj fun c g p => pix c (g • p) :=
  ⟨fun c g ps h => if_neg h, fun c g ps _ => rfl⟩

/-- The parameters of a camera: focal length, centre, no distortion. -/
noncomputable def intr (c : Nat) : Camera.Intr ℝ := fun i => ([focal c, focal c, 320, 240][i]?).getD 0

noncomputable def env : Finish.Env (Pose ℝ) (Pose ℝ) (Vec3 ℝ) ℝ Str Str where
  ofVec g := g
  model _ := 0
  projBrown c g ps := .ok (ps.map fun p => pix c (g • p))
  projKannala c g ps := .ok (ps.map fun p => pix c (g • p))
  cams := [⟨0, intr 0, some (640, 480)⟩, ⟨0, intr 1, some (640, 480)⟩]
  zero := 1
  colour _ := (0, 0, 255)
  imread p := some p
  emptyPath := []
  save := "out".toList
  saveDetect := 1
  saveRepro := 1
  gp _ := 1
  camPose _ := 1

/-! ### The views are connected -/

theorem det_mem (c f b : Nat) (hc : c < 2) (hf : f < 2) (hb : b < 2) : det c f b ∈ l := by
  refine List.mem_flatMap.2 ⟨c, List.mem_range.2 hc, List.mem_flatMap.2 ⟨f, List.mem_range.2 hf, ?_⟩⟩
  have : b = 0 ∨ b = 1 := by omega
  rcases this with rfl | rfl <;> simp

theorem coSeen : CoSeen l 1 0 := by
  refine ⟨by decide, ?_⟩
  refine ⟨det 0 0 1, ?_, det 0 0 0, ?_, ?_⟩
  · exact det_mem _ _ _ (by decide) (by decide) (by decide)
  · exact det_mem _ _ _ (by decide) (by decide) (by decide)
  · simp [det]

theorem linked : CamsLinked l (l.map (·.obs)) 1 0 := by
  refine ⟨by decide, (det 1 0 0).obs, List.mem_map.2 ⟨_, ?_, rfl⟩, (det 0 0 0).obs, List.mem_map.2 ⟨_, ?_, rfl⟩, rfl, rfl,
    rfl, ?_, ?_, Relation.ReflTransGen.refl⟩
  · exact det_mem _ _ _ (by decide) (by decide) (by decide)
  · exact det_mem _ _ _ (by decide) (by decide) (by decide)
  · simp [det, grid]
  · simp [det, grid]

theorem cam_of : ∀ a ∈ l, a.obs.cam = 0 ∨ a.obs.cam = 1 := by decide +kernel

theorem cams_lt {a b : Nat} (h : CamsLinked l (l.map (·.obs)) a b) : b = 0 ∨ b = 1 := by
  obtain ⟨_, _, _, y, hy, _, rfl, _⟩ := h
  obtain ⟨a, ha, rfl⟩ := List.mem_map.1 hy
  exact cam_of a ha

theorem hb : ∀ b ∈ observedBoards 2 l, b = 0 ∨ b = 1 := by decide +kernel

theorem hc : ∀ c ∈ observingCams 2 l, c = 0 ∨ c = 1 := by decide +kernel

theorem boards_linked (b : Nat) (hb' : b ∈ observedBoards 2 l) : Relation.ReflTransGen (CoSeen l) b 0 := by
  rcases hb b hb' with rfl | rfl
  · exact .refl
  · exact .single coSeen

theorem cams_linked (c : Nat) (hc' : c ∈ observingCams 2 l) : Relation.ReflTransGen (CamsLinked l (l.map (·.obs))) c 0 := by
  rcases hc c hc' with rfl | rfl
  · exact .refl
  · exact .single linked

theorem simple : Simple (Pose ℝ) l (l.map (·.obs)) := by
  refine .inr fun r c h _ hne => .inr fun d hd => ?_
  rcases Relation.ReflTransGen.cases_head h with rfl | ⟨x, hx, _⟩
  · exact absurd rfl hne
  have hr : r = 0 ∨ r = 1 := by
    obtain ⟨h1, x, hx, y, hy, e1, e2, e3, e4, e5, e6⟩ := hx
    obtain ⟨a, ha, rfl⟩ := List.mem_map.1 hx
    exact e1 ▸ cam_of a ha
  have hlt : ∀ {y}, Relation.ReflTransGen (CamsLinked l (l.map (·.obs))) r y → y = 0 ∨ y = 1 := by
    intro y hy
    rcases Relation.ReflTransGen.cases_tail hy with rfl | ⟨x, _, hx⟩
    · exact hr
    · exact cams_lt hx
  have h1 := hlt h
  have h2 := hlt hd
  omega

theorem cam0 : 0 ∈ observingCams 2 l := by decide +kernel

theorem connected : Connected (Pose ℝ) 2 2 l 0 0 :=
  ⟨fun _ _ => Nat.zero_le _, boards_linked, cam0, fun _ _ => Nat.zero_le _, cams_linked, simple⟩

/-! ### Files -/

def fit (_ : List (ℚ × ℚ)) : ℚ × ℚ × ℚ × ℚ := (1, 0, 0, 0)

def cfg : Detection.Cfg := ⟨false, 0⟩

def geom : Detection.Geom ℚ := ⟨6, [(0, 0), (1, 0), (2, 0), (0, 1), (1, 1), (2, 1)], 1⟩

noncomputable def rawOf (c f b : Nat) : Detection.Raw (ℝ × ℝ) := ⟨(det c f b).obs.pts, [0, 1, 2, 3, 4, 5], []⟩

/-- The images show all boards; other files cannot be read. -/
noncomputable def raw (p : Str) : Option (Nat → Detection.Raw (ℝ × ℝ)) :=
  if p = path 0 0 then some (rawOf 0 0) else if p = path 0 1 then some (rawOf 0 1) else
  if p = path 1 0 then some (rawOf 1 0) else if p = path 1 1 then some (rawOf 1 1) else none

def glob (p : Str) : List Str :=
  if p = folder root pre 0 then [path 0 0, path 0 1] else
  if p = folder root pre 1 then [path 1 0, path 1 1] else []

noncomputable def u : Setup (Pose ℝ) (Pose ℝ) (Vec3 ℝ) ℝ ℝ ℚ Str where
  nbCam := 2
  debug := true
  fitLine := fit
  cfg := cfg
  geoms := [geom, geom]
  raw := raw
  glob := glob
  root := root
  pre := pre
  sizeOf _ := some (640, 480)
  keypoints := "None".toList
  other _ := .throw
  bpts := bpts
  search := search
  refine := none
  pr := proj
  e := est
  n := n
  fix := 0
  en := env
  name := []

def d0 : Files (Pose ℝ) (Pose ℝ) (Vec3 ℝ) ℝ Str := ⟨fun x => x.names == [], fun _ => none⟩

theorem exactParts : ExactParts u w pix 0 0 where
  search := ⟨search_sound, search_exact⟩
  searches _ := ⟨search_sound, search_fails, search_exact⟩
  projection := pointwise
  models _ := .inl rfl
  brownEmpty c g := by
    show proj.brown c g [] = _
    rfl
  kannalaEmpty _ _ := .inl rfl
  refine := fun f hf => nomatch hf
  numerics := numerics
  reportModels _ _ := .inl rfl
  ofVec := rfl
  brown _ _ _ _ := rfl
  kannala _ _ _ _ := rfl
  cams := rfl
  boards := rfl

theorem ready : Ready u.en.save u.name d0 where
  sound := ⟨fun _ => rfl, fun a xs x h => by simp [d0] at h, fun a xs x h => absurd rfl h, fun _ _ => rfl⟩
  clear := ⟨fun _ _ => rfl, by
    rintro x ⟨kind, _, c, f, rfl⟩
    simp [below, d0]⟩
  free b _ := by simp [below, d0]
  name := .inl rfl
  place := .inr (by decide)

theorem min : Detection.minCorners cfg geom.nbPts = .ok 0 := by decide +kernel

theorem bp : Detection.boardPts geom [0, 1, 2, 3, 4, 5] = .ok geom.pts := by decide +kernel

theorem residual : Detection.lineResidual fit geom.pts > geom.square * (1 / 10) := by decide +kernel

theorem board (c f b : Nat) :
    Detection.detectBoard fit cfg geom (rawOf c f b) = .ok (some ((det c f b).obs.pts, [0, 1, 2, 3, 4, 5])) := by
  have hlen : (rawOf c f b).corners.length = 6 := by simp [rawOf, det, grid]
  unfold Detection.detectBoard
  rw [min]
  simp only [Outcome.bind_ok, hlen]
  rw [if_pos (by decide)]
  show Outcome.bind (.ok (rawOf c f b).corners) _ = _
  simp only [Outcome.bind]
  show Outcome.bind (Detection.boardPts geom [0, 1, 2, 3, 4, 5]) _ = _
  rw [bp]
  simp only [Outcome.bind]
  rw [if_pos ⟨residual, by rw [hlen]; decide⟩]
  rfl

theorem image (c f : Nat) : Detection.detectImage fit cfg [geom, geom] c f (path c f) (some (rawOf c f)) =
    .ok [det c f 0, det c f 1] := by
  simp only [Detection.detectImage, List.zipIdx_cons, List.zipIdx_nil, Outcome.foldlM, Nat.zero_add,
    board c f 0, board c f 1, Outcome.bind_ok]
  rfl

noncomputable def ts : List (List (List (Insertion (ℝ × ℝ) Str))) :=
  [[[det 0 0 0, det 0 0 1], [det 0 1 0, det 0 1 1]], [[det 1 0 0, det 1 0 1], [det 1 1 0, det 1 1 1]]]

theorem images0 : images glob root pre 0 = [path 0 0, path 0 1] := by decide +kernel

theorem images1 : images glob root pre 1 = [path 1 0, path 1 1] := by decide +kernel

theorem raw00 : raw (path 0 0) = some (rawOf 0 0) := if_pos rfl

theorem raw01 : raw (path 0 1) = some (rawOf 0 1) := by
  unfold raw
  rw [if_neg (by decide +kernel), if_pos rfl]

theorem raw10 : raw (path 1 0) = some (rawOf 1 0) := by
  unfold raw
  rw [if_neg (by decide +kernel), if_neg (by decide +kernel), if_pos rfl]

theorem raw11 : raw (path 1 1) = some (rawOf 1 1) := by
  unfold raw
  rw [if_neg (by decide +kernel), if_neg (by decide +kernel), if_neg (by decide +kernel), if_pos rfl]

theorem tasks : cameraTasks u.fitLine u.cfg u.geoms u.raw u.glob u.root u.pre u.nbCam = .ok ts := by
  show cameraTasks fit cfg [geom, geom] raw glob root pre 2 = _
  simp only [cameraTasks, show List.range 2 = [0, 1] from rfl, Outcome.foldlM, cameraStep, images0, images1,
    List.zipIdx_cons, List.zipIdx_nil, Nat.zero_add, taskStep, raw00, raw01, raw10, raw11, image, Outcome.bind_ok]
  rfl

theorem same {l' : List (Insertion (ℝ × ℝ) Str)} (h : Detection.Schedule ts l') : SameObs l l' := by
  refine .of_perm (List.Perm.map _ ?_)
  exact h.perm.symm

theorem himg : ∀ c < u.nbCam, ∃ p, (images u.glob u.root u.pre c).head? = some p ∧ (u.sizeOf p).isSome = true := by
  intro c hc
  have : c = 0 ∨ c = 1 := by
    have : c < 2 := hc
    omega
  rcases this with rfl | rfl
  · exact ⟨path 0 0, by show (images glob root pre 0).head? = _; rw [images0]; rfl, rfl⟩
  · exact ⟨path 1 0, by show (images glob root pre 1).head? = _; rw [images1]; rfl, rfl⟩

/-! ### Results -/

/-- The ground truth file. -/
noncomputable def truth : List (Pose ℝ × Mat3 ℝ) := [0, 1].map fun c =>
  (turned (w.cam c * (w.cam 0)⁻¹), !![focal c, 0, 320; 0, focal c, 240; 0, 0, 1])

theorem twice (x : Pose ℝ) : axes * (turned x).1 * axes = x.1 := by
  show axes * (axes * x.1 * axes) * axes = x.1
  have h : axes * axes = 1 := by rw [axes_eq]; exact flip_flip
  calc axes * (axes * x.1 * axes) * axes = (axes * axes) * x.1 * (axes * axes) := by simp only [Matrix.mul_assoc]
    _ = x.1 := by rw [h, Matrix.one_mul, Matrix.mul_one]

/-- For every schedule: the results are complete and true (C85). -/
example (l' : List (Insertion (ℝ × ℝ) Str)) (h : Detection.Schedule ts l') :
    ∃ rep kp d', Verif.Whole.run u l' d0 = .ok d' ∧ Props.Disk.Written env.save [] rep kp d0 d' ∧
      Calibrated w bpts 2 2 l' 0 0 rep := by
  have hs := same h
  obtain ⟨rep, kp, d', _, _, h1, h2, _, h4, _⟩ := C85_directory u w pix 0 0 exactParts ts tasks l' h (fun a ha => by
    obtain ⟨b, hb, e⟩ := (hs a.obs).2 ⟨a, ha, rfl⟩
    exact e ▸ detected b hb) (hs.connected connected) himg d0 ready (.inr (.inl rfl))
  exact ⟨rep, kp, d', h1, h2, h4⟩

/-- For every schedule: the scripts report zeros (C99). -/
example (l' : List (Insertion (ℝ × ℝ) Str)) (h : Detection.Schedule ts l') :
    ∃ d' errs cams p, Verif.Whole.run u l' d0 = .ok d' ∧
      d'.file (below env.save ["reprojection_error_data.yml".toList]) = some (.errors errs) ∧
      errorStatistic errs = .ok [0, 0] ∧
      d'.file (below env.save [cameraName []]) = some (.cameras cams) ∧
      poseErrors cams (truth.map fun t => (t.1.1, t.2)) = .ok p ∧
      ∀ x ∈ [p.rot, p.trans, p.fx, p.fy, p.u0, p.v0], x = some 0 := by
  have hs := same h
  have hdet : ∀ a ∈ l', ExactDetection w pix u.bpts a.obs := fun a ha => by
    obtain ⟨b, hb, e⟩ := (hs a.obs).2 ⟨a, ha, rfl⟩
    exact e ▸ detected b hb
  obtain ⟨d1, errs, fs, a1, a2, a3, a4, a5⟩ := ScriptsExact.C99_bars u w pix 0 0 exactParts ts tasks l' h hdet
    (hs.connected connected) himg d0 ready (.inr (.inl rfl)) (by show 2 ≤ 100; decide)
  obtain ⟨d2, cams, p, b1, b2, b3, _, b5⟩ := ScriptsExact.C99_truth u w pix 0 0 exactParts ts tasks l' h hdet
    (hs.connected connected) himg d0 ready (.inr (.inl rfl)) (by
      intro c hc
      refine (hs.exists fun o => o.cam = c).1 ⟨det c 0 0, det_mem c 0 0 hc (by decide) (by decide), rfl⟩) truth rfl
  rw [a1] at b1
  cases b1
  refine ⟨d1, errs, cams, p, a1, a2, ?_, b2, b3, b5.2 ?_⟩
  · have hfs : fs.Perm [0, 1] := by
      refine (List.perm_ext_iff_of_nodup a3 (by decide)).2 fun f => ?_
      rw [a4 f, ← hs.exists fun o => o.frame = f]
      constructor
      · rintro ⟨a, ha, rfl⟩
        have : ∀ a ∈ l, a.obs.frame = 0 ∨ a.obs.frame = 1 := by decide +kernel
        have := this a ha
        simp only [List.mem_cons, List.not_mem_nil, or_false]
        exact this
      · intro hf
        have : f = 0 ∨ f = 1 := by simpa using hf
        exact ⟨det 0 f 0, det_mem 0 f 0 (by decide) (by omega) (by decide), rfl⟩
    have : fs.length = 2 := hfs.length_eq
    rw [a5]
    match fs, this with
    | [_, _], _ => rfl
  · intro c cam t k1 k2
    have hc : c = 0 ∨ c = 1 := by
      have := (List.getElem?_eq_some_iff.1 k1).1
      have : c < 2 := this
      omega
    rcases hc with rfl | rfl
    · have k1 : cam = ⟨0, intr 0, some (640, 480)⟩ := by cases k1; rfl
      have k2 : t = (turned (w.cam 0 * (w.cam 0)⁻¹), !![focal 0, 0, 320; 0, focal 0, 240; 0, 0, 1]) := by cases k2; rfl
      subst k1 k2
      exact ⟨twice _, by simp [intr], by simp [intr], by simp [intr], by simp [intr]⟩
    · have k1 : cam = ⟨0, intr 1, some (640, 480)⟩ := by cases k1; rfl
      have k2 : t = (turned (w.cam 1 * (w.cam 0)⁻¹), !![focal 1, 0, 320; 0, focal 1, 240; 0, 0, 1]) := by cases k2; rfl
      subst k1 k2
      exact ⟨twice _, by simp [intr], by simp [intr], by simp [intr], by simp [intr]⟩

/-- There are schedules. -/
example : Detection.Schedule ts l :=
  ⟨[_, _], .cons (.step (i := 0) rfl (.step (i := 0) rfl (.step (i := 1) rfl (.step (i := 1) rfl (.nil (by simp))))))
    (.cons (.step (i := 0) rfl (.step (i := 0) rfl (.step (i := 1) rfl (.step (i := 1) rfl (.nil (by simp)))))) .nil), rfl⟩

end Verif.Props.RealExample
