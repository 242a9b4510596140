import Verif.Props.PixelSingle

/-! An example for C84: two cameras, one perspective and one fisheye, whose poses do not commute, see two boards of five
corners in two frames. Poses are found by trying all of them. -/
namespace Verif.Props.Pixels.Example
open Verif Verif.Objects Verif.Groups Verif.Pipeline Verif.Ransac Verif.Spec.Pixels Verif.Spec.Exact Verif.Spec.Objects
open Verif.Spec.Groups Verif.Spec.Pipeline Verif.Props.Outliers Verif.Props.Exact Verif.Props.ExactReport
open Verif.Folders
open Verif.Props.Pipeline (S3)
open Verif.Props.Exact.Example (w all solve solves val)
open Verif.Props.ExactReport.Example (pix)

def bpts : List (List (Fin 3)) := [[0, 1, 2, 0, 1], [0, 1, 2, 0, 1]]

def root : Str := "d".toList
def pre : Str := "Cam_".toList

/-- The image of a camera in a frame. -/
def path (c f : Nat) : Str := join (folder root pre c) (Images.paddedTo 6 f ++ ".png".toList)

/-- The detection of all corners of a board, where the camera sees them. -/
noncomputable def det (c f b : Nat) : Insertion (ℝ × ℝ) Str :=
  ⟨⟨c, f, b, ((bpts[b]?).getD []).map fun x => pix c ((w.cam c * (w.motion f * w.board b)) • x), [0, 1, 2, 3, 4]⟩, path c f⟩

noncomputable def l : List (Insertion (ℝ × ℝ) Str) :=
  (List.range 2).flatMap fun c => (List.range 2).flatMap fun f => [det c f 0, det c f 1]

noncomputable def s : Store (ℝ × ℝ) Str := val (Store.init 2 2) (Store.run 2 2 l)

theorem run_ok : Store.run 2 2 l = .ok s := by
  have h : (match Store.run 2 2 l with | .ok _ => true | _ => false) = true := by decide +kernel
  unfold s
  generalize Store.run 2 2 l = x at h
  cases x <;> simp_all [val]

/-- The pose tried next. -/
def next (g : S3) : S3 := (all[(all.idxOf g + 1) % 6]?).getD 1

open Classical in
/-- A library that tries all poses. -/
noncomputable def lib (q : Fin 3 → ℝ × ℝ) : Lib (Fin 3) (ℝ × ℝ) S3 Nat where
  p3p cur _ := next cur
  refine m _ := m
  err g x p := if p = q (g • x) then 0 else 1
  thresh := 1
  trials _ _ := 100
  shuffle _ l := l

theorem model_eq (q : Fin 3 → ℝ × ℝ) (scene : List (Fin 3)) (image : List (ℝ × ℝ)) (cur : S3) (k : Nat) :
    model (lib q) scene image cur k = next^[k + 1] cur := by
  induction k with
  | zero => rfl
  | succ k ih =>
    rw [Function.iterate_succ', Function.comp_apply, ← ih]
    rfl

theorem fits_iff (q : Fin 3 → ℝ × ℝ) (scene : List (Fin 3)) (image : List (ℝ × ℝ)) (g : S3) :
    Fits (lib q) scene image g ↔ Explains q g scene image := by
  unfold Fits Explains
  refine forall_congr' fun e => forall_congr' fun _ => ?_
  show (if e.2 = q (g • e.1) then 0 else 1) < 1 ↔ _
  split <;> simp_all

theorem tried : ∀ g ∈ all, ∀ cur ∈ all, ∃ j ∈ List.range 6, next^[j + 1] cur = g := by decide +kernel

theorem mem_all : ∀ g : S3, g ∈ all := by decide +kernel

theorem exactLib (q : Fin 3 → ℝ × ℝ) : ExactLib q (lib q) 6 where
  shuffle _ _ := List.Perm.refl _
  sample := by
    intro scene image g cur _ _ he _
    obtain ⟨j, hj, hg⟩ := tried g (mem_all g) cur (mem_all cur)
    refine ⟨j, List.mem_range.1 hj, ?_, fun k _ => ?_⟩
    · rw [model_eq, hg, fits_iff]
      exact he
    · have := List.mem_range.1 hj
      show ((j - k : Nat) : Int) ≤ 100
      omega
  refine := by
    intro scene image g m _ _ hu hf
    exact hu m ((fits_iff q scene image m).1 hf)

/-- Camera 0 is perspective, camera 1 fisheye. -/
def md (c : Nat) : Int := if c = 0 then 0 else 1

def undist (_ : Nat) (p : ℝ × ℝ) : ℝ × ℝ := (p.2, p.1)

noncomputable def search : Search (Fin 3) (ℝ × ℝ) S3 :=
  searches (fun _ c => lib (pix c)) (fun _ c => lib fun x => undist c (pix c x)) undist md 6 fun _ => 1

theorem md_ok (c : Nat) : md c = 0 ∨ md c = 1 := by unfold md; split <;> simp

theorem search_exact : ExactSearch pix search :=
  C84_searches _ _ undist md 6 _ pix md_ok (fun _ c _ => exactLib (pix c)) (fun _ c _ => exactLib _)
    (fun _ _ x y h => by
      simp only [undist, Prod.mk.injEq] at h
      exact Prod.ext h.2 h.1)

theorem search_sound : Sound search :=
  C30_sound _ _ (fun _ _ _ _ => List.Perm.refl _) (fun _ _ _ _ => List.Perm.refl _) _ _ _ _

theorem search_fails : Fails search :=
  C55_fails _ _ (fun _ _ _ _ => List.Perm.refl _) (fun _ _ _ _ => List.Perm.refl _) _ _ md_ok _ (by decide) _

theorem det_exact (c f b : Nat) (hb : b = 0 ∨ b = 1) : ExactDetection w pix bpts (det c f b).obs := by
  refine ⟨?_, ?_, ?_, ?_⟩
  · rcases hb with rfl | rfl <;> rfl
  · rcases hb with rfl | rfl <;> simp [det, bpts]
  · intro p k hp
    rcases hb with rfl | rfl <;>
    · simp [det, bpts] at hp
      rcases hp with ⟨rfl, rfl⟩ | ⟨rfl, rfl⟩ | ⟨rfl, rfl⟩ | ⟨rfl, rfl⟩ | ⟨rfl, rfl⟩ <;> exact ⟨_, _, rfl, rfl, rfl⟩
  · intro g hg
    have hpix : ∀ x y : Fin 3, pix c x = pix c y → x = y := by
      intro x y h
      simp only [pix, Prod.mk.injEq, Nat.cast_inj] at h
      exact Fin.ext h.1
    have hall : ∀ k ps x, bpts[b]? = some ps → ps[k]? = some x →
        (pix c ((w.cam c * (w.motion f * w.board b)) • x), k) ∈ (det c f b).obs.pts.zip (det c f b).obs.ids →
        (w.cam c * (w.motion f * w.board b)) • x = g • x := fun k ps x h1 h2 h3 => hpix _ _ (hg _ k ps x h3 h1 h2)
    apply Equiv.ext
    intro x
    have hx : x = 0 ∨ x = 1 ∨ x = 2 := by omega
    rcases hb with rfl | rfl <;> rcases hx with rfl | rfl | rfl
    · exact (hall 0 _ 0 rfl rfl (by simp [det, bpts])).symm
    · exact (hall 1 _ 1 rfl rfl (by simp [det, bpts])).symm
    · exact (hall 2 _ 2 rfl rfl (by simp [det, bpts])).symm
    · exact (hall 0 _ 0 rfl rfl (by simp [det, bpts])).symm
    · exact (hall 1 _ 1 rfl rfl (by simp [det, bpts])).symm
    · exact (hall 2 _ 2 rfl rfl (by simp [det, bpts])).symm

theorem detected : ∀ a ∈ l, ExactDetection w pix bpts a.obs := by
  intro a ha
  obtain ⟨c, _, ha⟩ := List.mem_flatMap.1 ha
  obtain ⟨f, _, ha⟩ := List.mem_flatMap.1 ha
  simp only [List.mem_cons, List.not_mem_nil, or_false] at ha
  rcases ha with rfl | rfl
  · exact det_exact c f 0 (.inl rfl)
  · exact det_exact c f 1 (.inr rfl)

noncomputable def est : Program.Estimator (Fin 3) (ℝ × ℝ) S3 where
  search _ := search
  garbage := 1
  refined ps := ps

def n : Numerics S3 S3 where
  boardPose _ := 1
  objPose _ _ := 1
  inGroup _ _ f _ := w.cam 0 * (w.motion f * w.board 0)
  board _ _ b := (w.board 0)⁻¹ * w.board b
  cam _ _ c := w.cam c * (w.cam 0)⁻¹
  avg := Props.Objects.firstOr
  avgV := Props.Objects.firstOr
  toVec g := g
  ofVec g := g
  he := solve
  choose _ _ _ _ := 0

noncomputable def proj : ReproErr.Projection (ℝ × ℝ) S3 (Fin 3) ℝ where
  model := md
  brown c g ps := if ps = [] then .throw else .ok (ps.map fun p => pix c (g • p))
  kannala c g ps := .ok (ps.map fun p => pix c (g • p))
  dist p q := |p.1 - q.1| + |p.2 - q.2|

noncomputable def env : Finish.Env S3 S3 (Fin 3) ℝ Str Str where
  ofVec g := g
  model := md
  projBrown c g ps := .ok (ps.map fun p => pix c (g • p))
  projKannala c g ps := .ok (ps.map fun p => pix c (g • p))
  cams := [⟨0, fun _ => 1, some (640, 480)⟩, ⟨1, fun _ => 2, some (640, 480)⟩]
  zero := 1
  colour _ := (0, 0, 255)
  imread p := some p
  emptyPath := []
  save := "out".toList
  saveDetect := 1
  saveRepro := 1
  gp _ := 1
  camPose _ := 1

theorem avg_ok (zs : List S3) (x : S3) (h : zs ≠ []) (ha : ∀ z ∈ zs, z = x) : Props.Objects.firstOr zs = x := by
  cases zs with
  | nil => exact absurd rfl h
  | cons z zs => exact ha z List.mem_cons_self

theorem numerics : TrueNumerics w 0 0 est n :=
  ⟨avg_ok, avg_ok, fun _ => rfl, fun _ _ => rfl, fun _ _ _ => rfl, fun _ _ _ => rfl, fun _ _ _ _ => rfl, solves⟩

theorem det_mem (c f b : Nat) (hc : c < 2) (hf : f < 2) (hb : b < 2) : det c f b ∈ l := by
  refine List.mem_flatMap.2 ⟨c, List.mem_range.2 hc, List.mem_flatMap.2 ⟨f, List.mem_range.2 hf, ?_⟩⟩
  have : b = 0 ∨ b = 1 := by omega
  rcases this with rfl | rfl <;> simp

theorem coSeen : CoSeen l 1 0 := by
  refine ⟨by decide, ?_⟩
  refine ⟨det 0 0 1, ?_, det 0 0 0, ?_, ?_⟩
  · exact det_mem _ _ _ (by decide) (by decide) (by decide)
  · exact det_mem _ _ _ (by decide) (by decide) (by decide)
  · simp [det]

theorem linked : CamsLinked l (l.map (·.obs)) 1 0 := by
  refine ⟨by decide, (det 1 0 0).obs, List.mem_map.2 ⟨_, ?_, rfl⟩, (det 0 0 0).obs, List.mem_map.2 ⟨_, ?_, rfl⟩, rfl, rfl,
    rfl, ?_, ?_, Relation.ReflTransGen.refl⟩
  · exact det_mem _ _ _ (by decide) (by decide) (by decide)
  · exact det_mem _ _ _ (by decide) (by decide) (by decide)
  · simp [det, bpts]
  · simp [det, bpts]

theorem cams_lt {a b : Nat} (h : CamsLinked l (l.map (·.obs)) a b) : b = 0 ∨ b = 1 := by
  have hv : ∀ a ∈ l, a.obs.cam = 0 ∨ a.obs.cam = 1 := by decide +kernel
  obtain ⟨_, _, _, y, hy, _, rfl, _⟩ := h
  obtain ⟨a, ha, rfl⟩ := List.mem_map.1 hy
  exact hv a ha

theorem hb : ∀ b ∈ observedBoards 2 l, b = 0 ∨ b = 1 := by decide +kernel

theorem hc : ∀ c ∈ observingCams 2 l, c = 0 ∨ c = 1 := by decide +kernel

theorem boards_linked (b : Nat) (hb' : b ∈ observedBoards 2 l) : Relation.ReflTransGen (CoSeen l) b 0 := by
  rcases hb b hb' with rfl | rfl
  · exact .refl
  · exact .single coSeen

theorem cams_linked (c : Nat) (hc' : c ∈ observingCams 2 l) : Relation.ReflTransGen (CamsLinked l (l.map (·.obs))) c 0 := by
  rcases hc c hc' with rfl | rfl
  · exact .refl
  · exact .single linked

theorem simple : Simple S3 l (l.map (·.obs)) := by
  refine .inr fun r c h _ hne => .inr fun d hd => ?_
  rcases Relation.ReflTransGen.cases_head h with rfl | ⟨x, hx, _⟩
  · exact absurd rfl hne
  have hr : r = 0 ∨ r = 1 := by
    obtain ⟨h1, x, hx, y, hy, e1, e2, e3, e4, e5, e6⟩ := hx
    have hv : ∀ a ∈ l, a.obs.cam = 0 ∨ a.obs.cam = 1 := by decide +kernel
    obtain ⟨a, ha, rfl⟩ := List.mem_map.1 hx
    exact e1 ▸ hv a ha
  have hlt : ∀ {y}, Relation.ReflTransGen (CamsLinked l (l.map (·.obs))) r y → y = 0 ∨ y = 1 := by
    intro y hy
    rcases Relation.ReflTransGen.cases_tail hy with rfl | ⟨x, _, hx⟩
    · exact hr
    · exact cams_lt hx
  have h1 := hlt h
  have h2 := hlt hd
  omega

theorem cam0 : 0 ∈ observingCams 2 l := by decide +kernel

theorem cam1 : 1 ∈ observingCams 2 l := by decide +kernel

theorem in_range : ∀ a ∈ l, a.obs.cam < 2 ∧ a.obs.board < 2 := by decide +kernel

theorem pointwise : Spec.ReproErr.Pointwise proj fun c g p => pix c (g • p) :=
  ⟨fun c g ps h => if_neg h, fun c g ps _ => rfl⟩

/-- All hypotheses of C84 hold in the example, with and without the last refinement. -/
example : ∀ fix ∈ [(0 : Int), 1], ∃ r rep ref bref, Program.calibrate search none proj est n fix bpts s = .ok r ∧
    Finish.report env bpts s.frames r = .ok rep ∧
    Props.Finish.Correct env bpts s.frames r (Props.Finish.readingOf r env.ofVec pix) rep ∧ Truthful w bpts rep ref bref ∧
    References r.1 ref bref := by
  intro fix _
  refine C84_single 2 2 l in_range s run_ok bpts rfl w pix detected search search_sound search_exact est
    (fun _ => search_sound) (fun _ => search_fails) (fun _ => search_exact) proj
    pointwise md_ok (fun _ _ => rfl) (fun _ _ => .inl rfl) none n fix
    (fun f hf => nomatch hf) (b0 := 0) (c0 := 0) (fun _ _ => Nat.zero_le _) boards_linked cam0 (fun _ _ => Nat.zero_le _)
    cams_linked numerics simple env (fun c _ => md_ok c) rfl (fun _ _ _ _ => rfl) (fun _ _ _ _ => rfl) (fun c hc' => ?_)
  rcases hc c hc' with rfl | rfl
  · exact ⟨_, _, rfl, rfl⟩
  · exact ⟨_, _, rfl, rfl⟩

end Verif.Props.Pixels.Example
