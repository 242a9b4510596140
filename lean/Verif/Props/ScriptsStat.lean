import Verif.Lemmas.Scripts
import Verif.Props.Report

/-!
C72: the script that shows the reprojection error of each frame.
-/
namespace Verif.Props.ScriptsStat
open Verif Verif.Output Verif.Objects Verif.Groups Verif.Spec.Report Verif.Scripts Verif.Lemmas.Scripts

variable {V G Pt : Type} [Group G] [SMul G Pt] {sc : Output.Scene V G Pt} {frames : List Nat}
  {r : Reading G Pt}

/-- The distances of the first observation by a camera in a frame. -/
noncomputable def firstErrors (sc : Output.Scene V G Pt) (r : Reading G Pt) (f c : Nat) : List ℝ :=
  ((sc.oo.find? fun o => o.frame == f && o.cam == c).map (errors r)).getD []

private theorem cam_mem (h : Holds sc frames r) {g : CamGroup G} (hg : sc.t.groups = [(0, g)])
    {o : ObjObs (ℝ × ℝ)} (ho : o ∈ sc.oo) : o.cam ∈ OMap.keys g.cameras := by
  obtain ⟨g', h1, h2⟩ := h.group o ho
  rw [hg] at h1
  have := (OMap.get?_eq_some (m := [(0, g)]) (by simp [OMap.Sorted])).1 h1
  simp only [List.mem_singleton, Prod.mk.injEq] at this
  rw [← this.2]; exact h2

private theorem file_eq (h : Holds sc frames r) {g : CamGroup G} (hg : sc.t.groups = [(0, g)]) :
    saveReprojectionError sc = .ok (1, [⟨0, (OMap.keys g.frames).map (fun f =>
      ⟨f, frameErrors sc r g f, (frameErrors sc r g f).map (·.1)⟩), OMap.keys g.frames⟩]) := by
  obtain ⟨nodes, h1, h2, h3⟩ := Report.C40_file h
  obtain ⟨n, k1, k2, k3, k4⟩ := h3 0 0 g (by rw [hg]; rfl)
  rw [hg] at h1 h2 k4
  have : nodes = [n] := by
    match nodes, h2, k1 with
    | [x], _, k1 => simpa using k1
  subst this
  rw [h1]
  cases n
  simp only [List.length_singleton, zero_add, List.take_one, List.head?_cons, Option.toList_some, List.flatMap_cons,
    List.flatMap_nil, List.append_nil] at k2 k3 k4 ⊢
  rw [k2, k3, k4]

private theorem frameErrors_eq (h : Holds sc frames r) {g : CamGroup G} (hg : sc.t.groups = [(0, g)]) (f : Nat) :
    frameErrors sc r g f = (sc.oo.filter fun o => o.frame == f).map fun o => (o.cam, errors r o) := by
  unfold frameErrors
  congr 1
  apply List.filter_congr
  intro o ho
  simp [cam_mem h hg ho]

private theorem find_first (l : List (ObjObs (ℝ × ℝ))) (f c : Nat) :
    (((l.filter fun o => o.frame == f).map fun o => (o.cam, errors r o)).find? fun e => e.1 == c) =
      (l.find? fun o => o.frame == f && o.cam == c).map fun o => (o.cam, errors r o) := by
  rw [List.find?_map, List.find?_filter]
  congr 2
  funext o
  simp only [Function.comp, Bool.decide_and, Bool.decide_eq_true]

private theorem len (h : Holds sc frames r) {o : ObjObs (ℝ × ℝ)} (ho : o ∈ sc.oo) : (errors r o).length ≠ 0 := by
  have h1 := h.nonempty o ho
  have h2 := h.aligned o ho
  have : (errors r o).length = o.ids.length := by unfold errors; simp [h2]
  rw [this]
  simpa using h1

private theorem camera_ok (h : Holds sc frames r) {g : CamGroup G} (hg : sc.t.groups = [(0, g)]) (f : Nat)
    (o : ObjObs (ℝ × ℝ)) (ho : o ∈ sc.oo) (hf : o.frame = f) :
    cameraError ⟨f, frameErrors sc r g f, (frameErrors sc r g f).map (·.1)⟩ o.cam =
      if o.cam < 100 then .ok (Spec.Report.mean (firstErrors sc r f o.cam)) else .throw := by
  unfold cameraError firstErrors
  simp only [frameErrors_eq h hg, find_first]
  cases hx : sc.oo.find? fun o' => o'.frame == f && o'.cam == o.cam with
  | none =>
    have := List.find?_eq_none.1 hx o ho
    simp [hf] at this
  | some o' =>
    have hm := List.mem_of_find?_eq_some hx
    simp only [Option.map_some, orThrow, Outcome.bind_ok, Option.getD_some]
    rw [if_neg (len h hm)]
    rfl

private theorem frame_ok (h : Holds sc frames r) {g : CamGroup G} (hg : sc.t.groups = [(0, g)]) (f : Nat)
    (hf : f ∈ OMap.keys g.frames) (fs : List Nat)
    (ho : ∃ o ∈ sc.oo, o.frame = f) (h100 : ∀ o ∈ sc.oo, o.frame = f → o.cam < 100) :
    frameError ⟨0, (OMap.keys g.frames).map (fun f =>
      ⟨f, frameErrors sc r g f, (frameErrors sc r g f).map (·.1)⟩), fs⟩ f =
      .ok (Spec.Report.mean ((sc.oo.filter fun o => o.frame == f).map fun o =>
        Spec.Report.mean (firstErrors sc r f o.cam))) := by
  have hfind : ((OMap.keys g.frames).map (fun f =>
      (⟨f, frameErrors sc r g f, (frameErrors sc r g f).map (·.1)⟩ : FrameNode))).find? (fun n => n.frame == f) =
      some ⟨f, frameErrors sc r g f, (frameErrors sc r g f).map (·.1)⟩ := by
    rw [List.find?_map]
    cases hx : (OMap.keys g.frames).find? ((fun n : FrameNode => n.frame == f) ∘ fun f =>
        (⟨f, frameErrors sc r g f, (frameErrors sc r g f).map (·.1)⟩ : FrameNode)) with
    | none =>
      have := List.find?_eq_none.1 hx f hf
      simp at this
    | some f' =>
      have := List.find?_some hx
      simp only [Function.comp, beq_iff_eq] at this
      subst this; rfl
  unfold frameError
  simp only [hfind, orThrow, Outcome.bind_ok]
  rw [if_neg]
  · rw [each_ok _ (fun c => Spec.Report.mean (firstErrors sc r f c))]
    · rw [Outcome.bind_ok, frameErrors_eq h hg]
      simp only [List.map_map]
      rfl
    · intro c hc
      rw [frameErrors_eq h hg, List.map_map] at hc
      obtain ⟨o, ho', rfl⟩ := List.mem_map.1 hc
      have := List.mem_filter.1 ho'
      have hfr : o.frame = f := by simpa using this.2
      have h1 := camera_ok h hg f o this.1 hfr
      rw [if_pos (h100 o this.1 hfr)] at h1
      exact h1
  · obtain ⟨o, h1, h2⟩ := ho
    rw [frameErrors_eq h hg]
    simp only [List.map_map, List.length_map, List.length_eq_zero_iff]
    exact List.ne_nil_of_mem (List.mem_filter.2 ⟨h1, by simp [h2]⟩)

/-- C72: with one group, cameras numbered below 100 and an observation in every frame listed, the script finds the
numbers it needs in the file, and the bar of a frame is the mean, over the observations in the frame, of the mean
distance -- not of the observation itself, but of the first one by the same camera in the frame. -/
theorem C72_bars (h : Holds sc frames r) {g : CamGroup G} (hg : sc.t.groups = [(0, g)])
    (hne : OMap.keys g.frames ≠ []) (hseen : ∀ f ∈ OMap.keys g.frames, ∃ o ∈ sc.oo, o.frame = f)
    (h100 : ∀ o ∈ sc.oo, o.cam < 100) :
    ∃ file, saveReprojectionError sc = .ok file ∧ errorStatistic file = .ok ((OMap.keys g.frames).map fun f =>
      Spec.Report.mean ((sc.oo.filter fun o => o.frame == f).map fun o =>
        Spec.Report.mean (firstErrors sc r f o.cam))) := by
  refine ⟨_, file_eq h hg, ?_⟩
  unfold errorStatistic
  simp only [verifyNumCameraGroups, if_true, Outcome.bind_ok, List.find?_cons, beq_self_eq_true, orThrow]
  rw [if_neg (by simpa using hne)]
  apply each_ok
  intro f hf
  exact frame_ok h hg f hf _ (hseen f hf) fun o ho _ => h100 o ho

/-- C72, what is expected: if no camera has two observations in a frame (one object, no copies), the bar of a frame
is the mean of the mean distances of its observations. -/
theorem C72_once (h : Holds sc frames r) {g : CamGroup G} (hg : sc.t.groups = [(0, g)])
    (hne : OMap.keys g.frames ≠ []) (hseen : ∀ f ∈ OMap.keys g.frames, ∃ o ∈ sc.oo, o.frame = f)
    (h100 : ∀ o ∈ sc.oo, o.cam < 100) (hnd : (sc.oo.map fun o => (o.cam, o.frame)).Nodup) :
    ∃ file, saveReprojectionError sc = .ok file ∧ errorStatistic file = .ok ((OMap.keys g.frames).map fun f =>
      Spec.Report.mean ((sc.oo.filter fun o => o.frame == f).map fun o => Spec.Report.mean (errors r o))) := by
  obtain ⟨file, h1, h2⟩ := C72_bars h hg hne hseen h100
  refine ⟨file, h1, h2.trans ?_⟩
  congr 2
  funext f
  congr 1
  apply List.map_congr_left
  intro o ho
  have ho := List.mem_filter.1 ho
  congr 1
  unfold firstErrors
  cases hx : sc.oo.find? fun o' => o'.frame == f && o'.cam == o.cam with
  | none =>
    have := List.find?_eq_none.1 hx o ho.1
    simp at this ho
    exact absurd ho.2 this
  | some o' =>
    have hp := List.find?_some hx
    simp only [Bool.and_eq_true, beq_iff_eq] at hp ho
    have : o' = o := List.inj_on_of_nodup_map hnd (List.mem_of_find?_eq_some hx) ho.1 (by
      simp only [Prod.mk.injEq]; exact ⟨hp.2, hp.1.trans ho.2.symm⟩)
    subst this; rfl

private theorem sum_frames (l : List (ObjObs (ℝ × ℝ))) (w : ObjObs (ℝ × ℝ) → ℝ) (fs : List Nat) (hnd : fs.Nodup)
    (hc : ∀ o ∈ l, o.frame ∈ fs) :
    (fs.map fun f => ((l.filter fun o => o.frame == f).map w).sum).sum = (l.map w).sum := by
  induction l with
  | nil => simp
  | cons o l ih =>
    have hstep : (fs.map fun f => (((o :: l).filter fun o => o.frame == f).map w).sum) =
        fs.map fun f => (if o.frame == f then w o else 0) + ((l.filter fun o => o.frame == f).map w).sum := by
      apply List.map_congr_left
      intro f _
      rw [List.filter_cons]
      by_cases hf : (o.frame == f) = true
      · simp [hf]
      · simp [hf]
    rw [hstep, List.sum_map_add, ih fun x hx => hc x (by simp [hx])]
    simp only [List.map_cons, List.sum_cons]
    congr 1
    have hm := hc o (by simp)
    clear hstep ih hc
    induction fs with
    | nil => simp at hm
    | cons a fs ih =>
      rw [List.nodup_cons] at hnd
      rw [List.map_cons, List.sum_cons]
      by_cases ha : o.frame = a
      · subst ha
        have : (fs.map fun f => if (o.frame == f) = true then w o else 0) = fs.map fun _ => (0 : ℝ) := by
          apply List.map_congr_left
          intro f hf
          rw [if_neg]
          simp only [beq_iff_eq]
          rintro rfl
          exact hnd.1 hf
        rw [this]
        simp
      · rw [if_neg (by simpa using ha), zero_add]
        exact ih hnd.2 (by rcases List.mem_cons.1 hm with h | h; exact absurd h ha; exact h)

/-- C72: under the same conditions the average reprojection error reported by the calibration (C41) is the mean of
the bars, each weighted with the number of observations in its frame. -/
theorem C72_average (h : Holds sc frames r) {g : CamGroup G} (hg : sc.t.groups = [(0, g)])
    (hseen : ∀ f ∈ OMap.keys g.frames, ∃ o ∈ sc.oo, o.frame = f) (hoo : sc.oo ≠ [])
    (h100 : ∀ o ∈ sc.oo, o.cam < 100) (hnd : (sc.oo.map fun o => (o.cam, o.frame)).Nodup) :
    ∃ file bars, saveReprojectionError sc = .ok file ∧ errorStatistic file = .ok bars ∧
      computeAvgReprojectionError sc = .ok (some
        ((List.zipWith (fun (b : ℝ) f => b * (sc.oo.countP fun o => o.frame == f : ℕ)) bars (OMap.keys g.frames)).sum /
          sc.oo.length)) := by
  have hcov : ∀ o ∈ sc.oo, o.frame ∈ OMap.keys g.frames := by
    intro o ho
    have hgg : OMap.get? sc.t.groups 0 = some g := by rw [hg]; rfl
    obtain ⟨i, hi⟩ := List.getElem?_of_mem ho
    have hm := (Report.mem_reported h hgg o.frame i).2 ⟨o, hi, rfl, cam_mem h hg ho⟩
    rw [Report.reported_eq h hgg] at hm
    cases hx : OMap.get? sc.t.groupObs (0, o.frame) with
    | none => rw [hx] at hm; simp at hm
    | some is => exact h.lists.frames 0 g o.frame is hgg hx
  have hne : OMap.keys g.frames ≠ [] := by
    obtain ⟨o, ho⟩ := List.exists_mem_of_ne_nil _ hoo
    exact List.ne_nil_of_mem (hcov o ho)
  obtain ⟨file, h1, h2⟩ := C72_once h hg hne hseen h100 hnd
  refine ⟨file, _, h1, h2, ?_⟩
  rw [Report.C41_value h, if_neg hoo]
  have hs : OMap.Sorted g.frames := h.lists.sorted 0 g (by rw [hg]; rfl)
  have hz : ∀ (b : Nat → ℝ) (w : Nat → ℝ) (l : List Nat),
      List.zipWith (fun x f => x * w f) (l.map b) l = l.map fun f => b f * w f := by
    intro b w l
    induction l with
    | nil => rfl
    | cons a l ih => simp [ih]
  rw [hz _ fun f => ((sc.oo.countP fun o => o.frame == f : ℕ) : ℝ)]
  congr 2
  unfold Spec.Report.mean
  rw [List.length_map]
  congr 1
  rw [← sum_frames sc.oo _ (OMap.keys g.frames) (OMap.keys_nodup hs) hcov]
  congr 1
  apply List.map_congr_left
  intro f hf
  obtain ⟨o, ho, hof⟩ := hseen f hf
  rw [List.length_map, List.countP_eq_length_filter, div_mul_cancel₀]
  have : (sc.oo.filter fun o => o.frame == f) ≠ [] :=
    List.ne_nil_of_mem (List.mem_filter.2 ⟨ho, by simp [hof]⟩)
  have : (sc.oo.filter fun o => o.frame == f).length ≠ 0 := by simpa using this
  exact_mod_cast this

/-- C72: unless there is exactly one group, the script stops with an exception, whatever else is in the file. -/
theorem C72_groups (h : Holds sc frames r) (hg : sc.t.groups.length ≠ 1) :
    ∃ file, saveReprojectionError sc = .ok file ∧ errorStatistic file = .throw := by
  obtain ⟨nodes, h1, _⟩ := Report.C40_file h
  refine ⟨_, h1, ?_⟩
  unfold errorStatistic verifyNumCameraGroups
  rw [if_neg hg]
  rfl

/-- C72, failure: with one group, the script stops with an exception if a camera that observed something has a number
of 100 or more, or if a frame is listed without observation. -/
theorem C72_limits (h : Holds sc frames r) {g : CamGroup G} (hg : sc.t.groups = [(0, g)])
    (hbad : (∃ o ∈ sc.oo, 100 ≤ o.cam ∧ o.frame ∈ OMap.keys g.frames) ∨
      ∃ f ∈ OMap.keys g.frames, ∀ o ∈ sc.oo, o.frame ≠ f) :
    ∃ file, saveReprojectionError sc = .ok file ∧ errorStatistic file = .throw := by
  refine ⟨_, file_eq h hg, ?_⟩
  unfold errorStatistic
  simp only [verifyNumCameraGroups, if_true, Outcome.bind_ok, List.find?_cons, beq_self_eq_true, orThrow]
  split
  · rfl
  apply each_throw
  · intro f hf
    by_cases h1 : ∃ o ∈ sc.oo, o.frame = f
    · by_cases h2 : ∀ o ∈ sc.oo, o.frame = f → o.cam < 100
      · exact Or.inr ⟨_, frame_ok h hg f hf _ h1 h2⟩
      · left
        exact bad_frame f hf (Or.inl (by push Not at h2; exact h2))
    · left
      exact bad_frame f hf (Or.inr (by push Not at h1; exact h1))
  · rcases hbad with ⟨o, ho, hc, hf⟩ | ⟨f, hf, ho⟩
    · exact ⟨o.frame, hf, bad_frame _ hf (Or.inl ⟨o, ho, rfl, hc⟩)⟩
    · exact ⟨f, hf, bad_frame _ hf (Or.inr ho)⟩
where
  bad_frame (f : Nat) (hf : f ∈ OMap.keys g.frames)
      (hb : (∃ o ∈ sc.oo, o.frame = f ∧ 100 ≤ o.cam) ∨ ∀ o ∈ sc.oo, o.frame ≠ f) :
      frameError ⟨0, (OMap.keys g.frames).map (fun f =>
        ⟨f, frameErrors sc r g f, (frameErrors sc r g f).map (·.1)⟩), OMap.keys g.frames⟩ f = .throw := by
    unfold frameError
    cases hx : ((OMap.keys g.frames).map (fun f =>
      (⟨f, frameErrors sc r g f, (frameErrors sc r g f).map (·.1)⟩ : FrameNode))).find? (fun n => n.frame == f) with
    | none => rfl
    | some n =>
      have hn := List.find?_some hx
      have hm := List.mem_of_find?_eq_some hx
      obtain ⟨f', _, rfl⟩ := List.mem_map.1 hm
      simp only [beq_iff_eq] at hn
      subst hn
      simp only [orThrow, Outcome.bind_ok]
      split
      · rfl
      rename_i hlen
      have : each (cameraError ⟨f', frameErrors sc r g f', (frameErrors sc r g f').map (·.1)⟩)
          ((frameErrors sc r g f').map (·.1)) = .throw := by
        have hcams : ∀ c ∈ (frameErrors sc r g f').map (·.1), ∃ o ∈ sc.oo, o.frame = f' ∧ o.cam = c := by
          intro c hc
          rw [frameErrors_eq h hg, List.map_map] at hc
          obtain ⟨o, ho, rfl⟩ := List.mem_map.1 hc
          have ho := List.mem_filter.1 ho
          exact ⟨o, ho.1, by simpa using ho.2, rfl⟩
        apply each_throw
        · intro c hc
          obtain ⟨o, ho, hof, rfl⟩ := hcams c hc
          rw [camera_ok h hg f' o ho hof]
          split
          · exact Or.inr ⟨_, rfl⟩
          · exact Or.inl rfl
        · rcases hb with ⟨o, ho, hof, hc⟩ | hno
          · refine ⟨o.cam, ?_, ?_⟩
            · rw [frameErrors_eq h hg, List.map_map]
              exact List.mem_map.2 ⟨o, List.mem_filter.2 ⟨ho, by simp [hof]⟩, rfl⟩
            · rw [camera_ok h hg f' o ho hof, if_neg (by omega)]
          · exfalso
            apply hlen
            rw [List.length_eq_zero_iff, List.eq_nil_iff_forall_not_mem]
            intro c hc
            obtain ⟨o, ho, hof, _⟩ := hcams c hc
            exact hno o ho hof
      rw [this]
      rfl

/-! ### The hypotheses are met -/

section demo
open Rigid

/-- One group of one camera, which sees object 0 in frame 3, off by (3, 4), and object 1 exactly: in the same frame
if `b`, in frame 5 otherwise. -/
noncomputable def one (b : Bool) : Output.Scene (Pose ℝ) (Pose ℝ) (Vec3 ℝ) where
  objs := [(0, { id := 0, refBoard := 0, nbBoards := 1, boards := [(0, ())], nbPts := 1, poses := [(0, 1)]
                 b2o := [((0, 0), 0)], o2b := [(0, 0)], pts := [![1, 2, 1]] }),
           (1, { id := 1, refBoard := 1, nbBoards := 1, boards := [(1, ())], nbPts := 1, poses := [(1, 1)]
                 b2o := [((1, 0), 0)], o2b := [(1, 0)], pts := [![1, 2, 1]] })]
  oo := [{ obj := 0, cam := 0, frame := 3, pts := [(4, 6)], ids := [0] },
         { obj := 1, cam := 0, frame := if b then 3 else 5, pts := [(1, 2)], ids := [0] }]
  t := { groups := [(0, { id := 0, refCam := 0, cameras := [(0, ())], camIdx := [0], poses := [(0, 1)]
                          objObs := [0, 1], frames := if b then [(3, ())] else [(3, ()), (5, ())] })]
         groupObs := if b then [((0, 3), [0, 1])] else [((0, 3), [0]), ((0, 5), [1])]
         frameGroups := if b then [(3, [0])] else [(3, [0]), (5, [0])] }
  op := if b then [((0, 3), [(0, 1), (1, 1)])] else [((0, 3), [(0, 1)]), ((0, 5), [(1, 1)])]
  ofVec := id
  model := fun _ => 0
  projBrown := fun _ g ps => if ps = [] then .throw else .ok (ps.map fun p => ((g • p) 0 / (g • p) 2, (g • p) 1 / (g • p) 2))
  projKannala := fun _ g ps => if ps = [] then .throw else .ok (ps.map fun p => ((g • p) 0 / (g • p) 2, (g • p) 1 / (g • p) 2))

noncomputable def oneReading : Reading (Pose ℝ) (Vec3 ℝ) where
  group := fun _ => 0
  camPose := fun _ => 1
  objPose := fun _ _ _ => 1
  pt := fun _ _ => ![1, 2, 1]
  pix := fun _ p => (p 0 / p 2, p 1 / p 2)

private theorem one_group {b : Bool} {i : Nat} {g : CamGroup (Pose ℝ)} (h : OMap.get? (one b).t.groups i = some g) :
    i = 0 ∧ g = { id := 0, refCam := 0, cameras := [(0, ())], camIdx := [0], poses := [(0, 1)]
                  objObs := [0, 1], frames := if b then [(3, ())] else [(3, ()), (5, ())] } := by
  simp only [one, OMap.get?] at h
  split at h
  · rename_i h0
    simp only [Option.some.injEq] at h
    exact ⟨by simpa using h0, h.symm⟩
  · cases h

theorem one_holds (b : Bool) : Holds (one b) [3, 5] oneReading := by
  have hC : Spec.Groups.Collection (one b).t.groups := by
    constructor
    · simp [one, OMap.Sorted]
    all_goals
      intro i
      first
      | (intro j g g' hg hg'
         obtain ⟨rfl, rfl⟩ := one_group hg
         obtain ⟨rfl, rfl⟩ := one_group hg'
         simp [OMap.keys])
      | (intro g hg
         obtain ⟨rfl, rfl⟩ := one_group hg
         simp [OMap.keys, OMap.Sorted, OMap.get?])
  have hO : ∀ o ∈ (one b).oo, o = { obj := 0, cam := 0, frame := 3, pts := [(4, 6)], ids := [0] } ∨
      o = { obj := 1, cam := 0, frame := if b then 3 else 5, pts := [(1, 2)], ids := [0] } := by
    intro o ho; simpa [one] using ho
  refine ⟨hC, ⟨?_, ?_⟩, ⟨?_, ?_, ?_⟩, ?_, ?_, ?_, ?_, ?_, ?_, ?_, ?_, ?_, ?_, ?_⟩
  · cases b <;> simp [one, OMap.Sorted, Key.lt]
  · intro i f is
    constructor
    · intro h
      cases b
      · simp only [one, OMap.get?, Bool.false_eq_true, if_false] at h
        split at h
        · rename_i h0
          simp only [Option.some.injEq] at h
          simp only [Prod.mk.injEq] at h0
          obtain ⟨rfl, rfl⟩ := h0
          subst h
          exact ⟨_, rfl, by simp, by simp, by simp [one, Spec.Store.positions, OMap.keys, List.range_succ]⟩
        · split at h
          · rename_i h0
            simp only [Option.some.injEq] at h
            simp only [Prod.mk.injEq] at h0
            obtain ⟨rfl, rfl⟩ := h0
            subst h
            exact ⟨_, rfl, by simp, by simp, by simp [one, Spec.Store.positions, OMap.keys, List.range_succ]⟩
          · cases h
      · simp only [one, OMap.get?, if_true] at h
        split at h
        · rename_i h0
          simp only [Option.some.injEq] at h
          simp only [Prod.mk.injEq] at h0
          obtain ⟨rfl, rfl⟩ := h0
          subst h
          exact ⟨_, rfl, by simp, by simp, by simp [one, Spec.Store.positions, OMap.keys, List.range_succ]⟩
        · cases h
    · rintro ⟨g, hg, hf, hne, rfl⟩
      simp only [List.mem_cons, List.not_mem_nil, or_false] at hf
      obtain ⟨rfl, rfl⟩ := one_group hg
      cases b <;> rcases hf with rfl | rfl
      · simp [one, Spec.Store.positions, OMap.keys, List.range_succ, OMap.get?]
      · simp [one, Spec.Store.positions, OMap.keys, List.range_succ, OMap.get?]
      · simp [one, Spec.Store.positions, OMap.keys, List.range_succ, OMap.get?]
      · exact absurd (by simp [one, Spec.Store.positions, OMap.keys, List.range_succ]) hne
  · intro i g hg
    obtain ⟨rfl, rfl⟩ := one_group hg
    cases b <;> simp [OMap.Sorted, Key.lt]
  · intro i g f is hg h
    obtain ⟨rfl, rfl⟩ := one_group hg
    cases b
    · simp only [one, OMap.get?, Bool.false_eq_true, if_false] at h
      split at h
      · rename_i h0; simp at h0; subst h0; simp [OMap.keys]
      · split at h
        · rename_i h0; simp at h0; subst h0; simp [OMap.keys]
        · cases h
    · simp only [one, OMap.get?, if_true] at h
      split at h
      · rename_i h0; simp at h0; subst h0; simp [OMap.keys]
      · cases h
  · intro i g f is hg h
    obtain ⟨rfl, rfl⟩ := one_group hg
    simp
  · intro f
    by_cases h3 : f = 3
    · subst h3; cases b <;> simp [one, OMap.get?, OMap.keys]
    · by_cases h5 : f = 5
      · subst h5; cases b <;> simp [one, OMap.get?, OMap.keys]
      · cases b <;> simp [one, OMap.get?, OMap.keys, h3, h5]
  · intro o ho; rcases hO o ho with rfl | rfl <;> cases b <;> simp
  · intro o ho
    rcases hO o ho with rfl | rfl
    · exact ⟨_, rfl, by simp [OMap.keys]⟩
    · exact ⟨_, rfl, by simp [OMap.keys]⟩
  · intro i g c hg hc
    obtain ⟨rfl, rfl⟩ := one_group hg
    simp [OMap.keys] at hc
    subst hc
    simp [OMap.get?, oneReading]
  · intro o ho
    cases b <;> rcases hO o ho with rfl | rfl
    · exact ⟨_, _, rfl, rfl, rfl⟩
    · exact ⟨_, _, rfl, rfl, rfl⟩
    · exact ⟨_, _, rfl, rfl, rfl⟩
    · exact ⟨_, _, rfl, rfl, rfl⟩
  · intro o ho
    rcases hO o ho with rfl | rfl
    · exact ⟨_, rfl, by simp [oneReading]⟩
    · exact ⟨_, rfl, by simp [oneReading]⟩
  · intro o ho; rcases hO o ho with rfl | rfl <;> simp
  · intro o ho; rcases hO o ho with rfl | rfl <;> simp
  · intro o ho; rcases hO o ho with rfl | rfl <;> simp [one]
  · intro c g ps hps; simp [one, hps, oneReading]
  · intro c g ps hps; simp [one, hps, oneReading]

private theorem five : errors oneReading { obj := 0, cam := 0, frame := 3, pts := [(4, 6)], ids := [0] } = [5] := by
  have h5 : Real.sqrt (3 ^ 2 + 4 ^ 2) = 5 := by
    rw [show (3 : ℝ) ^ 2 + 4 ^ 2 = 5 ^ 2 by norm_num]
    exact Real.sqrt_sq (by norm_num)
  have hz : (![1, 2, 1] : Vec3 ℝ) 2 = 1 := rfl
  simp only [oneReading, errors, List.map_cons, List.map_nil, List.zip_cons_cons, List.zip_nil_right, one_smul, hz]
  norm_num
  rw [show (25 : ℝ) = 3 ^ 2 + 4 ^ 2 by norm_num, h5]

private theorem none' (f : Nat) :
    errors oneReading { obj := 1, cam := 0, frame := f, pts := [(1, 2)], ids := [0] } = [0] := by
  have hz : (![1, 2, 1] : Vec3 ℝ) 2 = 1 := rfl
  simp only [oneReading, errors, List.map_cons, List.map_nil, List.zip_cons_cons, List.zip_nil_right, one_smul, hz]
  norm_num

/-- Two frames with one observation each: the bars are the errors. -/
theorem C72_example : ∃ file, saveReprojectionError (one false) = .ok file ∧ errorStatistic file = .ok [5, 0] := by
  obtain ⟨file, h1, h2⟩ := C72_once (one_holds false) rfl (by simp [OMap.keys])
    (by simp [OMap.keys, one]) (by simp [one]) (by simp [one])
  refine ⟨file, h1, h2.trans ?_⟩
  simp [one, OMap.keys, five, none', Spec.Report.mean]

/-- C72, failure: two objects in one image, with errors 5 and 0; the script shows 5, the error of the first object
counted twice, and never reads that of the second, whereas the reported average is 5/2. -/
theorem C72_repeated : ∃ file, saveReprojectionError (one true) = .ok file ∧ errorStatistic file = .ok [5] ∧
    computeAvgReprojectionError (one true) = .ok (some (5 / 2)) := by
  obtain ⟨file, h1, h2⟩ := C72_bars (one_holds true) rfl (by simp [OMap.keys])
    (by simp [OMap.keys, one]) (by simp [one])
  refine ⟨file, h1, h2.trans ?_, ?_⟩
  · simp [one, OMap.keys, firstErrors, five, Spec.Report.mean]
  · rw [Report.C41_value (one_holds true), if_neg (by simp [one])]
    simp [one, five, none', Spec.Report.mean]

end demo

end Verif.Props.ScriptsStat
