import Verif.Model.InitCamera
import Verif.Props.Store
import Verif.Props.Report
import Verif.Props.Camera
import Mathlib.Data.List.Perm.Subperm
import Mathlib.Tactic.Linarith
import Mathlib.Algebra.Order.Ring.Rat

/-! C45: the border tolerance of fisheye cameras; C46: the boards chosen for the initialisation. -/
namespace Verif.Props.InitCamera
open Verif Verif.InitCamera Verif.Store Verif.Spec.Store

variable {K Pt Path : Type} [Field K] [LinearOrder K]

/-- A point at least (strictly more than) a twentieth of the image size away from all four sides. -/
def Inside (cols rows : K) (p : K × K) : Prop :=
  cols * (5 / 100) < p.1 ∧ p.1 < cols - cols * (5 / 100) ∧ rows * (5 / 100) < p.2 ∧ p.2 < rows - rows * (5 / 100)

theorem nearBorder_false (cols rows : K) (p : K × K) :
    nearBorder margin cols rows p = false ↔ Inside cols rows p := by
  unfold nearBorder margin Inside
  rw [Bool.or_eq_false_iff, Bool.or_eq_false_iff, Bool.or_eq_false_iff, decide_eq_false_iff_not,
    decide_eq_false_iff_not, decide_eq_false_iff_not, decide_eq_false_iff_not, ge_iff_le, not_le, not_le, not_le,
    not_le]
  tauto

/-- C45: a board passes the test iff all its points are inside. -/
theorem C45_border (cols rows : K) (pts : List (K × K)) :
    checkBorder margin cols rows pts = true ↔ ∀ p ∈ pts, Inside cols rows p := by
  induction pts with
  | nil => simp [checkBorder]
  | cons p ps ih =>
    unfold checkBorder
    by_cases h : nearBorder margin cols rows p = true
    · rw [if_pos h]
      simp only [Bool.false_eq_true, List.mem_cons, forall_eq_or_imp, false_iff, not_and]
      intro hin
      rw [← nearBorder_false, h] at hin
      cases hin
    · rw [if_neg h, ih]
      simp only [Bool.not_eq_true] at h
      simp [(nearBorder_false cols rows p).1 h]

/-- The points of the board model for the corners of an observation, in order. -/
def modelPoints (bpts : List (List Pt)) (o : BoardObs (K × K)) : List Pt :=
  o.ids.filterMap fun k => ((bpts[o.board]?).getD [])[k]?

/-- The corners of the observation exist on its board. -/
def Known (bpts : List (List Pt)) (o : BoardObs (K × K)) : Prop :=
  ∃ ps, bpts[o.board]? = some ps ∧ ∀ k ∈ o.ids, k < ps.length

/-- An observation is used: always for a perspective camera, away from the border for a fisheye. -/
def Used (model : Int) (cols rows : K) (o : BoardObs (K × K)) : Prop :=
  model = 1 → ∀ p ∈ o.pts, Inside cols rows p

theorem points_eq {ps : List Pt} {ids : List Nat} (h : ∀ k ∈ ids, k < ps.length) (acc : List Pt) :
    Outcome.foldlM (pointStep ps) acc ids = .ok (acc ++ ids.filterMap fun k => ps[k]?) := by
  induction ids generalizing acc with
  | nil => simp
  | cons k ids ih =>
    have hk := h k (by simp)
    have hs : pointStep ps acc k = .ok (acc ++ [ps[k]]) := by
      unfold pointStep
      rw [Outcome.idx_of_getElem? (List.getElem?_eq_getElem hk)]
      rfl
    rw [Outcome.foldlM_cons, hs, Outcome.bind_ok, ih fun j hj => h j (by simp [hj])]
    simp [hk]

theorem step_eq (bpts : List (List Pt)) (obs : List (BoardObs (K × K))) (refs : List Nat) (model : Int)
    (cols rows : K) (shuffled : List Nat) (st : List (List Pt) × List (List (K × K))) (i : Nat)
    (o : BoardObs (K × K)) (j r : Nat) (hj : shuffled[i]? = some j) (hr : refs[j]? = some r)
    (ho : obs[r]? = some o) (hk : Known bpts o) [Decidable (Used model cols rows o)] :
    boardStep bpts obs refs model cols rows shuffled st i =
      .ok (if Used model cols rows o then (st.1 ++ [modelPoints bpts o], st.2 ++ [o.pts]) else st) := by
  unfold boardStep
  rw [Outcome.idx_of_getElem? hj, Outcome.bind_ok, Outcome.idx_of_getElem? hr, Outcome.bind_ok,
    Outcome.idx_of_getElem? ho, Outcome.bind_ok]
  have hu : (if model = 1 then checkBorder margin cols rows o.pts else true) = true ↔ Used model cols rows o := by
    unfold Used
    split
    · rename_i h1
      rw [C45_border]
      simp [h1]
    · rename_i h1
      simp [h1]
  by_cases h : Used model cols rows o
  · rw [if_pos (hu.2 h), if_pos h]
    obtain ⟨ps, h1, h2⟩ := hk
    rw [Outcome.idx_of_getElem? h1, Outcome.bind_ok, points_eq h2, Outcome.bind_ok]
    simp [modelPoints, h1]
  · rw [if_neg (fun e => h (hu.1 e)), if_neg h]
    rfl

/-- The limit on the number of boards. -/
def limit (model : Int) : Nat := if model = 1 then 500 else 50

theorem boardsUsed_eq (model : Int) (n : Nat) : boardsUsed model n = min n (limit model) := by
  unfold boardsUsed limit
  by_cases h : model = 1 <;> simp only [h, if_true, if_false] <;> split <;> omega

/-- The observations of a camera among the detections `l`, in the order of detection. -/
def seenBy (c : Nat) (l : List (Insertion (K × K) Path)) : List (BoardObs (K × K)) :=
  (l.map (·.obs)).filter fun o => o.cam == c

omit [Field K] [LinearOrder K] in
theorem seen_positions (c : Nat) (l : List (Insertion (K × K) Path)) :
    (positions (byCam c) l).map (fun i => (l.map (·.obs))[i]?) = (seenBy c l).map some := by
  have h := Props.Report.positions_map (byCam c) l
  have h2 := congrArg (List.map (Option.map fun a : Insertion (K × K) Path => a.obs)) h
  rw [List.map_map, List.map_map] at h2
  have e1 : ((Option.map fun a : Insertion (K × K) Path => a.obs) ∘ fun i : Nat => l[i]?) =
      fun i => (l.map (·.obs))[i]? := by
    funext i
    simp
  rw [e1] at h2
  rw [h2]
  unfold seenBy
  rw [List.filter_map, List.map_map]
  rfl

open Classical in
/-- C46: for every shuffle the chosen boards are distinct observations of the camera (as many as the
camera has, at most 50 or 500), and OpenCV is given the image points and model points of those of them
that are used, in corresponding order. -/
theorem C46_chosen (nCam nBoard : Nat) (l : List (Insertion (K × K) Path))
    (hl : ∀ a ∈ l, a.obs.cam < nCam ∧ a.obs.board < nBoard) (s : Store (K × K) Path)
    (hs : run nCam nBoard l = .ok s) (c : Nat) (r : CamRec) (hr : s.cams[c]? = some r)
    (bpts : List (List Pt)) (hk : ∀ a ∈ l, a.obs.cam = c → Known bpts a.obs) (model : Int) (cols rows : K)
    (shuffled : List Nat) (hsh : shuffled.Perm (List.range (seenBy c l).length)) :
    ∃ chosen : List (BoardObs (K × K)), chosen.Subperm (seenBy c l) ∧
      chosen.length = min (seenBy c l).length (limit model) ∧
      correspondences bpts s.obs r.boards model cols rows shuffled =
        .ok ((chosen.filter fun o => Used model cols rows o).map (modelPoints bpts),
          (chosen.filter fun o => Used model cols rows o).map (·.pts)) := by
  obtain ⟨s', h1, hd⟩ := Props.Store.C06_indexes nCam nBoard l hl
  rw [hs, Outcome.ok.injEq] at h1
  subst h1
  have hb := (hd.cam c r hr).1
  have hseen := seen_positions c l
  rw [← hb, ← hd.obs] at hseen
  have hlen : r.boards.length = (seenBy c l).length := by
    simpa using congrArg List.length hseen
  -- the observation at each position
  have hat : ∀ j, j < (seenBy c l).length → ∃ q o, r.boards[j]? = some q ∧ s.obs[q]? = some o ∧
      (seenBy c l)[j]? = some o := by
    intro j hj
    have hj' : j < r.boards.length := by omega
    have := congrArg (fun L : List (Option (BoardObs (K × K))) => L[j]?) hseen
    simp only [List.getElem?_map, List.getElem?_eq_getElem hj', Option.map_some, List.getElem?_eq_getElem hj,
      Option.some.injEq] at this
    exact ⟨r.boards[j], (seenBy c l)[j], List.getElem?_eq_getElem hj', this, List.getElem?_eq_getElem hj⟩
  let f : Nat → List (BoardObs (K × K)) := fun j => ((seenBy c l)[j]?).toList
  have hmapf : (List.range (seenBy c l).length).flatMap f = seenBy c l := by
    have : ∀ n ≤ (seenBy c l).length, (List.range n).flatMap f = (seenBy c l).take n := by
      intro n
      induction n with
      | zero => intro _; rfl
      | succ n ih =>
        intro hn
        rw [List.range_succ, List.flatMap_append, ih (by omega), List.take_add_one]
        simp [f]
    rw [this _ (le_refl _), List.take_length]
  have hf1 : ∀ L : List Nat, (∀ j ∈ L, j < (seenBy c l).length) → (L.flatMap f).length = L.length := by
    intro L
    induction L with
    | nil => intro _; rfl
    | cons j L ih =>
      intro h
      rw [List.flatMap_cons, List.length_append, ih fun k hk => h k (by simp [hk]), List.length_cons]
      simp only [f, List.getElem?_eq_getElem (h j (by simp)), Option.toList_some, List.length_singleton]
      omega
  have hshl : shuffled.length = (seenBy c l).length := by simpa using hsh.length_eq
  have hshm : ∀ j ∈ shuffled, j < (seenBy c l).length := fun j hj => by simpa using hsh.mem_iff.1 hj
  refine ⟨(shuffled.take (min (seenBy c l).length (limit model))).flatMap f, ?_, ?_, ?_⟩
  · have h1 : ((shuffled.take (min (seenBy c l).length (limit model))).flatMap f).Sublist (shuffled.flatMap f) := by
      conv_rhs => rw [← List.take_append_drop (min (seenBy c l).length (limit model)) shuffled]
      rw [List.flatMap_append]
      exact List.sublist_append_left _ _
    have h2 : (shuffled.flatMap f).Perm (seenBy c l) := by
      rw [← hmapf]
      exact hsh.flatMap_right f
    exact h1.subperm.trans h2.subperm
  · rw [hf1 _ fun j hj => hshm j (List.mem_of_mem_take hj), List.length_take, hshl]
    omega
  · unfold correspondences
    rw [boardsUsed_eq, hlen]
    have : ∀ n ≤ (seenBy c l).length,
        Outcome.foldlM (boardStep bpts s.obs r.boards model cols rows shuffled) ([], []) (List.range n) =
          .ok ((((shuffled.take n).flatMap f).filter fun o => Used model cols rows o).map (modelPoints bpts),
            (((shuffled.take n).flatMap f).filter fun o => Used model cols rows o).map (·.pts)) := by
      intro n
      induction n with
      | zero => intro _; rfl
      | succ n ih =>
        intro hn
        have hn' : n < shuffled.length := by omega
        rw [List.range_succ, Outcome.foldlM_append, ih (by omega), Outcome.bind_ok, Outcome.foldlM_cons]
        have hj : shuffled[n]? = some shuffled[n] := List.getElem?_eq_getElem hn'
        obtain ⟨q, o, hq, ho, hso⟩ := hat shuffled[n] (hshm _ (List.getElem_mem hn'))
        have hmem := List.mem_of_getElem? hso
        have hknown : Known bpts o := by
          unfold seenBy at hmem
          obtain ⟨hm1, hm2⟩ := List.mem_filter.1 hmem
          obtain ⟨a, ha, rfl⟩ := List.mem_map.1 hm1
          exact hk a ha (by simpa using hm2)
        rw [step_eq bpts s.obs r.boards model cols rows shuffled _ n o _ q hj hq ho hknown, Outcome.bind_ok,
          Outcome.foldlM_nil, List.take_add_one, hj]
        simp only [Option.toList_some, List.flatMap_append, List.flatMap_cons, List.flatMap_nil, List.append_nil,
          List.filter_append, List.map_append]
        have hfo : f shuffled[n] = [o] := by simp [f, hso]
        rw [hfo]
        by_cases hu : Used model cols rows o
        · rw [if_pos hu]
          simp [hu]
        · rw [if_neg hu]
          simp [hu]
    exact this _ (by omega)

open Classical in
/-- C46: a camera with fewer observations than the limit uses all of them, whatever the shuffle. -/
theorem C46_all (nCam nBoard : Nat) (l : List (Insertion (K × K) Path))
    (hl : ∀ a ∈ l, a.obs.cam < nCam ∧ a.obs.board < nBoard) (s : Store (K × K) Path)
    (hs : run nCam nBoard l = .ok s) (c : Nat) (r : CamRec) (hr : s.cams[c]? = some r)
    (bpts : List (List Pt)) (hk : ∀ a ∈ l, a.obs.cam = c → Known bpts a.obs) (model : Int) (cols rows : K)
    (shuffled : List Nat) (hsh : shuffled.Perm (List.range (seenBy c l).length))
    (hfew : (seenBy c l).length ≤ limit model) :
    ∃ chosen : List (BoardObs (K × K)), chosen.Perm (seenBy c l) ∧
      correspondences bpts s.obs r.boards model cols rows shuffled =
        .ok ((chosen.filter fun o => Used model cols rows o).map (modelPoints bpts),
          (chosen.filter fun o => Used model cols rows o).map (·.pts)) := by
  obtain ⟨chosen, h1, h2, h3⟩ := C46_chosen nCam nBoard l hl s hs c r hr bpts hk model cols rows shuffled hsh
  refine ⟨chosen, ?_, h3⟩
  exact h1.perm_of_length_le (by omega)

/-- Contract of OpenCV: both calibration functions throw when given no view. -/
def RejectsEmpty (lib : Lib K Pt) : Prop :=
  (∀ w h, lib.brown [] [] w h = .throw) ∧ ∀ w h, lib.fisheye [] [] w h = .throw

/-- C46: a camera none of whose observations is usable (it saw no board, or it is a fisheye and every
board has a corner near the border) cannot be initialised: the calibration throws. -/
theorem C46_no_view (lib : Lib K Pt) (hlib : RejectsEmpty lib) (nCam nBoard : Nat)
    (l : List (Insertion (K × K) Path))
    (hl : ∀ a ∈ l, a.obs.cam < nCam ∧ a.obs.board < nBoard) (s : Store (K × K) Path)
    (hs : run nCam nBoard l = .ok s) (c : Nat) (r : CamRec) (hr : s.cams[c]? = some r)
    (bpts : List (List Pt)) (hk : ∀ a ∈ l, a.obs.cam = c → Known bpts a.obs) (model : Int)
    (hm : model = 0 ∨ model = 1) (cols rows : K) (I : Camera.Intr K)
    (shuffled : List Nat) (hsh : shuffled.Perm (List.range (seenBy c l).length))
    (hnone : ∀ a ∈ l, a.obs.cam = c → ¬ Used model cols rows a.obs) :
    initializeCalibration lib bpts s.obs r.boards model cols rows I shuffled = .throw := by
  classical
  obtain ⟨chosen, h1, h2, h3⟩ := C46_chosen nCam nBoard l hl s hs c r hr bpts hk model cols rows shuffled hsh
  have hnil : (chosen.filter fun o => Used model cols rows o) = [] := by
    rw [List.filter_eq_nil_iff]
    intro o ho
    have := h1.subset ho
    unfold seenBy at this
    obtain ⟨hm1, hm2⟩ := List.mem_filter.1 this
    obtain ⟨a, ha, rfl⟩ := List.mem_map.1 hm1
    simpa using hnone a ha (by simpa using hm2)
  rw [hnil] at h3
  unfold initializeCalibration
  rw [h3]
  rcases hm with rfl | rfl
  · simp [hlib.1]
  · simp [hlib.2]

/-- C46: if OpenCV answers with a matrix and enough coefficients, the camera holds them afterwards. -/
theorem C46_stored (lib : Lib K Pt) (nCam nBoard : Nat) (l : List (Insertion (K × K) Path))
    (hl : ∀ a ∈ l, a.obs.cam < nCam ∧ a.obs.board < nBoard) (s : Store (K × K) Path)
    (hs : run nCam nBoard l = .ok s) (c : Nat) (r : CamRec) (hr : s.cams[c]? = some r)
    (bpts : List (List Pt)) (hk : ∀ a ∈ l, a.obs.cam = c → Known bpts a.obs) (cols rows : K)
    (I : Camera.Intr K) (shuffled : List Nat) (hsh : shuffled.Perm (List.range (seenBy c l).length))
    (fx fy cx cy : K) (d : List K) (hd : d.length = 5)
    (hans : ∀ obj img, obj ≠ [] → lib.brown obj img cols rows = .ok (Props.Camera.pinhole fx fy cx cy, d))
    (hsome : ∃ a ∈ l, a.obs.cam = c) :
    ∃ I', initializeCalibration lib bpts s.obs r.boards 0 cols rows I shuffled = .ok I' ∧
      Camera.getIntrinsics 0 I' = (Props.Camera.pinhole fx fy cx cy, d) := by
  classical
  obtain ⟨chosen, h1, h2, h3⟩ := C46_chosen nCam nBoard l hl s hs c r hr bpts hk 0 cols rows shuffled hsh
  have hne : (chosen.filter fun o => Used 0 cols rows o).map (modelPoints bpts) ≠ [] := by
    have hall : (chosen.filter fun o => Used 0 cols rows o) = chosen := by
      rw [List.filter_eq_self]
      intro o _
      simp [Used]
    rw [hall]
    intro he
    have hz : chosen.length = 0 := by simpa using congrArg List.length he
    obtain ⟨a, ha, hac⟩ := hsome
    have : 0 < (seenBy c l).length := List.length_pos_of_mem (a := a.obs)
      (by unfold seenBy; exact List.mem_filter.2 ⟨List.mem_map_of_mem ha, by simpa using hac⟩)
    have hlim : limit 0 = 50 := rfl
    omega
  unfold initializeCalibration
  rw [h3]
  simp only [Outcome.bind_ok, if_true]
  rw [hans _ _ hne, Outcome.bind_ok]
  obtain ⟨I', hI1, hI2⟩ := Props.Camera.C37_intrinsics (K := K) 0 5 rfl I fx fy cx cy d hd
  exact ⟨I', hI1, hI2⟩

/-- C46: with an unsupported distortion model the matrix that was never computed is read. -/
theorem C46_unsupported (lib : Lib K Pt) (nCam nBoard : Nat) (l : List (Insertion (K × K) Path))
    (hl : ∀ a ∈ l, a.obs.cam < nCam ∧ a.obs.board < nBoard) (s : Store (K × K) Path)
    (hs : run nCam nBoard l = .ok s) (c : Nat) (r : CamRec) (hr : s.cams[c]? = some r)
    (bpts : List (List Pt)) (hk : ∀ a ∈ l, a.obs.cam = c → Known bpts a.obs) (model : Int)
    (hm : model ≠ 0 ∧ model ≠ 1) (cols rows : K) (I : Camera.Intr K)
    (shuffled : List Nat) (hsh : shuffled.Perm (List.range (seenBy c l).length)) :
    initializeCalibration lib bpts s.obs r.boards model cols rows I shuffled = .ub := by
  classical
  obtain ⟨chosen, h1, h2, h3⟩ := C46_chosen nCam nBoard l hl s hs c r hr bpts hk model cols rows shuffled hsh
  unfold initializeCalibration
  rw [h3]
  simp [hm.1, hm.2]

/-- C46: the loop over the cameras: if it ends, every camera has been given the result of its own
initialisation (its model, image size, observations and previous parameters). -/
theorem C46_each (lib : Lib K Pt) (bpts : List (List Pt)) (s : Store (K × K) Path) (cams : List (Cam K))
    (shuffles : Nat → List Nat) (Is : List (Camera.Intr K))
    (h : initializeAll lib bpts s cams shuffles = .ok Is) :
    Is.length = cams.length ∧ ∀ (c : Nat) (cam : Cam K), cams[c]? = some cam → ∃ r I, s.cams[c]? = some r ∧
      Is[c]? = some I ∧
      initializeCalibration lib bpts s.obs r.boards cam.model cam.cols cam.rows cam.intr (shuffles c) = .ok I := by
  have key : ∀ n ≤ cams.length, ∀ Is, Outcome.foldlM (cameraStep lib bpts s cams shuffles) [] (List.range n) = .ok Is →
      Is.length = n ∧ ∀ (c : Nat) (cam : Cam K), c < n → cams[c]? = some cam → ∃ r I, s.cams[c]? = some r ∧
        Is[c]? = some I ∧
        initializeCalibration lib bpts s.obs r.boards cam.model cam.cols cam.rows cam.intr (shuffles c) = .ok I := by
    intro n
    induction n with
    | zero =>
      intro _ Is h
      cases h
      exact ⟨rfl, fun c _ hc => by omega⟩
    | succ n ih =>
      intro hn Is h
      rw [List.range_succ, Outcome.foldlM_append, Outcome.bind_eq_ok] at h
      obtain ⟨Js, h1, h2⟩ := h
      obtain ⟨hl, hi⟩ := ih (by omega) Js h1
      rw [Outcome.foldlM_cons, Outcome.bind_eq_ok] at h2
      obtain ⟨Ks, h2, h3⟩ := h2
      cases h3
      unfold cameraStep at h2
      obtain ⟨cam, hc, h2⟩ := Outcome.bind_eq_ok.1 h2
      obtain ⟨r, hr, h2⟩ := Outcome.bind_eq_ok.1 h2
      obtain ⟨I, hI, h2⟩ := Outcome.bind_eq_ok.1 h2
      cases h2
      rw [Outcome.idx_ok_iff] at hc hr
      refine ⟨by simp [hl], fun c cam' hcn hcam => ?_⟩
      rcases Nat.lt_succ_iff_lt_or_eq.1 hcn with hlt | rfl
      · obtain ⟨r', I', a, b, d⟩ := hi c cam' hlt hcam
        exact ⟨r', I', a, by rw [List.getElem?_append_left (by omega)]; exact b, d⟩
      · rw [hc] at hcam
        cases hcam
        refine ⟨r, I, hr, ?_, hI⟩
        rw [← hl, List.getElem?_concat_length]
  obtain ⟨h1, h2⟩ := key _ (le_refl _) Is h
  exact ⟨h1, fun c cam hc => h2 c cam (by
    rcases Nat.lt_or_ge c cams.length with hlt | hge
    · exact hlt
    · rw [List.getElem?_eq_none hge] at hc; cases hc) hc⟩

/-! ### Examples -/

/-- Two views of a board with two corners by camera 0 (the second near the border), one by camera 1. -/
def demo : List (Insertion (Rat × Rat) Nat) :=
  [⟨⟨0, 0, 0, [(50, 50), (60, 50)], [0, 1]⟩, 0⟩, ⟨⟨1, 0, 0, [(1, 1)], [1]⟩, 0⟩,
   ⟨⟨0, 1, 0, [(50, 50), (97, 50)], [1, 0]⟩, 1⟩]

/-- The store of the example. -/
def demoStore : Store (Rat × Rat) Nat := match run 2 1 demo with
  | .ok s => s
  | _ => Store.init 0 0

theorem C46_example : run 2 1 demo = .ok demoStore ∧
    correspondences [[10, 20]] demoStore.obs [0, 2] 0 100 100 [1, 0] =
      .ok ([[20, 10], [10, 20]], [[((50 : Rat), (50 : Rat)), (97, 50)], [(50, 50), (60, 50)]]) ∧
    correspondences [[10, 20]] demoStore.obs [0, 2] 1 100 100 [1, 0] =
      .ok ([[10, 20]], [[((50 : Rat), (50 : Rat)), (60, 50)]]) := by
  decide +kernel

theorem C45_example : checkBorder (margin : Rat) 100 100 [(50, 50), (95, 50)] = false ∧
    checkBorder (margin : Rat) 100 100 [(50, 50), (94, 6)] = true := by decide +kernel

/-- The contract can be met. -/
example : RejectsEmpty (K := Rat) (Pt := Nat)
    ⟨fun o _ _ _ => if o = [] then .throw else .ok (Props.Camera.pinhole 1 1 0 0, [0, 0, 0, 0, 0]),
     fun o _ _ _ => if o = [] then .throw else .ok (Props.Camera.pinhole 1 1 0 0, [0, 0, 0, 0])⟩ :=
  ⟨fun _ _ => rfl, fun _ _ => rfl⟩

end Verif.Props.InitCamera
