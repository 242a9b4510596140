import Verif.Props.Ransac
import Verif.Props.Objects

/-!
C30: outlier removal by the pose estimation of board observations.  C55: what happens to observations
with too few points left.
-/
namespace Verif.Props.Outliers
open Verif Verif.Ransac Verif.Objects Verif.Spec.Objects Verif.Lemmas.Ransac

variable {P3 P2 Pose E : Type}

/-- The elements of a list at some positions. -/
def select {α : Type} (l : List α) (pos : List Nat) : List α := pos.filterMap fun i => l[i]?

/-- A search on matching lists of at least four points returns a subset of the point indexes, in order. -/
def Sound (search : Search P3 P2 Pose) : Prop :=
  ∀ k c scene image, scene.length = image.length → 4 ≤ image.length →
    ∃ inl pose, search k c scene image = .ok (inl, pose) ∧ inl.Sublist (List.range image.length)

/-- A search on fewer than four points reads out of range. -/
def Fails (search : Search P3 P2 Pose) : Prop :=
  ∀ k c scene image, image.length < 4 → search k c scene image = .ub

/-- The searches made by the program: libraries, shuffles, distortion model and undistortion per call and
camera. -/
def searches [LinearOrder E] (lib0 lib1 : Nat → Nat → Lib P3 P2 Pose E) (undist : Nat → P2 → P2) (model : Nat → Int)
    (it : Nat) (garbage : Nat → Pose) : Search P3 P2 Pose := fun k c scene image =>
  ransacP3PDistortion (lib0 k c) (lib1 k c) (undist c) (model c) scene image it (garbage k) (garbage k)

private theorem ransac_sublist [LinearOrder E] (lib : Lib P3 P2 Pose E) (hs : ∀ k l, (lib.shuffle k l).Perm l)
    (scene : List P3) (image : List P2) (hl : scene.length = image.length) (hn : 4 ≤ image.length) (it : Nat)
    (b : Bool) (init cur : Pose) :
    ∃ inl pose, ransacP3P lib scene image it b init cur = .ok (inl, pose) ∧
      inl.Sublist (List.range image.length) := by
  obtain ⟨n, _, inl, pose, h1, -, h3⟩ := Ransac.C29_search lib hs scene image hl hn it b init cur
  refine ⟨inl, pose, h1, ?_⟩
  rcases h3 with ⟨e, -⟩ | ⟨j, -, e, -⟩
  · rw [e]; exact List.nil_sublist _
  · rw [e]
    unfold inliers
    rw [List.length_zip, hl, Nat.min_self]
    exact List.filter_sublist

/-- C30: the searches of the program are sound, whatever the libraries and the shuffles. -/
theorem C30_sound [LinearOrder E] (lib0 lib1 : Nat → Nat → Lib P3 P2 Pose E)
    (h0 : ∀ k c n l, ((lib0 k c).shuffle n l).Perm l) (h1 : ∀ k c n l, ((lib1 k c).shuffle n l).Perm l)
    (undist : Nat → P2 → P2) (model : Nat → Int) (it : Nat) (garbage : Nat → Pose) :
    Sound (searches lib0 lib1 undist model it garbage) := by
  intro k c scene image hl hn
  unfold searches ransacP3PDistortion
  split_ifs
  · exact ransac_sublist _ (h0 k c) scene image hl hn it true _ _
  · have := ransac_sublist (lib1 k c) (h1 k c) scene (image.map (undist c)) (by simpa using hl) (by simpa using hn)
      it true (garbage k) (garbage k)
    simpa using this
  · exact ⟨[], _, rfl, List.nil_sublist _⟩

/-- C55: with a supported distortion model and at least one trial, the searches of the program fail on
fewer than four points. -/
theorem C55_fails [LinearOrder E] (lib0 lib1 : Nat → Nat → Lib P3 P2 Pose E)
    (h0 : ∀ k c n l, ((lib0 k c).shuffle n l).Perm l) (h1 : ∀ k c n l, ((lib1 k c).shuffle n l).Perm l)
    (undist : Nat → P2 → P2) (model : Nat → Int) (hm : ∀ c, model c = 0 ∨ model c = 1) (it : Nat) (hit : 0 < it)
    (garbage : Nat → Pose) : Fails (searches lib0 lib1 undist model it garbage) := by
  intro k c scene image hn
  unfold searches ransacP3PDistortion
  rcases hm c with h | h
  · rw [if_pos h]
    exact Ransac.C29_few_points _ (h0 k c) scene image hn it hit true _ _
  · rw [if_neg (by omega), if_pos h]
    exact Ransac.C29_few_points _ (h1 k c) scene _ (by simpa using hn) it hit true _ _

theorem scenePoints_ok (model3d : List P3) : ∀ (ids : List Nat) (acc : List P3),
    (∀ i ∈ ids, i < model3d.length) →
    Outcome.foldlM (scenePoint model3d) acc ids = .ok (acc ++ select model3d ids)
  | [], acc, _ => by simp [select]
  | i :: ids, acc, h => by
    have hi : model3d[i]? = some (model3d[i]'(h i List.mem_cons_self)) := List.getElem?_eq_getElem _
    rw [Outcome.foldlM_cons, scenePoint, Outcome.idx_of_getElem? hi]
    simp only [Outcome.bind_ok, Outcome.pure_eq]
    rw [scenePoints_ok model3d ids _ (fun j hj => h j (List.mem_cons_of_mem _ hj))]
    simp [select, hi]

theorem select_length {α : Type} (l : List α) : ∀ (pos : List Nat), (∀ i ∈ pos, i < l.length) →
    (select l pos).length = pos.length
  | [], _ => rfl
  | i :: pos, h => by
    have hi : l[i]? = some (l[i]'(h i List.mem_cons_self)) := List.getElem?_eq_getElem _
    have := select_length l pos (fun j hj => h j (List.mem_cons_of_mem _ hj))
    simp only [select] at this ⊢
    simp [hi, this]

private theorem keepPoints_ok (v : View P2 Pose) (hal : v.pts.length = v.ids.length) :
    ∀ (inl : List Nat) (acc : List P2 × List Nat), (∀ i ∈ inl, i < v.pts.length) →
    Outcome.foldlM (keepPoint v) acc inl = .ok (acc.1 ++ select v.pts inl, acc.2 ++ select v.ids inl)
  | [], acc, _ => by simp [select]
  | i :: inl, acc, h => by
    have h1 : v.pts[i]? = some (v.pts[i]'(h i List.mem_cons_self)) := List.getElem?_eq_getElem _
    have h2 : v.ids[i]? = some (v.ids[i]'(hal ▸ h i List.mem_cons_self)) := List.getElem?_eq_getElem _
    rw [Outcome.foldlM_cons, keepPoint, Outcome.idx_of_getElem? h1, Outcome.bind_ok, Outcome.idx_of_getElem? h2]
    simp only [Outcome.bind_ok, Outcome.pure_eq]
    rw [keepPoints_ok v hal inl _ (fun j hj => h j (List.mem_cons_of_mem _ hj))]
    simp [select, h1, h2]

theorem select_range {α : Type} (l : List α) : select l (List.range l.length) = l := by
  unfold select
  apply List.ext_getElem?
  intro i
  have h : (List.range l.length).filterMap (fun i => l[i]?) = l := by
    have e : (List.range l.length).map (fun i => l[i]?) = l.map some := by
      apply List.ext_getElem (by simp)
      intro i h1 h2
      simp at h1 h2
      simp [h1]
    have : (List.range l.length).filterMap (fun i => l[i]?) = ((List.range l.length).map (fun i => l[i]?)).filterMap id := by
      rw [List.filterMap_map]; rfl
    rw [this, e, List.filterMap_map]
    simp
  rw [h]

/-- Selecting increasing positions gives a sub-list. -/
private theorem select_sublist {α : Type} (l : List α) (pos : List Nat) (h : pos.Sublist (List.range l.length)) :
    (select l pos).Sublist l := by
  have := h.filterMap (fun i => l[i]?)
  have e := select_range l
  unfold select at e ⊢
  rwa [e] at this

private theorem select_zip {α β : Type} (a : List α) (b : List β) (hl : a.length = b.length) :
    ∀ (pos : List Nat), (∀ i ∈ pos, i < a.length) → (select a pos).zip (select b pos) = select (a.zip b) pos
  | [], _ => rfl
  | i :: pos, h => by
    have h1 : a[i]? = some (a[i]'(h i List.mem_cons_self)) := List.getElem?_eq_getElem _
    have h2 : b[i]? = some (b[i]'(hl ▸ h i List.mem_cons_self)) := List.getElem?_eq_getElem _
    have h3 : (a.zip b)[i]? = some (a[i]'(h i List.mem_cons_self), b[i]'(hl ▸ h i List.mem_cons_self)) := by rw [List.getElem?_zip_eq_some]; exact ⟨h1, h2⟩
    have ih := select_zip a b hl pos (fun j hj => h j (List.mem_cons_of_mem _ hj))
    unfold select at ih ⊢
    rw [List.filterMap_cons_some h1, List.filterMap_cons_some h2, List.filterMap_cons_some h3, List.zip_cons_cons, ih]

/-- C30: what the pose estimation of a board observation does.  The search is given the board points of
the ids and the pixels; the kept pixels and ids are those at the inlier positions, so the kept pairs are a
sub-list of the previous pairs; the pose is the one of the search; the observation stays valid iff it was
and at least four points are kept. -/
theorem C30_board (search : List P3 → List P2 → Outcome (List Nat × Pose)) (model3d : List P3)
    (v : View P2 Pose) (hal : v.pts.length = v.ids.length) (hid : ∀ i ∈ v.ids, i < model3d.length)
    (inl : List Nat) (pose : Pose) (hr : search (select model3d v.ids) v.pts = .ok (inl, pose))
    (hin : inl.Sublist (List.range v.pts.length)) :
    ∃ v', estimateBoard search model3d v = .ok v' ∧
      v'.pts = select v.pts inl ∧ v'.ids = select v.ids inl ∧ v'.pts.length = inl.length ∧
      v'.pts.length = v'.ids.length ∧ (v'.pts.zip v'.ids).Sublist (v.pts.zip v.ids) ∧
      v'.pose = pose ∧ (v'.valid = true ↔ v.valid = true ∧ 4 ≤ v'.pts.length) := by
  have hlt : ∀ i ∈ inl, i < v.pts.length := fun i hi => List.mem_range.1 (hin.subset hi)
  unfold estimateBoard scenePoints
  rw [scenePoints_ok model3d v.ids [] hid, Outcome.bind_ok, List.nil_append, hr, Outcome.bind_ok,
    keepPoints_ok v hal inl ([], []) hlt, Outcome.bind_ok]
  refine ⟨_, rfl, rfl, rfl, ?_, ?_, ?_, rfl, ?_⟩
  · exact select_length _ _ hlt
  · simp only [List.nil_append]
    rw [select_length _ _ hlt, select_length _ _ (hal ▸ hlt)]
  · simp only [List.nil_append]
    rw [select_zip v.pts v.ids hal inl hlt]
    apply select_sublist
    rw [List.length_zip, ← hal, Nat.min_self]
    exact hin
  · simp only [List.nil_append]
    rw [select_length _ _ hlt]
    split_ifs with h
    · simp; omega
    · simp; omega

/-- Any number of pose estimations of one board observation. -/
def estimateMany (model3d : List P3) : List (List P3 → List P2 → Outcome (List Nat × Pose)) → View P2 Pose →
    Outcome (View P2 Pose)
  | [], v => .ok v
  | r :: rs, v => estimateBoard r model3d v >>= estimateMany model3d rs

/-- C30: an observation marked invalid never becomes valid again, however often and with whatever
results its pose is estimated. -/
theorem C30_never_valid_again (model3d : List P3) :
    ∀ (rs : List (List P3 → List P2 → Outcome (List Nat × Pose))) (v v' : View P2 Pose),
      estimateMany model3d rs v = .ok v' → v.valid = false → v'.valid = false
  | [], v, v', h, hv => by
    simp only [estimateMany, Outcome.ok.injEq] at h
    rw [← h, hv]
  | r :: rs, v, v', h, hv => by
    unfold estimateMany at h
    obtain ⟨v1, h1, h2⟩ := Outcome.bind_eq_ok.1 h
    refine C30_never_valid_again model3d rs v1 v' h2 ?_
    unfold estimateBoard at h1
    obtain ⟨_, _, h1⟩ := Outcome.bind_eq_ok.1 h1
    obtain ⟨_, _, h1⟩ := Outcome.bind_eq_ok.1 h1
    obtain ⟨_, _, h1⟩ := Outcome.bind_eq_ok.1 h1
    simp only [Outcome.pure_eq, Outcome.ok.injEq] at h1
    rw [← h1]
    simp [hv]

/-- What `estimatePoseAllBoards` may do to one board observation. -/
structure Filtered (bo : BoardObs P2) (e : Estimated P2 Pose) : Prop where
  same : e.obs.cam = bo.cam ∧ e.obs.frame = bo.frame ∧ e.obs.board = bo.board
  aligned : e.obs.pts.length = e.obs.ids.length
  sub : (e.obs.pts.zip e.obs.ids).Sublist (bo.pts.zip bo.ids)
  valid : e.valid = true ↔ 4 ≤ e.obs.pts.length

/-- C30: estimating the poses of all board observations, each with at least four points and as many ids,
all of them corners of the board, succeeds, keeps all observations in place, and keeps in each a sub-list
of the pixel/id pairs; valid are those with at least four points left. -/
theorem C30_all (search : Search P3 P2 Pose) (hS : Sound search) (garbage : Pose) (bpts : List (List P3))
    (obs : List (BoardObs P2))
    (hobs : ∀ bo ∈ obs, bo.pts.length = bo.ids.length ∧ 4 ≤ bo.pts.length ∧
      ∃ m, bpts[bo.board]? = some m ∧ ∀ i ∈ bo.ids, i < m.length) :
    ∃ r, estimateAllBoards search garbage bpts obs = .ok r ∧ List.Forall₂ Filtered obs r := by
  have key : ∀ (obs : List (BoardObs P2)) (acc : List (Estimated P2 Pose)),
      (∀ bo ∈ obs, bo.pts.length = bo.ids.length ∧ 4 ≤ bo.pts.length ∧
        ∃ m, bpts[bo.board]? = some m ∧ ∀ i ∈ bo.ids, i < m.length) →
      ∃ r, Outcome.foldlM (boardStep search garbage bpts) acc obs = .ok (acc ++ r) ∧
        List.Forall₂ Filtered obs r := by
    intro obs
    induction obs with
    | nil => intro acc _; exact ⟨[], by simp, List.Forall₂.nil⟩
    | cons bo obs ih =>
      intro acc h
      obtain ⟨h1, h2, m, h3, h4⟩ := h bo List.mem_cons_self
      have hsel : (select m bo.ids).length = bo.pts.length := by
        rw [select_length m bo.ids h4, h1]
      obtain ⟨inl, pose, h5, h6⟩ := hS acc.length bo.cam (select m bo.ids) bo.pts hsel h2
      obtain ⟨v', e0, e1, e2, e3, e4, e5, e6, e7⟩ := C30_board (search acc.length bo.cam) m
        ⟨bo.pts, bo.ids, true, garbage⟩ h1 h4 inl pose h5 h6
      obtain ⟨r, hr1, hr2⟩ := ih (acc ++ [⟨{ bo with pts := v'.pts, ids := v'.ids }, v'.valid, v'.pose⟩])
        (fun b hb => h b (List.mem_cons_of_mem _ hb))
      refine ⟨⟨{ bo with pts := v'.pts, ids := v'.ids }, v'.valid, v'.pose⟩ :: r, ?_, ?_⟩
      · rw [Outcome.foldlM_cons, boardStep, Outcome.idx_of_getElem? h3, Outcome.bind_ok, e0]
        simp only [Outcome.bind_ok, Outcome.pure_eq]
        rw [hr1, List.append_assoc, List.singleton_append]
      · refine List.Forall₂.cons ⟨⟨rfl, rfl, rfl⟩, e4, e5, ?_⟩ hr2
        simpa using e7
  obtain ⟨r, h1, h2⟩ := key obs [] hobs
  exact ⟨r, by simpa [estimateAllBoards] using h1, h2⟩

/-- C30: so the observations afterwards satisfy what the later stages assume of them (`C16`, `C52`). -/
theorem C30_same_views (obs : List (BoardObs P2)) (r : List (Estimated P2 Pose)) (h : List.Forall₂ Filtered obs r) :
    SameViews obs (r.map (·.obs)) := by
  constructor
  · induction h with
    | nil => rfl
    | cons h _ ih =>
      obtain ⟨a, b, c⟩ := h.same
      simp only [List.map_cons, a, b, c] at ih ⊢
      rw [ih]
  · intro o ho
    obtain ⟨e, he, rfl⟩ := List.mem_map.1 ho
    obtain ⟨i, hi⟩ := List.mem_iff_getElem?.1 he
    have hl := h.length_eq
    obtain ⟨hi', rfl⟩ := List.getElem?_eq_some_iff.1 hi
    exact (h.get (by omega) hi').aligned

/-- C30: pose estimation of an object observation changes nothing but its pose: no point is removed. -/
theorem C30_object (search : List P3 → List P2 → Outcome (List Nat × Pose)) (model3d : List P3)
    (v v' : View P2 Pose) (h : estimateObject search model3d v = .ok v') :
    v'.pts = v.pts ∧ v'.ids = v.ids ∧ v'.valid = v.valid := by
  unfold estimateObject at h
  obtain ⟨_, _, h⟩ := Outcome.bind_eq_ok.1 h
  obtain ⟨_, _, h⟩ := Outcome.bind_eq_ok.1 h
  simp only [Outcome.pure_eq, Outcome.ok.injEq] at h
  rw [← h]
  exact ⟨rfl, rfl, rfl⟩

/-! ### C55 -/

/-- An object observation whose ids are points of an existing object. -/
def Readable {G : Type} (objs : OMap Nat (Object G P3)) (oo : ObjObs P2) : Prop :=
  ∃ o, OMap.get? objs oo.obj = some o ∧ oo.pts.length = oo.ids.length ∧ ∀ i ∈ oo.ids, i < o.pts.length

/-- C55: estimating the poses of all object observations succeeds iff every one has at least four points;
otherwise it reads out of range. -/
theorem C55_objects {G : Type} (search : Search P3 P2 Pose) (hS : Sound search) (hF : Fails search) (garbage : Pose)
    (objs : OMap Nat (Object G P3)) (oos : List (ObjObs P2)) (hR : ∀ oo ∈ oos, Readable objs oo) :
    ((∀ oo ∈ oos, 4 ≤ oo.pts.length) →
      ∃ r, estimateAllObjects search garbage objs oos = .ok r ∧ r.length = oos.length) ∧
    ((∃ oo ∈ oos, oo.pts.length < 4) → estimateAllObjects search garbage objs oos = .ub) := by
  have one : ∀ (acc : List Pose) (oo : ObjObs P2), Readable objs oo →
      (4 ≤ oo.pts.length → ∃ p, objectStep search garbage objs acc oo = .ok (acc ++ [p])) ∧
      (oo.pts.length < 4 → objectStep search garbage objs acc oo = .ub) := by
    rintro acc oo ⟨o, h1, h2, h3⟩
    unfold objectStep
    rw [h1, Outcome.deref_some, Outcome.bind_ok]
    unfold estimateObject scenePoints
    rw [scenePoints_ok o.pts oo.ids [] h3, Outcome.bind_ok, List.nil_append]
    constructor
    · intro h4
      obtain ⟨inl, pose, h5, -⟩ := hS acc.length oo.cam (select o.pts oo.ids) oo.pts
        (by rw [select_length _ _ h3, h2]) h4
      rw [h5]
      exact ⟨pose, rfl⟩
    · intro h4
      rw [hF _ _ _ _ h4]
      rfl
  have key : ∀ (oos : List (ObjObs P2)) (acc : List Pose), (∀ oo ∈ oos, Readable objs oo) →
    ((∀ oo ∈ oos, 4 ≤ oo.pts.length) →
      ∃ r, Outcome.foldlM (objectStep search garbage objs) acc oos = .ok (acc ++ r) ∧ r.length = oos.length) ∧
    ((∃ oo ∈ oos, oo.pts.length < 4) → Outcome.foldlM (objectStep search garbage objs) acc oos = .ub) := by
    intro oos
    induction oos with
    | nil => intro acc _; exact ⟨fun _ => ⟨[], by simp, rfl⟩, by simp⟩
    | cons oo oos ih =>
      intro acc h
      obtain ⟨a, b⟩ := one acc oo (h oo List.mem_cons_self)
      have h' : ∀ o ∈ oos, Readable objs o := fun o ho => h o (List.mem_cons_of_mem _ ho)
      constructor
      · intro hall
        obtain ⟨p, hp⟩ := a (hall oo List.mem_cons_self)
        obtain ⟨r, hr, hr'⟩ := (ih (acc ++ [p]) h').1 (fun o ho => hall o (List.mem_cons_of_mem _ ho))
        refine ⟨p :: r, ?_, by simp [hr']⟩
        rw [Outcome.foldlM_cons, hp, Outcome.bind_ok, hr, List.append_assoc, List.singleton_append]
      · rintro ⟨o, ho, hlt⟩
        rw [Outcome.foldlM_cons]
        by_cases hoo : oo.pts.length < 4
        · rw [b hoo]; rfl
        · obtain ⟨p, hp⟩ := a (by omega)
          rw [hp, Outcome.bind_ok]
          refine (ih _ h').2 ⟨o, ?_, hlt⟩
          rcases List.mem_cons.1 ho with rfl | ho
          · exact absurd hlt hoo
          · exact ho
  obtain ⟨a, b⟩ := key oos [] hR
  refine ⟨fun h => ?_, b⟩
  obtain ⟨r, hr, hr'⟩ := a h
  exact ⟨r, by simpa [estimateAllObjects] using hr, hr'⟩

/-- Number of points camera `c` still has of the boards of object `o` in frame `f`. -/
def pointsLeft {G : Type} (o : Object G P3) (obs : List (BoardObs P2)) (c f : Nat) : Nat :=
  ((obs.filter fun bo => bo.cam == c && bo.frame == f && decide (bo.board ∈ OMap.keys o.boards)).map
    fun bo => bo.pts.length).sum

private theorem positions_sel {α : Type} (p : α → Bool) (l : List α) :
    (Spec.Store.positions p l).filterMap (fun i => l[i]?) = l.filter p := by
  have hmem : ∀ k ≤ l.length, (((List.range k).filter fun i => (l[i]?).any p).filterMap
      fun i => l[i]?) = (l.take k).filter p := by
    intro k
    induction k with
    | zero => simp
    | succ k ih =>
      intro hk
      have hl : l[k]? = some l[k] := List.getElem?_eq_getElem (by omega)
      rw [List.range_succ, List.filter_append, List.filterMap_append, ih (by omega),
        List.take_succ_eq_append_getElem (by omega), List.filter_append]
      by_cases hp : p l[k] = true <;> simp [hl, hp]
  have := hmem l.length le_rfl
  rw [List.take_length] at this
  exact this

theorem objObs_length {G : Type} (o : Object G P3) (obs : List (BoardObs P2)) (c f : Nat) :
    (objObs o obs c f).pts.length = pointsLeft o obs c f := by
  unfold objObs pointsLeft
  simp only [seenOf]
  rw [positions_sel, List.length_flatMap]

/-- C55: the object stage after outlier removal (`obs'`, the observations of `C30_same_views`, whose ids
are corners of their boards).  If some camera has one to three points left of the boards of an object in
some frame, estimating the object poses reads out of range; if there is no such view it succeeds. -/
theorem C55_workflow {G Path : Type} [Group G] [SMul G P3] (search : Search P3 P2 Pose) (hS : Sound search)
    (hF : Fails search) (garbage : Pose) (nCam nBoard : Nat) (l : List (Insertion P2 Path))
    (hl : ∀ a ∈ l, a.obs.cam < nCam ∧ a.obs.board < nBoard) (s : Store P2 Path)
    (hs : Store.run nCam nBoard l = .ok s) (obs' : List (BoardObs P2)) (hobs : SameViews s.obs obs')
    (bpts : List (List P3)) (hids : ∀ bo ∈ obs', ∀ k ∈ bo.ids, k < cornerCount bpts bo.board)
    (objs : OMap Nat (Object G P3)) (hC : Collection bpts objs) (oos : List (ObjObs P2))
    (hoos : initAllObjectObs { s with obs := obs' } objs [] = .ok oos) :
    ((∃ i o c f, OMap.get? objs i = some o ∧ 0 < pointsLeft o obs' c f ∧ pointsLeft o obs' c f < 4) →
      estimateAllObjects search garbage objs oos = .ub) ∧
    ((∀ i o c f, OMap.get? objs i = some o → pointsLeft o obs' c f = 0 ∨ 4 ≤ pointsLeft o obs' c f) →
      ∃ r, estimateAllObjects search garbage objs oos = .ok r ∧ r.length = oos.length) := by
  have hiff := Objects.C16_iff nCam nBoard l hl s hs obs' hobs bpts objs hC oos hoos
  rw [Objects.C16_observations nCam nBoard l hl s hs obs' hobs bpts objs hC] at hoos
  simp only [Outcome.ok.injEq] at hoos
  have hmem : ∀ oo ∈ oos, ∃ i o, OMap.get? objs i = some o ∧ ∃ c f, oo = objObs o obs' c f ∧ oo.pts ≠ [] := by
    intro oo hoo
    rw [← hoos, List.mem_flatMap] at hoo
    obtain ⟨⟨i, o⟩, he, h⟩ := hoo
    simp only [allObjObs, List.mem_filter, List.mem_map, decide_eq_true_eq] at h
    obtain ⟨⟨v, -, rfl⟩, hp⟩ := h
    exact ⟨i, o, (OMap.get?_eq_some hC.sorted).2 he, v.1, v.2, rfl, hp⟩
  have hR : ∀ oo ∈ oos, Readable objs oo := by
    intro oo hoo
    obtain ⟨i, o, ho, c, f, rfl, -⟩ := hmem oo hoo
    refine ⟨o, by show OMap.get? objs o.id = some o; rw [hC.id i o ho]; exact ho, ?_, ?_⟩
    · unfold objObs
      simp only [List.length_flatMap, List.length_map]
      congr 1
      apply List.map_congr_left
      intro bo hbo
      obtain ⟨k, -, hk⟩ := List.mem_filterMap.1 hbo
      exact hobs.aligned bo (List.mem_of_getElem? hk)
    · intro n hn
      unfold objObs at hn
      simp only [List.mem_flatMap, List.mem_map] at hn
      obtain ⟨bo, hbo, k, hk, rfl⟩ := hn
      obtain ⟨q, hq, hq'⟩ := List.mem_filterMap.1 hbo
      have hnum := (hC.good i o ho).numbering
      have hbm : bo.board ∈ OMap.keys o.boards := by
        unfold seenOf at hq
        obtain ⟨bo', e1, e2⟩ := (Verif.Props.Store.positions_get _ _ _).1 hq
        rw [hq'] at e1
        simp only [Option.some.injEq] at e1
        subst e1
        simp only [Bool.and_eq_true, decide_eq_true_eq] at e2
        exact e2.2
      have hin : (bo.board, k) ∈ o.o2b :=
        (hnum.mem _ _).2 ⟨hbm, hids bo (List.mem_of_getElem? hq') k hk⟩
      unfold objNumber
      rw [if_pos hin, hnum.pts_length]
      exact List.idxOf_lt_length_of_mem hin
  obtain ⟨a, b⟩ := C55_objects search hS hF garbage objs oos hR
  constructor
  · rintro ⟨i, o, c, f, ho, h1, h2⟩
    apply b
    have : ∃ bo ∈ obs', bo.cam = c ∧ bo.frame = f ∧ bo.board ∈ OMap.keys o.boards ∧ bo.pts ≠ [] := by
      by_contra hno
      apply absurd h1
      rw [Nat.not_lt, Nat.le_zero, pointsLeft, List.sum_eq_zero_iff_forall_eq_nat]
      intro x hx
      obtain ⟨bo, hbo, rfl⟩ := List.mem_map.1 hx
      rw [List.mem_filter] at hbo
      simp only [Bool.and_eq_true, beq_iff_eq, decide_eq_true_eq] at hbo
      by_contra hne
      exact hno ⟨bo, hbo.1, hbo.2.1.1, hbo.2.1.2, hbo.2.2, fun e => hne (by rw [e]; rfl)⟩
    obtain ⟨oo, hoo, e1, e2, e3⟩ := (hiff.2 i c f).2 ⟨o, ho, this⟩
    refine ⟨oo, hoo, ?_⟩
    obtain ⟨i', o', ho', c', f', rfl, -⟩ := hmem oo hoo
    change o'.id = i at e1
    change c' = c at e2
    change f' = f at e3
    rw [hC.id i' o' ho'] at e1
    subst e1 e2 e3
    rw [ho] at ho'
    simp only [Option.some.injEq] at ho'
    subst ho'
    rw [objObs_length]; exact h2
  · intro h
    apply a
    intro oo hoo
    obtain ⟨i, o, ho, c, f, rfl, hp⟩ := hmem oo hoo
    have hlen := objObs_length o obs' c f
    rcases h i o c f ho with h0 | h0
    · exact absurd (List.length_eq_zero_iff.1 (hlen.trans h0)) hp
    · rw [hlen]; exact h0

/-! ### Concrete cases -/

/-- Poses are permutations of five points; pixel `k` is the projection of point `k`, other pixels are off. -/
abbrev S5 := Equiv.Perm (Fin 5)

/-- A search library: the solver always answers the identity, a wrong pixel is off by 9. -/
def lib : Lib (Fin 5) Nat S5 Nat where
  p3p _ _ := 1
  refine p _ := p
  err _ a b := if a.val = b then 0 else 9
  thresh := 5
  trials _ _ := 3
  shuffle _ l := l.reverse

/-- The searches with ten trials. -/
def search : Search (Fin 5) Nat S5 := searches (fun _ _ => lib) (fun _ _ => lib) (fun _ x => x) (fun _ => 0) 10
  fun _ => 1

/-- The searches of the examples meet the hypotheses. -/
theorem search_ok : Sound search ∧ Fails search :=
  ⟨C30_sound _ _ (fun _ _ _ _ => List.reverse_perm _) (fun _ _ _ _ => List.reverse_perm _) _ _ _ _,
   C55_fails _ _ (fun _ _ _ _ => List.reverse_perm _) (fun _ _ _ _ => List.reverse_perm _) _ _
    (fun _ => Or.inl rfl) 10 (by decide) _⟩

/-- From detections of a board of five corners to the poses of the object observations. -/
def run (l : List (Insertion Nat Nat)) : Outcome (List S5) := do
  let s ← Store.run 1 1 l
  let est ← estimateAllBoards search 1 [[0, 1, 2, 3, 4]] s.obs
  let s' : Store Nat Nat := { s with obs := est.map (·.obs) }
  let objs ← buildObjects (G := S5) s' (fun _ => 1) (fun l => l.headD 1) [[0, 1, 2, 3, 4]] (fun _ _ _ => 0)
  let oos ← initAllObjectObs s' objs []
  estimateAllObjects search 1 objs oos

/-- One detection with these pixels. -/
def seen (f : Nat) (px : List Nat) : Insertion Nat Nat := ⟨⟨0, f, 0, px, [0, 1, 2, 3, 4]⟩, 0⟩

/-- C30: one wrong pixel is removed together with its id. -/
theorem C30_example : (match Store.run 1 1 [seen 0 [0, 1, 77, 3, 4], seen 1 [0, 1, 2, 55, 66]] >>= fun s =>
      estimateAllBoards search 1 [[0, 1, 2, 3, 4]] s.obs with
    | .ok r => r.map fun e => (e.obs.pts, e.obs.ids, e.valid)
    | _ => []) = [([0, 1, 3, 4], [0, 1, 3, 4], true), ([0, 1, 2], [0, 1, 2], false)] := by decide +kernel

/-- C55: good views give poses. -/
theorem C55_good : run [seen 0 [0, 1, 77, 3, 4], seen 1 [0, 1, 2, 3, 4]] = .ok [1, 1] := by decide +kernel

/-- C55: one view of which three points are left after outlier removal spoils the run. -/
theorem C55_three_left : run [seen 0 [0, 1, 2, 3, 4], seen 1 [0, 1, 2, 55, 66]] = .ub := by decide +kernel

/-- C55: a view without any inlier is dropped, so it does no harm at this stage. -/
theorem C55_none_left : run [seen 0 [0, 1, 2, 3, 4], seen 1 [9, 9, 9, 55, 66]] = .ok [1] := by decide +kernel

/-- The board poses in the objects built from detections of two boards of five corners, when fresh matrices
contain `garbage`. -/
def placed (garbage : S5) (l : List (Insertion Nat Nat)) : Outcome (List (OMap Nat S5)) := do
  let s ← Store.run 1 2 l
  let est ← estimateAllBoards (searches (fun _ _ => lib) (fun _ _ => lib) (fun _ x => x) (fun _ => 0) 10
    fun _ => garbage) garbage [[0, 1, 2, 3, 4], [0, 1, 2, 3, 4]] s.obs
  let s' : Store Nat Nat := { s with obs := est.map (·.obs) }
  let objs ← buildObjects (G := S5) (Pt := Fin 5) s' (fun i => ((est[i]?).map (·.pose)).getD 1) (fun l => l.headD 1)
    [[0, 1, 2, 3, 4], [0, 1, 2, 3, 4]] (fun _ _ _ => 0)
  pure (objs.map fun e => e.2.poses)

/-- C55: a board of which no point survives still links boards, with a pose that is whatever the fresh
matrices contained: the structure of the object depends on it. -/
theorem C55_garbage_pose : ∀ g : S5, placed g [⟨⟨0, 0, 0, [0, 1, 2, 3, 4], [0, 1, 2, 3, 4]⟩, 0⟩,
    ⟨⟨0, 0, 1, [9, 9, 9, 9, 9], [0, 1, 2, 3, 4]⟩, 0⟩] = .ok [[(0, 1), (1, g)]] := by
  decide +kernel

end Verif.Props.Outliers
