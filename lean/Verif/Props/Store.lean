import Verif.Lemmas.Store

/-!
Property theorems C06 and C10 about the observation tables (`Calibration::insertNewBoard`).
The specification is `Spec/Store`: everything is read off the list of insertions.
-/
set_option linter.unusedSectionVars false
namespace Verif.Props.Store
open Verif Verif.Store Verif.Spec.Store

variable {P Path : Type}

/-- C06: after any sequence of insertions for known cameras and boards, the global table is the list
of the observations in order, and every index (camera, board, frame, camera-frame pair) lists exactly
the observations that belong to it, in insertion order (`Spec.Store.Describes`). -/
theorem C06_indexes (nCam nBoard : Nat) (l : List (Insertion P Path))
    (hl : ∀ a ∈ l, a.obs.cam < nCam ∧ a.obs.board < nBoard) :
    ∃ s, run nCam nBoard l = .ok s ∧ Describes nCam nBoard l s :=
  run_describes nCam nBoard l hl

theorem positions_get {α} (p : α → Bool) (l : List α) (i : Nat) :
    i ∈ positions p l ↔ ∃ a, l[i]? = some a ∧ p a = true := by
  unfold positions
  simp only [List.mem_filter, List.mem_range]
  constructor
  · rintro ⟨h1, h2⟩
    rw [List.getElem?_eq_getElem h1] at h2 ⊢
    exact ⟨_, rfl, by simpa using h2⟩
  · rintro ⟨a, h1, h2⟩
    refine ⟨?_, by simp [h1, h2]⟩
    by_contra h
    rw [List.getElem?_eq_none (by omega)] at h1
    cases h1

theorem positions_sorted {α} (p : α → Bool) (l : List α) : (positions p l).Pairwise (· < ·) := by
  unfold positions
  exact List.Pairwise.filter _ (List.pairwise_lt_range)

theorem count_positions {α} (p : α → Bool) (l : List α) (i : Nat) :
    (positions p l).count i = if (l[i]?).any p then 1 else 0 := by
  have hnd : (positions p l).Nodup := (positions_sorted p l).imp (fun h => Nat.ne_of_lt h)
  by_cases h : i ∈ positions p l
  · rw [List.count_eq_one_of_mem hnd h]
    obtain ⟨a, h1, h2⟩ := (positions_get p l i).1 h
    simp [h1, h2]
  · rw [List.count_eq_zero_of_not_mem h]
    have : ¬ (l[i]?).any p := by
      intro hh
      apply h
      cases ha : l[i]? with
      | none => simp [ha] at hh
      | some a => exact (positions_get p l i).2 ⟨a, ha, by simpa [ha] using hh⟩
    simp [this]

/-- C06, in terms of look-ups: the `i`-th inserted observation is found exactly once through its
camera, its board, its frame and its (camera, frame) pair, and not at all through any other. -/
theorem C06_found_once (nCam nBoard : Nat) (l : List (Insertion P Path))
    (hl : ∀ a ∈ l, a.obs.cam < nCam ∧ a.obs.board < nBoard) (s : Store P Path)
    (hs : run nCam nBoard l = .ok s) (i : Nat) (o : BoardObs P) (hi : s.obs[i]? = some o) :
    (∀ c r, s.cams[c]? = some r → r.boards.count i = if o.cam = c then 1 else 0) ∧
    (∀ b r, s.boards[b]? = some r → r.boards.count i = if o.board = b then 1 else 0) ∧
    (∀ f r, OMap.get? s.frames f = some r → r.boards.count i = if o.frame = f then 1 else 0) ∧
    (∀ c f r, OMap.get? s.camObs (c, f) = some r →
      r.boards.count i = if o.cam = c ∧ o.frame = f then 1 else 0) ∧
    o.cam < s.cams.length ∧ o.board < s.boards.length ∧ o.frame ∈ OMap.keys s.frames ∧
    (o.cam, o.frame) ∈ OMap.keys s.camObs := by
  obtain ⟨s', h1, h2⟩ := run_describes nCam nBoard l hl
  rw [hs] at h1
  cases h1
  rw [h2.obs, List.getElem?_map] at hi
  obtain ⟨a, ha, rfl⟩ := Option.map_eq_some_iff.1 hi
  have hmem : a ∈ l := List.mem_of_getElem? ha
  refine ⟨?_, ?_, ?_, ?_, ?_, ?_, ?_, ?_⟩
  · intro c r hr
    rw [(h2.cam c r hr).1, count_positions, ha]
    simp [byCam]
  · intro c r hr
    rw [h2.board c r hr, count_positions, ha]
    simp [byBoard]
  · intro c r hr
    rw [(h2.frame c r hr).1, count_positions, ha]
    simp [byFrame]
  · intro c f r hr
    rw [(h2.camObs c f r hr).1, count_positions, ha]
    simp [byCamFrame]
  · rw [h2.cams_length]; exact (hl a hmem).1
  · rw [h2.boards_length]; exact (hl a hmem).2
  · exact (h2.frame_key _).2 ⟨a, hmem, rfl⟩
  · exact (h2.camObs_key _ _).2 ⟨a, hmem, rfl, rfl⟩

/-- C06: no index mentions anything but a stored observation. -/
theorem C06_nothing_else (nCam nBoard : Nat) (l : List (Insertion P Path))
    (hl : ∀ a ∈ l, a.obs.cam < nCam ∧ a.obs.board < nBoard) (s : Store P Path)
    (hs : run nCam nBoard l = .ok s) (i : Nat)
    (hi : (∃ (c : Nat) (r : CamRec), s.cams[c]? = some r ∧ i ∈ r.boards) ∨
      (∃ (b : Nat) (r : BoardRec), s.boards[b]? = some r ∧ i ∈ r.boards) ∨
      (∃ f r, OMap.get? s.frames f = some r ∧ i ∈ r.boards) ∨
      (∃ k r, OMap.get? s.camObs k = some r ∧ i ∈ r.boards)) :
    i < s.obs.length := by
  obtain ⟨s', h1, h2⟩ := run_describes nCam nBoard l hl
  rw [hs] at h1
  cases h1
  have key : ∀ p : Insertion P Path → Bool, i ∈ positions p l → i < s.obs.length := by
    intro p hp
    rw [h2.obs, List.length_map]
    unfold positions at hp
    simpa using (List.mem_filter.1 hp).1
  rcases hi with ⟨c, r, h, hi⟩ | ⟨c, r, h, hi⟩ | ⟨c, r, h, hi⟩ | ⟨⟨c, f⟩, r, h, hi⟩
  · rw [(h2.cam c r h).1] at hi; exact key _ hi
  · rw [h2.board c r h] at hi; exact key _ hi
  · rw [(h2.frame c r h).1] at hi; exact key _ hi
  · rw [(h2.camObs c f r h).1] at hi; exact key _ hi

/-- C06, error branch: an insertion for an unknown camera or board is undefined behaviour (a null
pointer is dereferenced), whatever was inserted before and is inserted after. -/
theorem C06_unknown_index_ub (nCam nBoard : Nat) (l l' : List (Insertion P Path))
    (hl : ∀ a ∈ l, a.obs.cam < nCam ∧ a.obs.board < nBoard) (a : Insertion P Path)
    (ha : nCam ≤ a.obs.cam ∨ nBoard ≤ a.obs.board) :
    run nCam nBoard (l ++ a :: l') = .ub := by
  obtain ⟨s, h1, h2⟩ := run_describes nCam nBoard l hl
  unfold run at h1 ⊢
  rw [Outcome.foldlM_append, h1, Outcome.bind_ok, Outcome.foldlM_cons]
  have : insertNewBoard s a = .ub := by
    unfold insertNewBoard
    rcases ha with ha | ha
    · have e : s.cams[a.obs.cam]? = none := by
        rw [List.getElem?_eq_none]; rw [h2.cams_length]; exact ha
      simp [e]
    · have e : s.boards[a.obs.board]? = none := by
        rw [List.getElem?_eq_none]; rw [h2.boards_length]; exact ha
      simp [e]
  rw [this]
  rfl

/-- C06: a sequence of insertions succeeds exactly when all its cameras and boards are known. -/
theorem C06_run_ok_iff (nCam nBoard : Nat) (l : List (Insertion P Path)) :
    (∃ s, run nCam nBoard l = .ok s) ↔ ∀ a ∈ l, a.obs.cam < nCam ∧ a.obs.board < nBoard := by
  constructor
  · induction l using List.reverseRecOn with
    | nil => simp
    | append_singleton l a ih =>
      rintro ⟨s, h⟩
      have hl : ∀ a ∈ l, a.obs.cam < nCam ∧ a.obs.board < nBoard := by
        apply ih
        unfold run at h ⊢
        rw [Outcome.foldlM_append, Outcome.bind_eq_ok] at h
        obtain ⟨t, h, -⟩ := h
        exact ⟨t, h⟩
      intro x hx
      rcases List.mem_append.1 hx with hx | hx
      · exact hl x hx
      · have ex : x = a := by simpa using hx
        subst ex
        by_contra hc
        have := C06_unknown_index_ub nCam nBoard l [] hl x (by omega)
        rw [this] at h
        cases h
  · intro hl
    obtain ⟨s, h, -⟩ := run_describes nCam nBoard l hl
    exact ⟨s, h⟩

/-! ### C10 -/

/-- C10: the frames a camera lists are exactly the frames whose very first observation (of all
cameras) is its own; in particular they are frames it observed. -/
theorem C10_camera_frames (nCam nBoard : Nat) (l : List (Insertion P Path))
    (hl : ∀ a ∈ l, a.obs.cam < nCam ∧ a.obs.board < nBoard) (s : Store P Path)
    (hs : run nCam nBoard l = .ok s) (c : Nat) (r : CamRec) (hr : s.cams[c]? = some r) (f : Nat) :
    (f ∈ OMap.keys r.frames ↔ ∃ o, s.obs.find? (fun o => o.frame == f) = some o ∧ o.cam = c) ∧
    (f ∈ OMap.keys r.frames → ∃ o ∈ s.obs, o.cam = c ∧ o.frame = f) := by
  obtain ⟨s', h1, h2⟩ := run_describes nCam nBoard l hl
  rw [hs] at h1
  cases h1
  have e : s.obs.find? (fun o => o.frame == f) = ((l.filter (byFrame f)).head?).map (·.obs) := by
    rw [h2.obs, List.find?_map, List.head?_filter]
    rfl
  have main : f ∈ OMap.keys r.frames ↔
      ∃ o, s.obs.find? (fun o => o.frame == f) = some o ∧ o.cam = c := by
    rw [(h2.cam_frames c r hr).2 f, e]
    constructor
    · rintro ⟨a, h, h'⟩; exact ⟨a.obs, by simp [h], h'⟩
    · rintro ⟨o, h, h'⟩
      obtain ⟨a, h3, rfl⟩ := Option.map_eq_some_iff.1 h
      exact ⟨a, h3, h'⟩
  refine ⟨main, fun hf => ?_⟩
  obtain ⟨o, ho, hc⟩ := main.1 hf
  exact ⟨o, List.mem_of_find?_eq_some ho, hc, by simpa using List.find?_some ho⟩

/-- C10: likewise for boards. -/
theorem C10_board_frames (nCam nBoard : Nat) (l : List (Insertion P Path))
    (hl : ∀ a ∈ l, a.obs.cam < nCam ∧ a.obs.board < nBoard) (s : Store P Path)
    (hs : run nCam nBoard l = .ok s) (b : Nat) (r : BoardRec) (hr : s.boards[b]? = some r) (f : Nat) :
    (f ∈ OMap.keys r.frames ↔ ∃ o, s.obs.find? (fun o => o.frame == f) = some o ∧ o.board = b) ∧
    (f ∈ OMap.keys r.frames → ∃ o ∈ s.obs, o.board = b ∧ o.frame = f) := by
  obtain ⟨s', h1, h2⟩ := run_describes nCam nBoard l hl
  rw [hs] at h1
  cases h1
  have e : s.obs.find? (fun o => o.frame == f) = ((l.filter (byFrame f)).head?).map (·.obs) := by
    rw [h2.obs, List.find?_map, List.head?_filter]
    rfl
  have main : f ∈ OMap.keys r.frames ↔
      ∃ o, s.obs.find? (fun o => o.frame == f) = some o ∧ o.board = b := by
    rw [(h2.board_frames b r hr).2 f, e]
    constructor
    · rintro ⟨a, h, h'⟩; exact ⟨a.obs, by simp [h], h'⟩
    · rintro ⟨o, h, h'⟩
      obtain ⟨a, h3, rfl⟩ := Option.map_eq_some_iff.1 h
      exact ⟨a, h3, h'⟩
  refine ⟨main, fun hf => ?_⟩
  obtain ⟨o, ho, hc⟩ := main.1 hf
  exact ⟨o, List.mem_of_find?_eq_some ho, hc, by simpa using List.find?_some ho⟩

/-- Two cameras see board 0 in frame 0; camera 1 sees it again in frame 3 together with board 1. -/
def demo : List (Insertion Nat String) :=
  [⟨⟨0, 0, 0, [7], [2]⟩, "a"⟩, ⟨⟨1, 0, 0, [8], [2]⟩, "b"⟩, ⟨⟨1, 3, 0, [9], [1]⟩, "c"⟩,
   ⟨⟨1, 3, 1, [5, 6], [0, 4]⟩, "c"⟩]

example : ∀ a ∈ demo, a.obs.cam < 2 ∧ a.obs.board < 2 := by decide

example : ∃ s, run 2 2 demo = .ok s ∧ s.obs.length = 4 ∧
    (s.cams[1]?).map (·.boards) = some [1, 2, 3] ∧ (s.boards[0]?).map (·.boards) = some [0, 1, 2] ∧
    (OMap.get? s.frames 3).map (·.boards) = some [2, 3] := by
  refine ⟨_, rfl, ?_⟩
  decide

example : run 2 2 (demo ++ [⟨⟨2, 0, 0, [], []⟩, "x"⟩]) = .ub :=
  C06_unknown_index_ub 2 2 demo [] (by decide) _ (by decide)

/-- C10, witness: camera 1 observed frame 0 but does not list it. -/
theorem C10_observed_frame_not_listed :
    ∃ s, run 2 2 demo = .ok s ∧ (∃ o ∈ s.obs, o.cam = 1 ∧ o.frame = 0) ∧
      (s.cams[1]?).map (fun r => OMap.keys r.frames) = some [3] := by
  refine ⟨_, rfl, ?_⟩
  decide

end Verif.Props.Store
