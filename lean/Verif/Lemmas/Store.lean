import Verif.Spec.Store
import Verif.Lemmas.ListAux

set_option linter.unusedSectionVars false
namespace Verif.Store
open Spec.Store

theorem positions_snoc {α} (p : α → Bool) (l : List α) (a : α) :
    positions p (l ++ [a]) = positions p l ++ if p a then [l.length] else [] := by
  unfold positions
  rw [List.length_append, List.length_singleton, List.range_succ, List.filter_append]
  congr 1
  · apply List.filter_congr
    intro i hi
    rw [List.getElem?_append_left (by simpa using hi)]
  · by_cases h : p a <;> simp [h]

theorem filter_snoc {α} (p : α → Bool) (l : List α) (a : α) :
    (l ++ [a]).filter p = l.filter p ++ if p a then [a] else [] := by
  rw [List.filter_append]; congr 1; by_cases h : p a <;> simp [h]

theorem firstOccs_snoc {α} [DecidableEq α] (l : List α) (x : α) :
    firstOccs (l ++ [x]) = if x ∈ firstOccs l then firstOccs l else firstOccs l ++ [x] := by
  unfold firstOccs; rw [List.foldl_append]; rfl

theorem mem_firstOccs {α} [DecidableEq α] {l : List α} {x : α} : x ∈ firstOccs l ↔ x ∈ l := by
  induction l using List.reverseRecOn generalizing x with
  | nil => simp [firstOccs]
  | append_singleton l a ih =>
    rw [firstOccs_snoc]
    split
    · rename_i h
      rw [ih] at h
      rw [ih]
      simp only [List.mem_append, List.mem_singleton]
      constructor
      · exact Or.inl
      · rintro (h' | rfl)
        · exact h'
        · exact h
    · simp [ih]

theorem head?_filter_snoc {α} (p : α → Bool) (l : List α) (a x : α) :
    ((l ++ [a]).filter p).head? = some x ↔
      (l.filter p).head? = some x ∨ ((∀ y ∈ l, p y = false) ∧ p a = true ∧ a = x) := by
  rw [filter_snoc]
  cases hl : l.filter p with
  | nil =>
    have hl' : ∀ y ∈ l, p y = false := by simpa using hl
    by_cases h : p a
    · simp only [h, if_true, List.nil_append, List.head?_cons, Option.some.injEq, List.head?_nil,
        reduceCtorEq, false_or, true_and]
      exact ⟨fun e => ⟨hl', e⟩, fun e => e.2⟩
    · simp [h]
  | cons y t =>
    have : y ∈ l.filter p := by rw [hl]; simp
    have hy := (List.mem_filter.1 this)
    simp only [List.cons_append, List.head?_cons, Option.some.injEq]
    constructor
    · exact Or.inl
    · rintro (h | ⟨h, _⟩)
      · exact h
      · have := h y hy.1; rw [hy.2] at this; cases this

variable {P Path : Type}

theorem describes_init (nCam nBoard : Nat) :
    Describes nCam nBoard ([] : List (Insertion P Path)) (init nCam nBoard) := by
  have key : ∀ {α : Type} {n c : Nat} {x r : α}, (List.replicate n x)[c]? = some r → r = x := by
    intro α n c x r h
    rw [List.getElem?_replicate] at h
    split at h
    · simpa using h.symm
    · cases h
  constructor
  · rfl
  · simp [init]
  · simp [init]
  · intro c r h; rw [key h]; simp [positions]
  · intro c r h; rw [key h]; simp [OMap.Sorted, OMap.keys]
  · intro c r h; rw [key h]; simp [positions]
  · intro c r h; rw [key h]; simp [OMap.Sorted, OMap.keys]
  · simp [init, OMap.Sorted]
  · simp [init, OMap.keys]
  · intro f r h; simp [init] at h
  · intro f r h; simp [init] at h
  · simp [init, OMap.Sorted]
  · simp [init, OMap.keys]
  · intro c f r h; simp [init] at h

/-- One insertion, both maps updated. -/
theorem describes_insert {nCam nBoard : Nat} {l : List (Insertion P Path)} {s : Store P Path}
    (h : Describes nCam nBoard l s) (a : Insertion P Path)
    (hc : a.obs.cam < nCam) (hb : a.obs.board < nBoard) :
    ∃ s', insertNewBoard s a = .ok s' ∧ Describes nCam nBoard (l ++ [a]) s' := by
  obtain ⟨o, path⟩ := a
  simp only at hc hb
  have hlen : s.obs.length = l.length := by rw [h.obs]; simp
  obtain ⟨c0, hc0⟩ : ∃ c, s.cams[o.cam]? = some c := by
    have : o.cam < s.cams.length := by rw [h.cams_length]; exact hc
    exact ⟨_, List.getElem?_eq_getElem this⟩
  obtain ⟨b0, hb0⟩ : ∃ b, s.boards[o.board]? = some b := by
    have : o.board < s.boards.length := by rw [h.boards_length]; exact hb
    exact ⟨_, List.getElem?_eq_getElem this⟩
  -- facts about the updated camera and board records, before frames are considered
  have hcam := h.cam _ _ hc0
  have hbrd := h.board _ _ hb0
  have hcf := h.cam_frames _ _ hc0
  have hbf := h.board_frames _ _ hb0
  -- shape of the result: cams, boards, frames, camObs
  have main : ∀ (frames' : OMap Nat (FrameRec Path)) (c1 : CamRec) (b1 : BoardRec)
      (camObs' : OMap (Nat × Nat) CamObsRec),
      c1.boards = c0.boards ++ [l.length] → c1.visBoards = c0.visBoards ++ [o.board] →
      b1.boards = b0.boards ++ [l.length] →
      (OMap.Sorted c1.frames ∧ ∀ f, f ∈ OMap.keys c1.frames ↔ f ∈ OMap.keys c0.frames ∨
        ((∀ y ∈ l, byFrame f y = false) ∧ f = o.frame)) →
      (OMap.Sorted b1.frames ∧ ∀ f, f ∈ OMap.keys b1.frames ↔ f ∈ OMap.keys b0.frames ∨
        ((∀ y ∈ l, byFrame f y = false) ∧ f = o.frame)) →
      OMap.Sorted frames' → (∀ f, f ≠ o.frame → OMap.get? frames' f = OMap.get? s.frames f) →
      (∃ r, OMap.get? frames' o.frame = some r ∧
        r.boards = positions (byFrame o.frame) l ++ [l.length] ∧
        r.boardsIdx = (l.filter (byFrame o.frame)).map (·.obs.board) ++ [o.board] ∧
        r.cams = firstOccs ((l.filter (byFrame o.frame)).map (·.obs.cam) ++ [o.cam]) ∧
        OMap.Sorted r.paths ∧ (∀ c, OMap.get? r.paths c = if c = o.cam then some path else
          ((l.filter (byCamFrame c o.frame)).getLast?).map (·.path))) →
      OMap.Sorted camObs' →
      (∀ k, k ≠ (o.cam, o.frame) → OMap.get? camObs' k = OMap.get? s.camObs k) →
      (∃ r, OMap.get? camObs' (o.cam, o.frame) = some r ∧
        r.boards = positions (byCamFrame o.cam o.frame) l ++ [l.length] ∧
        r.boardsIdx = (l.filter (byCamFrame o.cam o.frame)).map (·.obs.board) ++ [o.board] ∧
        r.cam = o.cam) →
      Describes nCam nBoard (l ++ [⟨o, path⟩])
        { obs := s.obs ++ [o], cams := s.cams.set o.cam c1, boards := s.boards.set o.board b1,
          frames := frames', camObs := camObs' } := by
    intro frames' c1 b1 camObs' e1 e2 e3 e4 e5 hfs hfo hfr hcs hco hcr
    constructor
    · simp [h.obs]
    · simpa using h.cams_length
    · simpa using h.boards_length
    · intro c r hr
      simp only at hr
      rw [List.getElem?_set] at hr
      rw [positions_snoc, filter_snoc, List.map_append]
      split at hr
      · rename_i hcc
        subst hcc
        split at hr
        · simp at hr; subst hr
          rw [e1, e2, hcam.1, hcam.2]; simp [byCam]
        · cases hr
      · rename_i hcc
        have hne : byCam c (⟨o, path⟩ : Insertion P Path) = false := by simp [byCam, hcc]
        obtain ⟨h1, h2⟩ := h.cam c r hr
        simp [hne, h1, h2]
    · intro c r hr
      simp only at hr
      rw [List.getElem?_set] at hr
      split at hr
      · rename_i hcc
        subst hcc
        split at hr
        · simp at hr; subst hr
          refine ⟨e4.1, ?_⟩
          intro f
          rw [e4.2, hcf.2]
          constructor
          · rintro (⟨a, ha, hac⟩ | ⟨hf, rfl⟩)
            · exact ⟨a, (head?_filter_snoc _ _ _ _).2 (Or.inl ha), hac⟩
            · exact ⟨_, (head?_filter_snoc _ _ _ _).2 (Or.inr ⟨hf, by simp [byFrame], rfl⟩), rfl⟩
          · rintro ⟨a, ha, hac⟩
            rcases (head?_filter_snoc _ _ _ _).1 ha with ha | ⟨hf, hfa, rfl⟩
            · exact Or.inl ⟨a, ha, hac⟩
            · refine Or.inr ⟨hf, ?_⟩
              simpa [byFrame] using (by simpa [byFrame] using hfa : o.frame = f).symm
        · cases hr
      · rename_i hcc
        obtain ⟨h1, h2⟩ := h.cam_frames c r hr
        refine ⟨h1, ?_⟩
        intro f
        rw [h2]
        constructor
        · rintro ⟨a, ha, hac⟩
          exact ⟨a, (head?_filter_snoc _ _ _ _).2 (Or.inl ha), hac⟩
        · rintro ⟨a, ha, hac⟩
          rcases (head?_filter_snoc _ _ _ _).1 ha with ha | ⟨hf, hfa, rfl⟩
          · exact ⟨a, ha, hac⟩
          · exact absurd hac hcc
    · intro c r hr
      simp only at hr
      rw [List.getElem?_set] at hr
      rw [positions_snoc]
      split at hr
      · rename_i hcc
        subst hcc
        split at hr
        · simp at hr; subst hr
          rw [e3, hbrd]; simp [byBoard]
        · cases hr
      · rename_i hcc
        have hne : byBoard c (⟨o, path⟩ : Insertion P Path) = false := by simp [byBoard, hcc]
        have h1 := h.board c r hr
        simp [hne, h1]
    · intro c r hr
      simp only at hr
      rw [List.getElem?_set] at hr
      split at hr
      · rename_i hcc
        subst hcc
        split at hr
        · simp at hr; subst hr
          refine ⟨e5.1, ?_⟩
          intro f
          rw [e5.2, hbf.2]
          constructor
          · rintro (⟨a, ha, hac⟩ | ⟨hf, rfl⟩)
            · exact ⟨a, (head?_filter_snoc _ _ _ _).2 (Or.inl ha), hac⟩
            · exact ⟨_, (head?_filter_snoc _ _ _ _).2 (Or.inr ⟨hf, by simp [byFrame], rfl⟩), rfl⟩
          · rintro ⟨a, ha, hac⟩
            rcases (head?_filter_snoc _ _ _ _).1 ha with ha | ⟨hf, hfa, rfl⟩
            · exact Or.inl ⟨a, ha, hac⟩
            · refine Or.inr ⟨hf, ?_⟩
              simpa [byFrame] using (by simpa [byFrame] using hfa : o.frame = f).symm
        · cases hr
      · rename_i hcc
        obtain ⟨h1, h2⟩ := h.board_frames c r hr
        refine ⟨h1, ?_⟩
        intro f
        rw [h2]
        constructor
        · rintro ⟨a, ha, hac⟩
          exact ⟨a, (head?_filter_snoc _ _ _ _).2 (Or.inl ha), hac⟩
        · rintro ⟨a, ha, hac⟩
          rcases (head?_filter_snoc _ _ _ _).1 ha with ha | ⟨hf, hfa, rfl⟩
          · exact ⟨a, ha, hac⟩
          · exact absurd hac hcc
    · exact hfs
    · intro f
      simp only
      by_cases hf : f = o.frame
      · subst hf
        obtain ⟨r, hr, _⟩ := hfr
        constructor
        · intro _; exact ⟨⟨o, path⟩, by simp, rfl⟩
        · intro _; exact OMap.mem_keys.2 ⟨r, hr⟩
      · rw [OMap.mem_keys, hfo f hf, ← OMap.mem_keys, h.frame_key]
        constructor
        · rintro ⟨a, ha, hfa⟩; exact ⟨a, by simp [ha], hfa⟩
        · rintro ⟨a, ha, hfa⟩
          rcases List.mem_append.1 ha with ha | ha
          · exact ⟨a, ha, hfa⟩
          · simp at ha; subst ha; exact absurd hfa.symm hf
    · intro f r hr
      simp only at hr
      rw [positions_snoc, filter_snoc, List.map_append, List.map_append]
      by_cases hf : f = o.frame
      · subst hf
        obtain ⟨r', hr', h1, h2, h3, _⟩ := hfr
        rw [hr'] at hr; simp at hr; subst hr
        simp [byFrame] at *
        exact ⟨h1, h2, h3⟩
      · have hne : byFrame f (⟨o, path⟩ : Insertion P Path) = false := by
          simp [byFrame]; exact fun e => hf e.symm
        rw [hfo f hf] at hr
        obtain ⟨h1, h2, h3⟩ := h.frame f r hr
        simp [hne, h1, h2, h3]
    · intro f r hr
      simp only at hr
      by_cases hf : f = o.frame
      · subst hf
        obtain ⟨r', hr', _, _, _, h4, h5⟩ := hfr
        rw [hr'] at hr; simp at hr; subst hr
        refine ⟨h4, ?_⟩
        intro c
        rw [h5 c, filter_snoc]
        by_cases hcc : c = o.cam
        · subst hcc; simp [byCamFrame]
        · have : byCamFrame c o.frame (⟨o, path⟩ : Insertion P Path) = false := by
            simp [byCamFrame]; exact fun e => absurd e.symm hcc
          simp [this, hcc]
      · rw [hfo f hf] at hr
        obtain ⟨h4, h5⟩ := h.frame_paths f r hr
        refine ⟨h4, ?_⟩
        intro c
        have : byCamFrame c f (⟨o, path⟩ : Insertion P Path) = false := by
          simp [byCamFrame]; exact fun _ e => hf e.symm
        rw [h5 c, filter_snoc]; simp [this]
    · exact hcs
    · intro c f
      simp only
      by_cases hk : (c, f) = (o.cam, o.frame)
      · simp at hk; obtain ⟨rfl, rfl⟩ := hk
        obtain ⟨r, hr, _⟩ := hcr
        constructor
        · intro _; exact ⟨⟨o, path⟩, by simp, rfl, rfl⟩
        · intro _; exact OMap.mem_keys.2 ⟨r, hr⟩
      · rw [OMap.mem_keys, hco _ hk, ← OMap.mem_keys, h.camObs_key]
        constructor
        · rintro ⟨a, ha, hfa⟩; exact ⟨a, by simp [ha], hfa⟩
        · rintro ⟨a, ha, hfa⟩
          rcases List.mem_append.1 ha with ha | ha
          · exact ⟨a, ha, hfa⟩
          · simp at ha; subst ha
            exact absurd (by rw [← hfa.1, ← hfa.2]) hk
    · intro c f r hr
      simp only at hr
      rw [positions_snoc, filter_snoc, List.map_append]
      by_cases hk : (c, f) = (o.cam, o.frame)
      · simp at hk; obtain ⟨rfl, rfl⟩ := hk
        obtain ⟨r', hr', h1, h2, h3⟩ := hcr
        rw [hr'] at hr; simp at hr; subst hr
        simp [byCamFrame] at *
        exact ⟨h1, h2, h3⟩
      · have hne : byCamFrame c f (⟨o, path⟩ : Insertion P Path) = false := by
          simp only [byCamFrame, Bool.and_eq_false_iff, beq_eq_false_iff_ne]
          by_contra hcon
          rw [not_or] at hcon
          simp only [ne_eq, not_not] at hcon
          exact hk (by rw [hcon.1, hcon.2])
        rw [hco _ hk] at hr
        obtain ⟨h1, h2, h3⟩ := h.camObs c f r hr
        simp [hne, h1, h2, h3]
  -- camera observation part: the table itself
  have hcoS := fun v => OMap.sorted_set s.camObs (o.cam, o.frame) v h.camObs_sorted
  have hcoG := fun v k => OMap.get?_set s.camObs (o.cam, o.frame) v k h.camObs_sorted
  have hfrS := fun v => OMap.sorted_set s.frames o.frame v h.frames_sorted
  have hfrG := fun v k => OMap.get?_set s.frames o.frame v k h.frames_sorted
  unfold insertNewBoard
  simp only [hc0, hb0]
  -- whether (cam, frame) is known decides whether cam is already listed in the frame
  have hcams_mem : o.cam ∈ firstOccs ((l.filter (byFrame o.frame)).map (·.obs.cam)) ↔
      ∃ co, OMap.get? s.camObs (o.cam, o.frame) = some co := by
    rw [mem_firstOccs, ← OMap.mem_keys, h.camObs_key]
    simp only [List.mem_map, List.mem_filter, byFrame, beq_iff_eq]
    constructor
    · rintro ⟨a, ⟨h1, h2⟩, h3⟩; exact ⟨a, h1, h3, h2⟩
    · rintro ⟨a, h1, h3, h2⟩; exact ⟨a, ⟨h1, h2⟩, h3⟩
  cases hfr : OMap.get? s.frames o.frame with
  | some fr =>
    obtain ⟨f1, f2, f3⟩ := h.frame _ _ hfr
    obtain ⟨p1, p2⟩ := h.frame_paths _ _ hfr
    have hknown : ¬ ∀ y ∈ l, byFrame o.frame y = false := by
      intro hall
      have : o.frame ∈ OMap.keys s.frames := OMap.mem_keys.2 ⟨fr, hfr⟩
      obtain ⟨a, ha, hfa⟩ := (h.frame_key _).1 this
      have := hall a ha
      simp [byFrame, hfa] at this
    have cfr : ∀ f, (f ∈ OMap.keys c0.frames ↔ f ∈ OMap.keys c0.frames ∨
        ((∀ y ∈ l, byFrame f y = false) ∧ f = o.frame)) := by
      intro f
      constructor
      · exact Or.inl
      · rintro (h | ⟨h, rfl⟩)
        · exact h
        · exact absurd h hknown
    have bfr : ∀ f, (f ∈ OMap.keys b0.frames ↔ f ∈ OMap.keys b0.frames ∨
        ((∀ y ∈ l, byFrame f y = false) ∧ f = o.frame)) := by
      intro f
      constructor
      · exact Or.inl
      · rintro (h | ⟨h, rfl⟩)
        · exact h
        · exact absurd h hknown
    have hpath : ∀ c, OMap.get? (OMap.set fr.paths o.cam path) c = if c = o.cam then some path else
          ((l.filter (byCamFrame c o.frame)).getLast?).map (·.path) := by
      intro c
      rw [OMap.get?_set _ _ _ _ p1]
      split
      · rfl
      · exact p2 c
    cases hco : OMap.get? s.camObs (o.cam, o.frame) with
    | some co =>
      obtain ⟨k1, k2, k3⟩ := h.camObs _ _ _ hco
      have hin := hcams_mem.2 ⟨co, hco⟩
      refine ⟨_, rfl, main _ _ _ _ ?_ ?_ ?_ ?_ ?_ ?_ ?_ ?_ ?_ ?_ ?_⟩
      · simp [CamRec.insertBoard, hlen]
      · simp [CamRec.insertBoard]
      · simp [BoardRec.insertBoard, hlen]
      · exact ⟨hcf.1, cfr⟩
      · exact ⟨hbf.1, bfr⟩
      · exact hfrS _
      · intro f hf; rw [hfrG]; simp [hf]
      · refine ⟨_, by rw [hfrG, if_pos rfl], ?_, ?_, ?_, ?_, ?_⟩
        · simp [FrameRec.insertBoard, f1, hlen]
        · simp [FrameRec.insertBoard, f2]
        · simp only [FrameRec.insertBoard, f3]; rw [firstOccs_snoc, if_pos hin]
        · exact OMap.sorted_set _ _ _ p1
        · exact hpath
      · exact hcoS _
      · intro k hk; rw [hcoG]; simp [hk]
      · refine ⟨_, by rw [hcoG, if_pos rfl], ?_, ?_, ?_⟩
        · simp [CamObsRec.insertBoard, k1, hlen]
        · simp [CamObsRec.insertBoard, k2]
        · rfl
    | none =>
      have hnin : o.cam ∉ firstOccs ((l.filter (byFrame o.frame)).map (·.obs.cam)) := by
        rw [hcams_mem, hco]; simp
      have hnk : (o.cam, o.frame) ∉ OMap.keys s.camObs := OMap.get?_eq_none.1 hco
      have hcof : l.filter (byCamFrame o.cam o.frame) = [] := by
        rw [List.filter_eq_nil_iff]
        intro a ha hbc
        simp [byCamFrame] at hbc
        exact hnk ((h.camObs_key _ _).2 ⟨a, ha, hbc⟩)
      have hcop : positions (byCamFrame o.cam o.frame) l = [] := by
        unfold positions
        rw [List.filter_eq_nil_iff]
        intro i hi hbc
        cases hli : l[i]? with
        | none => rw [hli] at hbc; simp at hbc
        | some a =>
          rw [hli] at hbc
          have : a ∈ l.filter (byCamFrame o.cam o.frame) := by
            simp only [List.mem_filter]; exact ⟨List.mem_of_getElem? hli, by simpa using hbc⟩
          rw [hcof] at this; simp at this
      simp only [hfrG, if_true]
      refine ⟨_, rfl, main _ _ _ _ ?_ ?_ ?_ ?_ ?_ ?_ ?_ ?_ ?_ ?_ ?_⟩
      · simp [CamRec.insertBoard, hlen]
      · simp [CamRec.insertBoard]
      · simp [BoardRec.insertBoard, hlen]
      · exact ⟨hcf.1, cfr⟩
      · exact ⟨hbf.1, bfr⟩
      · exact OMap.sorted_set _ _ _ (hfrS _)
      · intro f hf; rw [OMap.get?_set _ _ _ _ (hfrS _), hfrG]; simp [hf]
      · refine ⟨_, by rw [OMap.get?_set _ _ _ _ (hfrS _), if_pos rfl], ?_, ?_, ?_, ?_, ?_⟩
        · simp [FrameRec.insertBoard, FrameRec.insertCamObs, f1, hlen]
        · simp [FrameRec.insertBoard, FrameRec.insertCamObs, f2]
        · simp only [FrameRec.insertBoard, FrameRec.insertCamObs, f3]
          rw [firstOccs_snoc, if_neg hnin]
        · exact OMap.sorted_set _ _ _ p1
        · exact hpath
      · exact hcoS _
      · intro k hk; rw [hcoG]; simp [hk]
      · refine ⟨_, by rw [hcoG, if_pos rfl], ?_, ?_, ?_⟩
        · simp [CamObsRec.insertBoard, hlen, hcop]
        · simp [CamObsRec.insertBoard, hcof]
        · rfl
  | none =>
    have hnf : o.frame ∉ OMap.keys s.frames := OMap.get?_eq_none.1 hfr
    have hall : ∀ y ∈ l, byFrame o.frame y = false := by
      intro y hy
      simp only [byFrame, beq_eq_false_iff_ne]
      intro e
      exact hnf ((h.frame_key _).2 ⟨y, hy, e⟩)
    have hff : l.filter (byFrame o.frame) = [] := by
      rw [List.filter_eq_nil_iff]; intro a ha; rw [hall a ha]; simp
    have hfp : positions (byFrame o.frame) l = [] := by
      unfold positions
      rw [List.filter_eq_nil_iff]
      intro i hi hbc
      cases hli : l[i]? with
      | none => rw [hli] at hbc; simp at hbc
      | some a => rw [hli] at hbc; simp [hall a (List.mem_of_getElem? hli)] at hbc
    have hcof' : ∀ c, l.filter (byCamFrame c o.frame) = [] := by
      intro c
      rw [List.filter_eq_nil_iff]
      intro a ha hbc
      simp [byCamFrame] at hbc
      have := hall a ha
      simp [byFrame, hbc.2] at this
    have hcop : positions (byCamFrame o.cam o.frame) l = [] := by
      unfold positions
      rw [List.filter_eq_nil_iff]
      intro i hi hbc
      cases hli : l[i]? with
      | none => rw [hli] at hbc; simp at hbc
      | some a =>
        rw [hli] at hbc
        have : a ∈ l.filter (byCamFrame o.cam o.frame) := by
          simp only [List.mem_filter]; exact ⟨List.mem_of_getElem? hli, by simpa using hbc⟩
        rw [hcof'] at this; simp at this
    have hco : OMap.get? s.camObs (o.cam, o.frame) = none := by
      rw [OMap.get?_eq_none, h.camObs_key]
      rintro ⟨a, ha, _, hf⟩
      exact hnf ((h.frame_key _).2 ⟨a, ha, hf⟩)
    have hnil : OMap.Sorted ([] : OMap Nat Path) := List.Pairwise.nil
    simp only [hco, hfrG, if_true]
    refine ⟨_, rfl, main _ _ _ _ ?_ ?_ ?_ ?_ ?_ ?_ ?_ ?_ ?_ ?_ ?_⟩
    · simp [CamRec.insertBoard, CamRec.insertFrame, hlen]
    · simp [CamRec.insertBoard, CamRec.insertFrame]
    · simp [BoardRec.insertBoard, BoardRec.insertFrame, hlen]
    · refine ⟨OMap.sorted_set _ _ _ hcf.1, ?_⟩
      intro f
      rw [show (CamRec.insertFrame (CamRec.insertBoard c0 s.obs.length o.board) o.frame).frames
        = OMap.set c0.frames o.frame () from rfl, OMap.mem_keys_set hcf.1]
      constructor
      · rintro (rfl | h)
        · exact Or.inr ⟨hall, rfl⟩
        · exact Or.inl h
      · rintro (h | ⟨_, h⟩)
        · exact Or.inr h
        · exact Or.inl h
    · refine ⟨OMap.sorted_set _ _ _ hbf.1, ?_⟩
      intro f
      rw [show (BoardRec.insertFrame (BoardRec.insertBoard b0 s.obs.length) o.frame).frames
        = OMap.set b0.frames o.frame () from rfl, OMap.mem_keys_set hbf.1]
      constructor
      · rintro (rfl | h)
        · exact Or.inr ⟨hall, rfl⟩
        · exact Or.inl h
      · rintro (h | ⟨_, h⟩)
        · exact Or.inr h
        · exact Or.inl h
    · exact OMap.sorted_set _ _ _ (hfrS _)
    · intro f hf; rw [OMap.get?_set _ _ _ _ (hfrS _), hfrG]; simp [hf]
    · refine ⟨_, by rw [OMap.get?_set _ _ _ _ (hfrS _), if_pos rfl], ?_, ?_, ?_, ?_, ?_⟩
      · simp [FrameRec.insertBoard, FrameRec.insertCamObs, hfp, hlen]
      · simp [FrameRec.insertBoard, FrameRec.insertCamObs, hff]
      · simp [FrameRec.insertBoard, FrameRec.insertCamObs, hff, firstOccs]
      · exact OMap.sorted_set _ _ _ hnil
      · intro c
        simp only [FrameRec.insertBoard, FrameRec.insertCamObs]
        rw [OMap.get?_set _ _ _ _ hnil]
        simp [hcof']
    · exact hcoS _
    · intro k hk; rw [hcoG]; simp [hk]
    · refine ⟨_, by rw [hcoG, if_pos rfl], ?_, ?_, ?_⟩
      · simp [CamObsRec.insertBoard, hlen, hcop]
      · simp [CamObsRec.insertBoard, hcof']
      · rfl

/-- All insertion sequences with known cameras and boards. -/
theorem run_describes (nCam nBoard : Nat) (l : List (Insertion P Path))
    (hl : ∀ a ∈ l, a.obs.cam < nCam ∧ a.obs.board < nBoard) :
    ∃ s, run nCam nBoard l = .ok s ∧ Describes nCam nBoard l s := by
  induction l using List.reverseRecOn with
  | nil => exact ⟨_, rfl, describes_init nCam nBoard⟩
  | append_singleton l a ih =>
    obtain ⟨s, h1, h2⟩ := ih (fun x hx => hl x (by simp [hx]))
    obtain ⟨s', h3, h4⟩ := describes_insert h2 a (hl a (by simp)).1 (hl a (by simp)).2
    refine ⟨s', ?_, h4⟩
    unfold run at h1 ⊢
    rw [Outcome.foldlM_append, h1]
    simp [h3]

end Verif.Store
