import Verif.Lemmas.Store
import Verif.Model.Keypoints
import Verif.Model.Detection
import Mathlib.Data.List.Perm.Basic
import Mathlib.Data.List.Count
import Mathlib.Data.List.Basic

set_option linter.unusedSectionVars false
namespace Verif.Keypoints
open Spec.Store Store

variable {P Path : Type} [Inhabited Path]

/-- Selector of one (camera, frame, board). -/
def byAll (c f b : Nat) (a : Insertion P Path) : Bool :=
  a.obs.cam == c && a.obs.frame == f && a.obs.board == b

/-- The path of the last insertion for this camera and frame. -/
def lastPath (l : List (Insertion P Path)) (c f : Nat) : Option Path :=
  ((l.filter (byCamFrame c f)).getLast?).map (·.path)

/-- What the keypoint file retains of an insertion list. -/
structure SameSave (l l' : List (Insertion P Path)) : Prop where
  obs : ∀ c f b, (l.filter (byAll c f b)).map (·.obs) = (l'.filter (byAll c f b)).map (·.obs)
  path : ∀ c f, lastPath l c f = lastPath l' c f

theorem SameSave.symm {l l' : List (Insertion P Path)} (h : SameSave l l') : SameSave l' l :=
  ⟨fun c f b => (h.obs c f b).symm, fun c f => (h.path c f).symm⟩

theorem SameSave.mem {l l' : List (Insertion P Path)} (h : SameSave l l') {a : Insertion P Path}
    (ha : a ∈ l) : ∃ a' ∈ l', a'.obs = a.obs := by
  have : a.obs ∈ (l.filter (byAll a.obs.cam a.obs.frame a.obs.board)).map (·.obs) :=
    List.mem_map.2 ⟨a, List.mem_filter.2 ⟨ha, by simp [byAll]⟩, rfl⟩
  rw [h.obs] at this
  obtain ⟨a', h1, h2⟩ := List.mem_map.1 this
  exact ⟨a', (List.mem_filter.1 h1).1, h2⟩

theorem SameSave.perm {l l' : List (Insertion P Path)} (h : SameSave l l') :
    (l.map (·.obs)).Perm (l'.map (·.obs)) := by
  classical
  rw [List.perm_iff_count]
  intro o
  have key : ∀ l : List (Insertion P Path), (l.map (·.obs)).count o =
      ((l.filter (byAll o.cam o.frame o.board)).map (·.obs)).count o := by
    intro l
    induction l with
    | nil => rfl
    | cons a l ih =>
      by_cases ha : a.obs = o
      · have : byAll o.cam o.frame o.board a = true := by simp [byAll, ha]
        simp [this, ha, ih]
      · by_cases hb : byAll o.cam o.frame o.board a
        · simp [hb, ha, ih]
        · simp [hb, ha, ih]
  rw [key l, key l', h.obs]

/-- The rows written for a camera, read off the insertion list. -/
theorem rows_eq {nCam nBoard : Nat} {l : List (Insertion P Path)} {s : Store P Path}
    (h : Describes nCam nBoard l s) (c : Nat) :
    rows s c = (OMap.keys s.frames).flatMap fun f => (List.range nBoard).flatMap fun b =>
      ((l.filter (byAll c f b)).map (·.obs)).map fun o =>
        ⟨f, (lastPath l c f).getD default, b, o.pts, o.ids⟩ := by
  unfold rows OMap.keys
  rw [List.flatMap_map, h.boards_length]
  apply List.flatMap_congr
  rintro ⟨f, fr⟩ hf
  have hg : OMap.get? s.frames f = some fr := (OMap.get?_eq_some h.frames_sorted).2 hf
  apply List.flatMap_congr
  intro b _
  rw [h.obs, List.filter_map]
  simp only [(h.frame_paths f fr hg).2 c, lastPath]
  congr 1

theorem keys_congr {nCam nBoard : Nat} {l l' : List (Insertion P Path)} {s s' : Store P Path}
    (h : Describes nCam nBoard l s) (h' : Describes nCam nBoard l' s') (hS : SameSave l l') :
    OMap.keys s.frames = OMap.keys s'.frames := by
  apply OMap.sorted_keys_ext (OMap.keys_sorted h.frames_sorted) (OMap.keys_sorted h'.frames_sorted)
  intro f
  rw [h.frame_key, h'.frame_key]
  constructor
  · rintro ⟨a, ha, hf⟩
    obtain ⟨a', ha', e⟩ := hS.mem ha
    exact ⟨a', ha', by rw [e]; exact hf⟩
  · rintro ⟨a, ha, hf⟩
    obtain ⟨a', ha', e⟩ := hS.symm.mem ha
    exact ⟨a', ha', by rw [e]; exact hf⟩

theorem rows_congr {nCam nBoard : Nat} {l l' : List (Insertion P Path)} {s s' : Store P Path}
    (h : Describes nCam nBoard l s) (h' : Describes nCam nBoard l' s') (hS : SameSave l l') (c : Nat) :
    rows s c = rows s' c := by
  rw [rows_eq h, rows_eq h', keys_congr h h' hS]
  apply List.flatMap_congr
  intro f _
  apply List.flatMap_congr
  intro b _
  rw [hS.obs, hS.path]

theorem save_congr {nCam nBoard : Nat} {l l' : List (Insertion P Path)} {s s' : Store P Path}
    (h : Describes nCam nBoard l s) (h' : Describes nCam nBoard l' s') (hS : SameSave l l')
    (sz : List (Option (Nat × Nat))) :
    save ⟨s, sz⟩ = save ⟨s', sz⟩ := by
  have e : saveCam ⟨s, sz⟩ = saveCam ⟨s', sz⟩ := by
    funext m c
    unfold saveCam
    rw [rows_congr h h' hS]
  unfold save
  rw [e]
  simp only [h.cams_length, h'.cams_length]

/-! ### Save succeeds when all sizes are known -/

theorem foldlM_append_map {α β : Type} (F : List β → α → Outcome (List β)) (f : α → β) (l : List α)
    (hl : ∀ m, ∀ a ∈ l, F m a = .ok (m ++ [f a])) (m : List β) :
    Outcome.foldlM F m l = .ok (m ++ l.map f) := by
  induction l generalizing m with
  | nil => simp
  | cons a l ih =>
    rw [Outcome.foldlM_cons, hl m a (by simp)]
    simp only [Outcome.bind_ok]
    rw [ih (fun m a ha => hl m a (by simp [ha]))]
    simp

theorem save_ok (k : KStore P Path) (sz : Nat → Nat × Nat)
    (hsz : ∀ c < k.store.cams.length, (k.sizes[c]?).join = some (sz c)) :
    save k = .ok { nbCamera := k.store.cams.length, cams := ((List.range k.store.cams.length).map
      (fun c => (c, camFile (sz c) (rows k.store c)))) } := by
  unfold save
  rw [foldlM_append_map (β := Nat × CamFile P Path)
    (f := fun c => (c, camFile (sz c) (rows k.store c)))]
  · simp
  · intro m c hc
    unfold saveCam
    rw [hsz c (by simpa using hc)]

/-! ### Load -/

/-- The insertion made from one line. -/
def ofRow (c : Nat) (r : Row P Path) : Insertion P Path := ⟨⟨c, r.frame, r.board, r.pts, r.ids⟩, r.path⟩

theorem foldlM_range {σ α : Type} (f : σ → α → Outcome σ) (g : σ → Nat → Outcome σ) (l : List α)
    (h : ∀ s i a, l[i]? = some a → g s i = f s a) (s : σ) :
    Outcome.foldlM g s (List.range l.length) = Outcome.foldlM f s l := by
  induction l using List.reverseRecOn with
  | nil => rfl
  | append_singleton l a ih =>
    rw [List.length_append, List.length_singleton, List.range_succ, Outcome.foldlM_append,
      Outcome.foldlM_append, ih]
    · cases Outcome.foldlM f s l with
      | ok t =>
        simp only [Outcome.bind_ok, Outcome.foldlM_cons, Outcome.foldlM_nil]
        rw [h t l.length a (by simp)]
      | _ => rfl
    · intro s i a' ha
      refine h s i a' ?_
      rw [List.getElem?_append_left, ha]
      by_contra hh
      rw [List.getElem?_eq_none (by omega)] at ha
      cases ha

theorem insertRow_fold (c : Nat) (sz : Nat × Nat) (r : List (Row P Path)) (s : Store P Path) :
    Outcome.foldlM (insertRow c (camFile sz r)) s (List.range (camFile sz r).frameIdxs.length)
      = Outcome.foldlM insertNewBoard s (r.map (ofRow c)) := by
  have e : (camFile sz r).frameIdxs.length = (r.map (ofRow c)).length := by simp [camFile]
  rw [e]
  apply foldlM_range
  intro s i a ha
  rw [List.getElem?_map] at ha
  obtain ⟨x, hx, rfl⟩ := Option.map_eq_some_iff.1 ha
  simp [insertRow, camFile, Outcome.idx, hx, ofRow]

theorem wellFormed_camFile (sz : Nat × Nat) (r : List (Row P Path)) :
    wellFormed (camFile sz r) = decide (r ≠ []) := by
  cases r <;> simp [wellFormed, camFile]

theorem get?_map_range {V : Type} (g : Nat → V) (n c : Nat) (hc : c < n) :
    OMap.get? ((List.range n).map fun c => (c, g c) : OMap Nat V) c = some (g c) := by
  rw [OMap.get?_eq_some]
  · exact List.mem_map.2 ⟨c, by simpa using hc, rfl⟩
  · unfold OMap.Sorted
    rw [List.pairwise_map]
    exact List.pairwise_lt_range.imp (fun h => by simpa [Key.lt] using h)

/-- Loading a saved file runs the insertions of its lines, camera by camera. -/
theorem load_saved (asserts : Bool) (nCam nBoard : Nat) (g : Nat → List (Row P Path))
    (sz : Nat → Nat × Nat) (hne : asserts = true → ∀ c < nCam, g c ≠ [])
    (hr : ∀ c < nCam, ∀ r ∈ g c, r.board < nBoard) :
    ∃ s, run nCam nBoard ((List.range nCam).flatMap fun c => (g c).map (ofRow c)) = .ok s ∧
      load asserts nCam nBoard ⟨nCam, (List.range nCam).map fun c => (c, camFile (sz c) (g c))⟩ =
        .ok ⟨s, (List.range nCam).map fun c => some (sz c)⟩ := by
  have hall : ∀ m ≤ nCam, ∃ s,
      run nCam nBoard ((List.range m).flatMap fun c => (g c).map (ofRow c)) = .ok s := by
    intro m hm
    have := run_describes nCam nBoard ((List.range m).flatMap fun c => (g c).map (ofRow c)) (by
      intro a ha
      obtain ⟨c, hc, ha⟩ := List.mem_flatMap.1 ha
      obtain ⟨r, hr', rfl⟩ := List.mem_map.1 ha
      have hc : c < m := by simpa using hc
      exact ⟨by simp only [ofRow]; omega, hr c (by omega) r hr'⟩)
    obtain ⟨s, h, _⟩ := this
    exact ⟨s, h⟩
  unfold load
  have key : ∀ m ≤ nCam, ∃ s,
      run nCam nBoard ((List.range m).flatMap fun c => (g c).map (ofRow c)) = .ok s ∧
      Outcome.foldlM (loadCam asserts ⟨nCam, (List.range nCam).map fun c => (c, camFile (sz c) (g c))⟩)
        { store := Store.init nCam nBoard, sizes := List.replicate nCam none } (List.range m) =
      .ok ⟨s, ((List.range m).map fun c => some (sz c)) ++ List.replicate (nCam - m) none⟩ := by
    intro m
    induction m with
    | zero =>
      intro _
      exact ⟨_, rfl, by simp⟩
    | succ m ih =>
      intro hm
      obtain ⟨s, h1, h2⟩ := ih (by omega)
      obtain ⟨s', h3⟩ := hall (m + 1) hm
      refine ⟨s', h3, ?_⟩
      rw [List.range_succ, Outcome.foldlM_append, h2, Outcome.bind_ok, Outcome.foldlM_cons]
      have h4 : Outcome.foldlM insertNewBoard s ((g m).map (ofRow m)) = .ok s' := by
        have := h3
        rw [List.range_succ, List.flatMap_append] at this
        unfold run at this h1
        rw [Outcome.foldlM_append, h1, Outcome.bind_ok] at this
        simpa using this
      unfold loadCam
      rw [get?_map_range _ _ _ (by omega), Option.getD_some]
      dsimp only
      rw [wellFormed_camFile]
      have hcond : (asserts && !decide (g m ≠ [])) = false := by
        cases asserts
        · rfl
        · simp [hne rfl m (by omega)]
      rw [hcond]
      simp only [Bool.false_eq_true, if_false]
      rw [insertRow_fold, h4]
      simp only [Outcome.bind_ok, Outcome.pure_eq, Outcome.foldlM_nil]
      have hsplit : nCam - m = (nCam - (m + 1)) + 1 := by omega
      congr 2
      rw [hsplit, List.replicate_succ]
      rw [List.set_append_right _ _ (by simp)]
      simp [camFile]
  obtain ⟨s, h1, h2⟩ := key nCam (le_refl _)
  exact ⟨s, h1, by rw [h2]; simp⟩

theorem flatMap_single {α β : Type} [DecidableEq α] (L : List α) (hL : L.Nodup) (x : α) (g : α → List β)
    (hg : ∀ y ∈ L, y ≠ x → g y = []) : L.flatMap g = if x ∈ L then g x else [] := by
  induction L with
  | nil => rfl
  | cons y L ih =>
    rw [List.flatMap_cons, ih (List.nodup_cons.1 hL).2 (fun z hz => hg z (by simp [hz]))]
    by_cases h : y = x
    · subst h
      simp [(List.nodup_cons.1 hL).1]
    · rw [hg y (by simp) h]
      simp [Ne.symm h]

/-- The insertions of the lines written for a described store have the same saved content. -/
theorem sameSave_rows {nCam nBoard : Nat} {l : List (Insertion P Path)} {s : Store P Path}
    (hl : ∀ a ∈ l, a.obs.cam < nCam ∧ a.obs.board < nBoard)
    (h : Describes nCam nBoard l s) :
    SameSave l ((List.range nCam).flatMap fun c => (rows s c).map (ofRow c)) := by
  have hrow : ∀ c, (rows s c).map (ofRow c) = (OMap.keys s.frames).flatMap fun f =>
      (List.range nBoard).flatMap fun b => (l.filter (byAll c f b)).map fun a =>
        (⟨a.obs, (lastPath l c f).getD default⟩ : Insertion P Path) := by
    intro c
    rw [rows_eq h, List.map_flatMap]
    apply List.flatMap_congr
    intro f _
    rw [List.map_flatMap]
    apply List.flatMap_congr
    intro b _
    rw [List.map_map, List.map_map]
    apply List.map_congr_left
    intro a ha
    have hb := (List.mem_filter.1 ha).2
    simp only [byAll, Bool.and_eq_true, beq_iff_eq] at hb
    obtain ⟨⟨rfl, rfl⟩, rfl⟩ := hb
    rfl
  have hkey : (OMap.keys s.frames).Nodup := OMap.keys_nodup h.frames_sorted
  constructor
  · intro c f b
    rw [List.filter_flatMap, flatMap_single _ List.nodup_range c]
    · by_cases hc : c < nCam
      · rw [if_pos (by simpa using hc), hrow, List.filter_flatMap, flatMap_single _ hkey f]
        · by_cases hf : f ∈ OMap.keys s.frames
          · rw [if_pos hf, List.filter_flatMap, flatMap_single _ List.nodup_range b]
            · by_cases hb : b < nBoard
              · rw [if_pos (by simpa using hb), List.filter_map, List.map_map, List.filter_filter]
                congr 1
                apply List.filter_congr
                intro a _
                simp [byAll]
              · rw [if_neg (by simpa using hb), List.map_nil, List.map_eq_nil_iff, List.filter_eq_nil_iff]
                intro a ha hb'
                simp only [byAll, Bool.and_eq_true, beq_iff_eq] at hb'
                have := (hl a ha).2
                omega
            · intro b' _ hb'
              rw [List.filter_map, List.map_eq_nil_iff, List.filter_eq_nil_iff]
              intro a ha
              have := (List.mem_filter.1 ha).2
              simp only [byAll, Bool.and_eq_true, beq_iff_eq] at this
              simp [byAll, this.2, hb']
          · rw [if_neg hf, List.map_nil, List.map_eq_nil_iff, List.filter_eq_nil_iff]
            intro a ha hb'
            simp only [byAll, Bool.and_eq_true, beq_iff_eq] at hb'
            exact hf ((h.frame_key f).2 ⟨a, ha, hb'.1.2⟩)
        · intro f' _ hf'
          rw [List.filter_eq_nil_iff]
          intro a ha
          obtain ⟨b', _, ha⟩ := List.mem_flatMap.1 ha
          obtain ⟨a', ha', rfl⟩ := List.mem_map.1 ha
          have := (List.mem_filter.1 ha').2
          simp only [byAll, Bool.and_eq_true, beq_iff_eq] at this
          simp [byAll, this.1.2, hf']
      · rw [if_neg (by simpa using hc), List.map_nil, List.map_eq_nil_iff, List.filter_eq_nil_iff]
        intro a ha hb'
        simp only [byAll, Bool.and_eq_true, beq_iff_eq] at hb'
        have := (hl a ha).1
        omega
    · intro c' _ hc'
      rw [List.filter_eq_nil_iff]
      intro a ha
      obtain ⟨r, _, rfl⟩ := List.mem_map.1 ha
      simp [byAll, ofRow, hc']
  · intro c f
    have e : ((List.range nCam).flatMap fun c => (rows s c).map (ofRow c)).filter (byCamFrame c f) =
        if c ∈ List.range nCam then (if f ∈ OMap.keys s.frames then
          (List.range nBoard).flatMap fun b => (l.filter (byAll c f b)).map fun a =>
            (⟨a.obs, (lastPath l c f).getD default⟩ : Insertion P Path) else []) else [] := by
      rw [List.filter_flatMap, flatMap_single _ List.nodup_range c]
      · congr 1
        rw [hrow, List.filter_flatMap, flatMap_single _ hkey f]
        · congr 1
          rw [List.filter_eq_self]
          intro a ha
          obtain ⟨b', _, ha⟩ := List.mem_flatMap.1 ha
          obtain ⟨a', ha', rfl⟩ := List.mem_map.1 ha
          have := (List.mem_filter.1 ha').2
          simp only [byAll, Bool.and_eq_true, beq_iff_eq] at this
          simp [byCamFrame, this]
        · intro f' _ hf'
          rw [List.filter_eq_nil_iff]
          intro a ha
          obtain ⟨b', _, ha⟩ := List.mem_flatMap.1 ha
          obtain ⟨a', ha', rfl⟩ := List.mem_map.1 ha
          have := (List.mem_filter.1 ha').2
          simp only [byAll, Bool.and_eq_true, beq_iff_eq] at this
          simp [byCamFrame, this.1.2, hf']
      · intro c' _ hc'
        rw [List.filter_eq_nil_iff]
        intro a ha
        obtain ⟨r, _, rfl⟩ := List.mem_map.1 ha
        simp [byCamFrame, ofRow, hc']
    have hcase : ∀ L : List (Insertion P Path), (∀ a ∈ L, a.path = (lastPath l c f).getD default) →
        (L = [] ↔ l.filter (byCamFrame c f) = []) → lastPath l c f = (L.getLast?).map (·.path) := by
      intro L h1 h2
      by_cases hL : L = []
      · subst hL
        simp [lastPath, h2.1 rfl]
      · have h3 : l.filter (byCamFrame c f) ≠ [] := fun e => hL (h2.2 e)
        obtain ⟨x, hx⟩ : ∃ x, lastPath l c f = some x :=
          ⟨_, by unfold lastPath; rw [List.getLast?_eq_some_getLast h3]; rfl⟩
        rw [List.getLast?_eq_some_getLast hL, Option.map_some, h1 _ (List.getLast_mem hL), hx]
        rfl
    unfold lastPath at *
    rw [e]
    apply hcase
    · intro a ha
      split at ha
      · split at ha
        · obtain ⟨b', _, ha⟩ := List.mem_flatMap.1 ha
          obtain ⟨a', _, rfl⟩ := List.mem_map.1 ha
          rfl
        · cases ha
      · cases ha
    · rw [← e]
      rw [List.filter_eq_nil_iff, List.filter_eq_nil_iff]
      constructor
      · intro H a ha hb
        simp only [byCamFrame, Bool.and_eq_true, beq_iff_eq] at hb
        refine H (⟨a.obs, (lastPath l c f).getD default⟩) ?_ (by simp [byCamFrame, hb])
        rw [List.mem_flatMap]
        refine ⟨c, by simpa [← hb.1] using (hl a ha).1, ?_⟩
        rw [hrow, List.mem_flatMap]
        refine ⟨f, (h.frame_key f).2 ⟨a, ha, hb.2⟩, List.mem_flatMap.2
          ⟨a.obs.board, by simpa using (hl a ha).2, ?_⟩⟩
        exact List.mem_map.2 ⟨a, List.mem_filter.2 ⟨ha, by simp [byAll, hb]⟩, rfl⟩
      · intro H a ha hb
        obtain ⟨c', _, ha⟩ := List.mem_flatMap.1 ha
        rw [hrow] at ha
        obtain ⟨f', _, ha⟩ := List.mem_flatMap.1 ha
        obtain ⟨b', _, ha⟩ := List.mem_flatMap.1 ha
        obtain ⟨a', ha', rfl⟩ := List.mem_map.1 ha
        exact H a' (List.mem_filter.1 ha').1 (by simpa [byCamFrame] using hb)

end Verif.Keypoints
