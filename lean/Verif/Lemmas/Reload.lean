import Verif.Lemmas.Schedule
import Verif.Props.Detection

/-! The order of the observations read back from a keypoint file. -/
set_option linter.unusedSectionVars false
namespace Verif.Lemmas.Reload
open Verif Verif.Store Verif.Spec.Store Verif.Detection Verif.Keypoints
open Verif.Spec.Schedule Verif.Props.Detection

variable {K P Path : Type} [Field K] [LinearOrder K] [Inhabited Path]

theorem filter_lt_split {α : Type} (key : α → Nat) : ∀ (n : Nat) (l : List α),
    l.Pairwise (fun a b => key a ≤ key b) →
    l.filter (fun a => decide (key a < n + 1)) =
      l.filter (fun a => decide (key a < n)) ++ l.filter (fun a => key a == n)
  | _, [], _ => rfl
  | n, a :: l, h => by
    have hl := filter_lt_split key n l (List.Pairwise.of_cons h)
    have ha := (List.pairwise_cons.1 h).1
    rcases Nat.lt_trichotomy (key a) n with h1 | h1 | h1
    · rw [List.filter_cons_of_pos (by simp; omega), List.filter_cons_of_pos (by simp; omega),
        List.filter_cons_of_neg (by simp; omega), hl]
      rfl
    · rw [List.filter_cons_of_pos (by simp; omega), List.filter_cons_of_neg (by simp; omega),
        List.filter_cons_of_pos (by simp; omega), hl]
      have e : l.filter (fun a => decide (key a < n)) = [] := by
        rw [List.filter_eq_nil_iff]
        intro b hb
        have := ha b hb
        simp; omega
      rw [e]
      rfl
    · rw [List.filter_cons_of_neg (by simp; omega), List.filter_cons_of_neg (by simp; omega),
        List.filter_cons_of_neg (by simp; omega), hl]

/-- A sorted list is the concatenation of its classes. -/
theorem flatMap_classes {α : Type} (key : α → Nat) (n : Nat) (l : List α)
    (hs : l.Pairwise (fun a b => key a ≤ key b)) (hn : ∀ a ∈ l, key a < n) :
    ((List.range n).flatMap fun k => l.filter (fun a => key a == k)) = l := by
  have H : ∀ n, ((List.range n).flatMap fun k => l.filter (fun a => key a == k)) =
      l.filter (fun a => decide (key a < n)) := by
    intro n
    induction n with
    | zero => simp
    | succ n ih =>
      rw [List.range_succ, List.flatMap_append, ih, filter_lt_split key n l hs]
      simp
  rw [H n, List.filter_eq_self]
  intro a ha
  simpa using hn a ha

theorem sorted_classes {nCam nBoard : Nat} {l : List (Insertion P Path)}
    (hl : ∀ a ∈ l, a.obs.cam < nCam ∧ a.obs.board < nBoard) (hs : FrameSorted l) (f : Nat) :
    ((List.range nCam).flatMap fun c => (List.range nBoard).flatMap fun b =>
      l.filter (byAll c f b)) = l.filter (byFrame f) := by
  have h1 : (l.filter (byFrame f)).Pairwise (fun a b => a.obs.cam ≤ b.obs.cam) :=
    (hs f).imp fun h => by omega
  have hm : ∀ a ∈ l.filter (byFrame f), a.obs.cam < nCam ∧ a.obs.board < nBoard :=
    fun a ha => hl a (List.mem_filter.1 ha).1
  rw [← flatMap_classes (fun a : Insertion P Path => a.obs.cam) nCam _ h1 fun a ha => (hm a ha).1]
  apply List.flatMap_congr
  intro c _
  have h2 : ((l.filter (byFrame f)).filter (fun a => a.obs.cam == c)).Pairwise
      (fun a b => a.obs.board ≤ b.obs.board) := by
    have := (hs f).filter (fun a => a.obs.cam == c)
    refine this.imp_of_mem ?_
    intro a b ha hb hab
    have ha := (List.mem_filter.1 ha).2
    have hb := (List.mem_filter.1 hb).2
    simp only [beq_iff_eq] at ha hb
    omega
  rw [← flatMap_classes (fun a : Insertion P Path => a.obs.board) nBoard _ h2 fun a ha =>
    (hm a (List.mem_filter.1 ha).1).2]
  apply List.flatMap_congr
  intro b _
  rw [List.filter_filter, List.filter_filter]
  apply List.filter_congr
  intro a _
  unfold byAll byFrame
  cases a.obs.cam == c <;> cases a.obs.frame == f <;> cases a.obs.board == b <;> rfl

/-- The list read back from the file of a sorted store. -/
theorem reload_sameFrames {nCam nBoard : Nat} {l : List (Insertion P Path)} {s : Store P Path}
    (d : Describes nCam nBoard l s) (hl : ∀ a ∈ l, a.obs.cam < nCam ∧ a.obs.board < nBoard)
    (hs : FrameSorted l) :
    SameFrames ((List.range nCam).flatMap fun c => (rows s c).map (ofRow c)) l := by
  intro f
  have hrow : ∀ c, (((rows s c).map (ofRow c)).filter (byFrame f)).map (·.obs) =
      (List.range nBoard).flatMap fun b => (l.filter (byAll c f b)).map (·.obs) := by
    intro c
    have hr : (rows s c).map (ofRow c) = (OMap.keys s.frames).flatMap fun f =>
        (List.range nBoard).flatMap fun b => (l.filter (byAll c f b)).map fun a =>
          (⟨a.obs, (lastPath l c f).getD default⟩ : Insertion P Path) := by
      rw [rows_eq d, List.map_flatMap]
      apply List.flatMap_congr
      intro f _
      rw [List.map_flatMap]
      apply List.flatMap_congr
      intro b _
      rw [List.map_map, List.map_map]
      apply List.map_congr_left
      intro a ha
      have := (List.mem_filter.1 ha).2
      simp only [byAll, Bool.and_eq_true, beq_iff_eq] at this
      obtain ⟨⟨h1, h2⟩, h3⟩ := this
      simp only [Function.comp_apply, ofRow, ← h1, ← h2, ← h3]
    have hsel : ∀ f', (((List.range nBoard).flatMap fun b => (l.filter (byAll c f' b)).map fun a =>
          (⟨a.obs, (lastPath l c f').getD default⟩ : Insertion P Path)).filter (byFrame f)).map (·.obs) =
        if f' = f then (List.range nBoard).flatMap fun b => (l.filter (byAll c f b)).map (·.obs) else [] := by
      intro f'
      rw [List.filter_flatMap, List.map_flatMap]
      by_cases hf : f' = f
      · subst hf
        rw [if_pos rfl]
        apply List.flatMap_congr
        intro b _
        have hall : ∀ x ∈ (l.filter (byAll c f' b)).map (fun a =>
            (⟨a.obs, (lastPath l c f').getD default⟩ : Insertion P Path)), byFrame f' x = true := by
          intro x hx
          obtain ⟨a, ha, rfl⟩ := List.mem_map.1 hx
          have := (List.mem_filter.1 ha).2
          simp only [byAll, Bool.and_eq_true, beq_iff_eq] at this
          simp [byFrame, this.1.2]
        rw [List.filter_eq_self.2 hall, List.map_map]
        rfl
      · rw [if_neg hf, List.flatMap_eq_nil_iff]
        intro b _
        rw [List.map_eq_nil_iff, List.filter_eq_nil_iff]
        intro x hx
        obtain ⟨a, ha, rfl⟩ := List.mem_map.1 hx
        have := (List.mem_filter.1 ha).2
        simp only [byAll, Bool.and_eq_true, beq_iff_eq] at this
        simp only [byFrame, beq_iff_eq]
        omega
    rw [hr, List.filter_flatMap, List.map_flatMap]
    simp only [hsel]
    by_cases hk : f ∈ OMap.keys s.frames
    · have hn := OMap.keys_nodup d.frames_sorted
      generalize OMap.keys s.frames = ks at hk hn
      induction ks with
      | nil => cases hk
      | cons k ks ih =>
        rw [List.flatMap_cons]
        rw [List.nodup_cons] at hn
        by_cases hkf : k = f
        · subst hkf
          rw [if_pos rfl]
          have : (ks.flatMap fun f' => if f' = k then (List.range nBoard).flatMap fun b =>
              (l.filter (byAll c k b)).map (·.obs) else []) = [] := by
            rw [List.flatMap_eq_nil_iff]
            intro x hx
            rw [if_neg]
            rintro rfl
            exact hn.1 hx
          rw [this, List.append_nil]
        · rw [if_neg hkf, List.nil_append]
          apply ih _ hn.2
          rcases List.mem_cons.1 hk with h | h
          · exact absurd h.symm hkf
          · exact h
    · have e : ∀ b, l.filter (byAll c f b) = [] := by
        intro b
        rw [List.filter_eq_nil_iff]
        intro a ha hh
        simp only [byAll, Bool.and_eq_true, beq_iff_eq] at hh
        exact hk ((d.frame_key f).2 ⟨a, ha, hh.1.2⟩)
      have e1 : ((List.range nBoard).flatMap fun b => (l.filter (byAll c f b)).map (·.obs)) = [] := by
        rw [List.flatMap_eq_nil_iff]
        intro b _
        rw [e]; rfl
      rw [e1]
      rw [List.flatMap_eq_nil_iff]
      intro x hx
      split <;> rfl
  rw [List.filter_flatMap, List.map_flatMap]
  simp only [hrow]
  rw [← sorted_classes hl hs f, List.map_flatMap]
  apply List.flatMap_congr
  intro c _
  rw [List.map_flatMap]

/-- One image yields its boards in ascending order. -/
theorem detectImage_sorted {fitLine : List (K × K) → K × K × K × K} {cfg : Cfg}
    {geoms : List (Geom K)} {cam frame : Nat} {path : Path} {raw : Option (Nat → Raw P)}
    {l : List (Insertion P Path)} (h : detectImage fitLine cfg geoms cam frame path raw = .ok l) :
    l.Pairwise fun a b => a.obs.board < b.obs.board := by
  cases raw with
  | none => simp [detectImage] at h; subst h; exact List.Pairwise.nil
  | some raw =>
    unfold detectImage at h
    suffices H : ∀ (gs : List (Geom K)) (k : Nat) (acc : List (Insertion P Path)),
        (∀ a ∈ acc, a.obs.board < k) → acc.Pairwise (fun a b => a.obs.board < b.obs.board) →
        ∀ l, Outcome.foldlM (fun acc (gi : Geom K × Nat) => do
          match ← detectBoard fitLine cfg gi.1 (raw gi.2) with
          | some (corners, ids) => pure (acc ++ [⟨⟨cam, frame, gi.2, corners, ids⟩, path⟩])
          | none => pure acc) acc (gs.zipIdx k) = Outcome.ok l →
        l.Pairwise (fun a b => a.obs.board < b.obs.board) from
      H geoms 0 [] (by simp) List.Pairwise.nil l h
    intro gs
    induction gs with
    | nil => intro k acc _ ha l h; simp at h; subst h; exact ha
    | cons g gs ih =>
      intro k acc hk ha l h
      rw [List.zipIdx_cons, Outcome.foldlM_cons, Outcome.bind_eq_ok] at h
      obtain ⟨acc', h1, h⟩ := h
      rw [Outcome.bind_eq_ok] at h1
      obtain ⟨o, _, h1⟩ := h1
      cases o with
      | none =>
        simp at h1
        subst h1
        exact ih (k + 1) acc (fun a h => by have := hk a h; omega) ha l h
      | some x =>
        simp at h1
        subst h1
        refine ih (k + 1) _ ?_ ?_ l h
        · intro a h
          rcases List.mem_append.1 h with h | h
          · have := hk a h; omega
          · simp only [List.mem_singleton] at h
            subst h
            simp
        · rw [List.pairwise_append]
          refine ⟨ha, by simp, ?_⟩
          intro a h b hb
          simp only [List.mem_singleton] at hb
          subst hb
          exact hk a h

/-- What the index tables depend on. -/
def keyOf (a : Insertion P Path) : (Nat × Nat × Nat) × Path := ((a.obs.cam, a.obs.frame, a.obs.board), a.path)

section
variable {l l' : List (Insertion P Path)} (hk : l.map keyOf = l'.map keyOf)
include hk

theorem filter_keys {β : Type} (p : (Nat × Nat × Nat) × Path → Bool) (g : (Nat × Nat × Nat) × Path → β) :
    (l.filter (p ∘ keyOf)).map (g ∘ keyOf) = (l'.filter (p ∘ keyOf)).map (g ∘ keyOf) := by
  have e : ∀ m : List (Insertion P Path), (m.filter (p ∘ keyOf)).map (g ∘ keyOf) =
      ((m.map keyOf).filter p).map g := by
    intro m
    rw [List.filter_map, List.map_map]
  rw [e, e, hk]

theorem positions_keys (p : (Nat × Nat × Nat) × Path → Bool) :
    positions (p ∘ keyOf) l = positions (p ∘ keyOf) l' := by
  have e : ∀ m : List (Insertion P Path), positions (p ∘ keyOf) m = positions p (m.map keyOf) := by
    intro m
    unfold positions
    rw [List.length_map]
    apply List.filter_congr
    intro i _
    rw [List.getElem?_map, Option.any_map]
    rfl
  rw [e, e, hk]

theorem mem_keys {a : Insertion P Path} (ha : a ∈ l) : ∃ b ∈ l', keyOf b = keyOf a := by
  have : keyOf a ∈ l'.map keyOf := by rw [← hk]; exact List.mem_map.2 ⟨a, ha, rfl⟩
  obtain ⟨b, hb, e⟩ := List.mem_map.1 this
  exact ⟨b, hb, e⟩

/-- The tables depend on the camera, frame, board and path of the insertions only. -/
theorem describes_congr {nCam nBoard : Nat} {s : Store P Path} (d : Describes nCam nBoard l s) :
    Describes nCam nBoard l' { s with obs := l'.map (·.obs) } := by
  have kC : ∀ c : Nat, byCam (P := P) (Path := Path) c = (fun k => k.1.1 == c) ∘ keyOf := fun _ => rfl
  have kB : ∀ c : Nat, byBoard (P := P) (Path := Path) c = (fun k => k.1.2.2 == c) ∘ keyOf := fun _ => rfl
  have kF : ∀ c : Nat, byFrame (P := P) (Path := Path) c = (fun k => k.1.2.1 == c) ∘ keyOf := fun _ => rfl
  have kCF : ∀ c f : Nat, byCamFrame (P := P) (Path := Path) c f =
    (fun k => k.1.1 == c && k.1.2.1 == f) ∘ keyOf := fun _ _ => rfl
  have hd : ∀ f, ((l.filter (byFrame f)).head?).map keyOf = ((l'.filter (byFrame f)).head?).map keyOf := by
    intro f
    have := filter_keys hk (fun k => k.1.2.1 == f) id
    rw [← List.head?_map, ← List.head?_map]
    exact congrArg List.head? this
  have hhead : ∀ f (Q : (Nat × Nat × Nat) × Path → Prop),
      (∃ a, (l.filter (byFrame f)).head? = some a ∧ Q (keyOf a)) ↔
      (∃ a, (l'.filter (byFrame f)).head? = some a ∧ Q (keyOf a)) := by
    intro f Q
    have e : ∀ x : Option (Insertion P Path), (∃ a, x = some a ∧ Q (keyOf a)) ↔ ∃ k, x.map keyOf = some k ∧ Q k := by
      intro x
      cases x <;> simp
    rw [e, e, hd]
  have hmem : ∀ Q : (Nat × Nat × Nat) × Path → Prop, (∃ a ∈ l, Q (keyOf a)) ↔ (∃ a ∈ l', Q (keyOf a)) := by
    intro Q
    constructor
    · rintro ⟨a, ha, h⟩
      obtain ⟨b, hb, e⟩ := mem_keys hk ha
      exact ⟨b, hb, by rw [e]; exact h⟩
    · rintro ⟨a, ha, h⟩
      obtain ⟨b, hb, e⟩ := mem_keys hk.symm ha
      exact ⟨b, hb, by rw [e]; exact h⟩
  constructor
  · rfl
  · exact d.cams_length
  · exact d.boards_length
  · intro c r hr
    obtain ⟨h1, h2⟩ := d.cam c r hr
    rw [h1, h2]
    exact ⟨positions_keys hk (fun k => k.1.1 == c), filter_keys hk (fun k => k.1.1 == c) (fun k => k.1.2.2)⟩
  · intro c r hr
    refine ⟨(d.cam_frames c r hr).1, fun f => ?_⟩
    rw [(d.cam_frames c r hr).2 f]
    exact hhead f (fun k => k.1.1 = c)
  · intro b r hr
    rw [d.board b r hr]
    exact positions_keys hk (fun k => k.1.2.2 == b)
  · intro c r hr
    refine ⟨(d.board_frames c r hr).1, fun f => ?_⟩
    rw [(d.board_frames c r hr).2 f]
    exact hhead f (fun k => k.1.2.2 = c)
  · exact d.frames_sorted
  · intro f
    rw [d.frame_key f]
    exact hmem (fun k => k.1.2.1 = f)
  · intro f r hr
    obtain ⟨h1, h2, h3⟩ := d.frame f r hr
    rw [h1, h2, h3]
    refine ⟨positions_keys hk (fun k => k.1.2.1 == f), filter_keys hk (fun k => k.1.2.1 == f) (fun k => k.1.2.2), ?_⟩
    exact congrArg firstOccs (filter_keys hk (fun k => k.1.2.1 == f) (fun k => k.1.1))
  · intro f r hr
    refine ⟨(d.frame_paths f r hr).1, fun c => ?_⟩
    rw [(d.frame_paths f r hr).2 c, ← List.getLast?_map, ← List.getLast?_map]
    exact congrArg List.getLast? (filter_keys hk (fun k => k.1.1 == c && k.1.2.1 == f) (fun k => k.2))
  · exact d.camObs_sorted
  · intro c f
    rw [d.camObs_key c f]
    exact hmem (fun k => k.1.1 = c ∧ k.1.2.1 = f)
  · intro c f r hr
    obtain ⟨h1, h2, h3⟩ := d.camObs c f r hr
    rw [h1, h2]
    exact ⟨positions_keys hk (fun k => k.1.1 == c && k.1.2.1 == f),
      filter_keys hk (fun k => k.1.1 == c && k.1.2.1 == f) (fun k => k.1.2.2), h3⟩

theorem sorted_congr (h : FrameSorted l) : FrameSorted l' := by
  intro f
  have e : ∀ m : List (Insertion P Path), (m.filter (byFrame f)).Pairwise (fun a b =>
      a.obs.cam < b.obs.cam ∨ a.obs.cam = b.obs.cam ∧ a.obs.board ≤ b.obs.board) ↔
      ((m.filter (byFrame f)).map keyOf).Pairwise (fun a b => a.1.1 < b.1.1 ∨ a.1.1 = b.1.1 ∧ a.1.2.2 ≤ b.1.2.2) := by
    intro m
    rw [List.pairwise_map]
    rfl
  rw [e]
  have := filter_keys hk (fun k => k.1.2.1 == f) id
  have h' := (e l).1 (h f)
  rw [show (l'.filter (byFrame f)).map keyOf = (l.filter (byFrame f)).map keyOf from this.symm]
  exact h'

end

/-- The insertions with other contents of the observations. -/
theorem replaced {l : List (Insertion P Path)} {obs' : List (BoardObs P)}
    (h : obs'.map (fun o => (o.cam, o.frame, o.board)) = l.map fun a => (a.obs.cam, a.obs.frame, a.obs.board)) :
    ∃ l' : List (Insertion P Path), l.map keyOf = l'.map keyOf ∧ l'.map (·.obs) = obs' := by
  refine ⟨List.zipWith (fun a o => { a with obs := o }) l obs', ?_, ?_⟩
  · induction l generalizing obs' with
    | nil => rfl
    | cons a l ih =>
      cases obs' with
      | nil => simp at h
      | cons o obs' =>
        simp only [List.map_cons, List.cons.injEq] at h
        simp only [List.zipWith_cons_cons, List.map_cons, ← ih h.2]
        congr 1
        unfold keyOf
        rw [h.1]
  · induction l generalizing obs' with
    | nil => simp at h; subst h; rfl
    | cons a l ih =>
      cases obs' with
      | nil => simp at h
      | cons o obs' =>
        simp only [List.map_cons, List.cons.injEq] at h
        simp only [List.zipWith_cons_cons, List.map_cons, ih h.2]

/-- What a schedule stores for one frame. -/
theorem schedule_frame (fitLine : List (K × K) → K × K × K × K) (cfg : Cfg)
    (geoms : List (Geom K)) (nCam : Nat) (nFrames : Nat → Nat) (path : Nat → Nat → Path)
    (raw : Nat → Nat → Option (Nat → Raw P)) (det : Nat → Nat → List (Insertion P Path))
    (hdet : ∀ c f, c < nCam → f < nFrames c →
      detectImage fitLine cfg geoms c f (path c f) (raw c f) = .ok (det c f))
    (l : List (Insertion P Path)) (h : Schedule (tasks nCam nFrames det) l) (f : Nat) :
    l.filter (byFrame f) = (List.range nCam).flatMap fun c => if f < nFrames c then det c f else [] := by
  rw [schedule_filter_frame h f]
  · unfold tasks
    rw [List.flatMap_map]
    apply List.flatMap_congr
    intro c hc
    rw [List.getElem?_map]
    by_cases hf : f < nFrames c
    · rw [List.getElem?_range hf, if_pos hf]
      simp only [Option.map_some, Option.getD_some]
      rw [List.filter_eq_self]
      intro a ha
      have := (detectImage_mem (hdet c f (List.mem_range.1 hc) hf) a ha).2.1
      simp [byFrame, this]
    · rw [List.getElem?_eq_none (by simpa using hf), if_neg hf]
      rfl
  · intro ts hts j t hj hne a ha
    obtain ⟨c, hc, hj', rfl⟩ := getElem?_tasks hts hj
    have := (detectImage_mem (hdet c j hc hj') a ha).2.1
    simp [byFrame, this, hne]

/-- The store read back from the saved file. -/
theorem reload_run (asserts : Bool) (nCam nBoard : Nat) {l : List (Insertion P Path)}
    {s : Store P Path} (d : Describes nCam nBoard l s) (sz : List (Nat × Nat)) (hsz : sz.length = nCam)
    (hne : asserts = true → ∀ c < nCam, ∃ o ∈ s.obs, o.cam = c)
    (hl : ∀ a ∈ l, a.obs.cam < nCam ∧ a.obs.board < nBoard) :
    ∃ file s', save ⟨s, sz.map some⟩ = .ok file ∧
      load asserts nCam nBoard file = .ok ⟨s', sz.map some⟩ ∧
      run nCam nBoard ((List.range nCam).flatMap fun c => (rows s c).map (ofRow c)) = .ok s' := by
  have hsz' : ∀ c < nCam, ((sz.map some)[c]?).join = some (sz.getD c (0, 0)) := by
    intro c hc
    have hc' : c < sz.length := by omega
    rw [List.getElem?_map, List.getD_eq_getElem?_getD, List.getElem?_eq_getElem hc']
    rfl
  have hsave := save_ok (⟨s, sz.map some⟩ : KStore P Path) (fun c => sz.getD c (0, 0))
    (by rw [d.cams_length]; exact hsz')
  simp only [d.cams_length] at hsave
  have hrb : ∀ c, ∀ r ∈ rows s c, r.board < nBoard := by
    intro c r hr
    rw [rows_eq d] at hr
    obtain ⟨f, _, hr⟩ := List.mem_flatMap.1 hr
    obtain ⟨b, hb, hr⟩ := List.mem_flatMap.1 hr
    obtain ⟨o, _, rfl⟩ := List.mem_map.1 hr
    simpa using hb
  have hrne : asserts = true → ∀ c < nCam, rows s c ≠ [] := by
    intro ha c hc
    obtain ⟨o, ho, hoc⟩ := hne ha c hc
    rw [d.obs] at ho
    obtain ⟨a, ha, rfl⟩ := List.mem_map.1 ho
    have hm : a.obs ∈ (l.filter (byAll c a.obs.frame a.obs.board)).map (·.obs) :=
      List.mem_map.2 ⟨a, List.mem_filter.2 ⟨ha, by simp [byAll, hoc]⟩, rfl⟩
    apply List.ne_nil_of_mem (a := (⟨a.obs.frame, (lastPath l c a.obs.frame).getD default,
      a.obs.board, a.obs.pts, a.obs.ids⟩ : Row P Path))
    rw [rows_eq d]
    exact List.mem_flatMap.2 ⟨_, (d.frame_key _).2 ⟨a, ha, rfl⟩, List.mem_flatMap.2
      ⟨_, by simpa using (hl a ha).2, List.mem_map.2 ⟨a.obs, hm, rfl⟩⟩⟩
  obtain ⟨s', hr', hload⟩ := load_saved asserts nCam nBoard (rows s) (fun c => sz.getD c (0, 0))
    hrne (fun c _ => hrb c)
  have esz : ((List.range nCam).map fun c => some (sz.getD c (0, 0))) = sz.map some := by
    apply List.ext_getElem
    · simp [hsz]
    · intro i h1 h2
      simp at h1 h2 ⊢
      rw [List.getElem?_eq_getElem h2]
      rfl
  rw [esz] at hload
  exact ⟨_, s', hsave, hload, hr'⟩

end Verif.Lemmas.Reload
