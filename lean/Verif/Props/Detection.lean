import Verif.Lemmas.Detection
import Mathlib.Data.Rat.Floor
import Mathlib.Tactic.Linarith
import Mathlib.Tactic.LinearCombination
import Mathlib.Tactic.Positivity

/-!
Property theorems C07 (schedule independence of the detection), C08 (keypoint file round trip) and
C09 (acceptance rule).
-/
set_option linter.unusedSectionVars false
namespace Verif.Props.Detection
open Verif Verif.Store Verif.Spec.Store Verif.Detection Verif.Keypoints

variable {K P Path : Type} [Field K] [LinearOrder K] [Inhabited Path]

/-! ### C07 -/

/-- The tasks posted to the pool: for every camera in turn, one task per image; `det c f` is the list
of insertions the task for image `f` of camera `c` performs. -/
def tasks (nCam : Nat) (nFrames : Nat → Nat) (det : Nat → Nat → List (Insertion P Path)) :
    List (List (List (Insertion P Path))) :=
  (List.range nCam).map fun c => (List.range (nFrames c)).map (det c)

theorem getElem?_tasks {nCam : Nat} {nFrames : Nat → Nat}
    {det : Nat → Nat → List (Insertion P Path)} {ts : List (List (Insertion P Path))}
    (h : ts ∈ tasks nCam nFrames det) {j : Nat} {t : List (Insertion P Path)} (ht : ts[j]? = some t) :
    ∃ c, c < nCam ∧ j < nFrames c ∧ t = det c j := by
  obtain ⟨c, hc, rfl⟩ := List.mem_map.1 h
  rw [List.getElem?_map] at ht
  obtain ⟨x, hx, rfl⟩ := Option.map_eq_some_iff.1 ht
  have hlt : j < nFrames c := by
    by_contra hh
    rw [List.getElem?_eq_none (by simpa using hh)] at hx
    cases hx
  rw [List.getElem?_range hlt] at hx
  cases hx
  exact ⟨c, by simpa using hc, hlt, rfl⟩

theorem schedule_filter_frame {tasks : List (List (List (Insertion P Path)))}
    {l : List (Insertion P Path)} (h : Schedule tasks l) (f : Nat)
    (hp : ∀ ts ∈ tasks, ∀ j t, ts[j]? = some t → j ≠ f → ∀ a ∈ t, byFrame f a = false) :
    l.filter (byFrame f) = tasks.flatMap fun ts => ((ts[f]?).getD []).filter (byFrame f) := by
  obtain ⟨ls, hf, rfl⟩ := h
  induction hf with
  | nil => rfl
  | @cons ts l' tasks ls' h1 h2 ih =>
    rw [List.flatten_cons, List.filter_append, List.flatMap_cons,
      h1.filter (byFrame f) f (hp ts (by simp)), ih fun ts hts => hp ts (by simp [hts])]

/-- C07: the tasks of the pool run in any interleaving (cameras one after the other, as in the code).
Two executions then store the same observations, per frame even in the same order; the same frames
are listed, by the calibration and by each camera and board; and the same keypoint file is saved. -/
theorem C07_schedule_independent (fitLine : List (K × K) → K × K × K × K) (cfg : Cfg)
    (geoms : List (Geom K)) (nCam : Nat) (nFrames : Nat → Nat) (path : Nat → Nat → Path)
    (raw : Nat → Nat → Option (Nat → Raw P)) (det : Nat → Nat → List (Insertion P Path))
    (hdet : ∀ c f, c < nCam → f < nFrames c →
      detectImage fitLine cfg geoms c f (path c f) (raw c f) = .ok (det c f))
    (l₁ l₂ : List (Insertion P Path)) (h₁ : Schedule (tasks nCam nFrames det) l₁)
    (h₂ : Schedule (tasks nCam nFrames det) l₂) (sizes : List (Option (Nat × Nat))) :
    ∃ s₁ s₂, run nCam geoms.length l₁ = .ok s₁ ∧ run nCam geoms.length l₂ = .ok s₂ ∧
      s₁.obs.Perm s₂.obs ∧
      (∀ f, s₁.obs.filter (fun o => o.frame == f) = s₂.obs.filter (fun o => o.frame == f)) ∧
      OMap.keys s₁.frames = OMap.keys s₂.frames ∧
      s₁.cams.map (fun r => OMap.keys r.frames) = s₂.cams.map (fun r => OMap.keys r.frames) ∧
      s₁.boards.map (fun r => OMap.keys r.frames) = s₂.boards.map (fun r => OMap.keys r.frames) ∧
      save ⟨s₁, sizes⟩ = save ⟨s₂, sizes⟩ := by
  have hmem : ∀ {l}, Schedule (tasks nCam nFrames det) l → ∀ a ∈ l, a.obs.cam < nCam ∧
      a.obs.board < geoms.length := by
    intro l hl a ha
    obtain ⟨ts, h3, h4⟩ := List.mem_flatMap.1 (hl.perm.mem_iff.1 ha)
    obtain ⟨t, h5, h6⟩ := List.mem_flatten.1 h4
    obtain ⟨j, hj⟩ := List.mem_iff_getElem?.1 h5
    obtain ⟨c, hc, hj', rfl⟩ := getElem?_tasks h3 hj
    have := detectImage_mem (hdet c j hc hj') a h6
    exact ⟨by omega, this.2.2.2⟩
  have hfr : ∀ {l}, Schedule (tasks nCam nFrames det) l → ∀ f, l.filter (byFrame f) =
      (tasks nCam nFrames det).flatMap fun ts => ((ts[f]?).getD []).filter (byFrame f) := by
    intro l hl f
    refine schedule_filter_frame hl f ?_
    intro ts hts j t hj hne a ha
    obtain ⟨c, hc, hj', rfl⟩ := getElem?_tasks hts hj
    have := (detectImage_mem (hdet c j hc hj') a ha).2.1
    simp [byFrame, this, hne]
  have hF : ∀ f, l₁.filter (byFrame f) = l₂.filter (byFrame f) := fun f => (hfr h₁ f).trans (hfr h₂ f).symm
  obtain ⟨s₁, r₁, d₁⟩ := run_describes nCam geoms.length l₁ (hmem h₁)
  obtain ⟨s₂, r₂, d₂⟩ := run_describes nCam geoms.length l₂ (hmem h₂)
  have hsub : ∀ (p : Insertion P Path → Bool) (f : Nat), (∀ a, p a = true → byFrame f a = true) →
      l₁.filter p = l₂.filter p := by
    intro p f hp
    have : ∀ l : List (Insertion P Path), l.filter p = (l.filter (byFrame f)).filter p := by
      intro l
      rw [List.filter_filter]
      apply List.filter_congr
      intro a _
      cases ha : p a
      · simp
      · simp [hp a ha]
    rw [this l₁, this l₂, hF]
  have hS : SameSave l₁ l₂ := by
    constructor
    · intro c f b
      rw [hsub (byAll c f b) f (fun a ha => by
        simp only [byAll, Bool.and_eq_true] at ha; exact ha.1.2)]
    · intro c f
      unfold lastPath
      rw [hsub (byCamFrame c f) f (fun a ha => by
        simp only [byCamFrame, Bool.and_eq_true] at ha; exact ha.2)]
  refine ⟨s₁, s₂, r₁, r₂, ?_, ?_, keys_congr d₁ d₂ hS, ?_, ?_, save_congr d₁ d₂ hS sizes⟩
  · rw [d₁.obs, d₂.obs]
    exact (h₁.perm.trans h₂.perm.symm).map _
  · intro f
    rw [d₁.obs, d₂.obs, List.filter_map, List.filter_map]
    exact congrArg _ (hF f)
  · apply List.ext_getElem?
    intro c
    rw [List.getElem?_map, List.getElem?_map]
    rcases hc₁ : s₁.cams[c]? with _ | r₁
    · rw [List.getElem?_eq_none_iff] at hc₁
      have : s₂.cams[c]? = none := by
        rw [List.getElem?_eq_none_iff, d₂.cams_length]; rw [d₁.cams_length] at hc₁; exact hc₁
      rw [this]
    · rcases hc₂ : s₂.cams[c]? with _ | r₂
      · rw [List.getElem?_eq_none_iff, d₂.cams_length, ← d₁.cams_length, ← List.getElem?_eq_none_iff, hc₁] at hc₂
        cases hc₂
      · simp only [Option.map_some, Option.some.injEq]
        apply OMap.sorted_keys_ext (OMap.keys_sorted (d₁.cam_frames c r₁ hc₁).1)
          (OMap.keys_sorted (d₂.cam_frames c r₂ hc₂).1)
        intro f
        rw [(d₁.cam_frames c r₁ hc₁).2, (d₂.cam_frames c r₂ hc₂).2, hF]
  · apply List.ext_getElem?
    intro c
    rw [List.getElem?_map, List.getElem?_map]
    rcases hc₁ : s₁.boards[c]? with _ | r₁
    · rw [List.getElem?_eq_none_iff] at hc₁
      have : s₂.boards[c]? = none := by
        rw [List.getElem?_eq_none_iff, d₂.boards_length]; rw [d₁.boards_length] at hc₁; exact hc₁
      rw [this]
    · rcases hc₂ : s₂.boards[c]? with _ | r₂
      · rw [List.getElem?_eq_none_iff, d₂.boards_length, ← d₁.boards_length, ← List.getElem?_eq_none_iff, hc₁] at hc₂
        cases hc₂
      · simp only [Option.map_some, Option.some.injEq]
        apply OMap.sorted_keys_ext (OMap.keys_sorted (d₁.board_frames c r₁ hc₁).1)
          (OMap.keys_sorted (d₂.board_frames c r₂ hc₂).1)
        intro f
        rw [(d₁.board_frames c r₁ hc₁).2, (d₂.board_frames c r₂ hc₂).2, hF]

/-- C07: the sequential order (images one after the other) is one of the schedules, so every
execution agrees with the sequential run in the sense of `C07_schedule_independent`. -/
theorem C07_sequential_is_schedule (nCam : Nat) (nFrames : Nat → Nat)
    (det : Nat → Nat → List (Insertion P Path)) :
    Schedule (tasks nCam nFrames det)
      ((List.range nCam).flatMap fun c => (List.range (nFrames c)).flatMap (det c)) := by
  have h := Schedule.sequential (tasks nCam nFrames det)
  have e : (List.map List.flatten (tasks nCam nFrames det)).flatten =
      (List.range nCam).flatMap fun c => (List.range (nFrames c)).flatMap (det c) := by
    unfold tasks
    rw [List.map_map, List.flatMap_def]
    congr 1
  rwa [e] at h

/-! Non-vacuity: one camera, two images, two boards per image, all accepted. -/

def demoGeoms : List (Geom ℚ) :=
  [⟨6, [(0,0),(1,0),(2,0),(0,1),(1,1),(2,1)], 1⟩, ⟨6, [(0,0),(1,0),(2,0),(0,1),(1,1),(2,1)], 1⟩]
def demoRaw (c f : Nat) : Option (Nat → Raw Nat) :=
  some fun b => ⟨[100 * f + 10 * b + c, 1, 2, 3, 4], [0, 1, 2, 3, 4], []⟩
def demoDet (c f : Nat) : List (Insertion Nat String) :=
  (List.range 2).map fun b => ⟨⟨c, f, b, [100 * f + 10 * b + c, 1, 2, 3, 4], [0, 1, 2, 3, 4]⟩, "img"⟩

private theorem demo_res : lineResidual (fun _ => ((1:ℚ), 0, 0, 1/2)) [(0,0),(1,0),(2,0),(0,1),(1,1)] = 1/2 := by
  decide +kernel

example : ∀ c f, c < 1 → f < 2 →
    detectImage (fun _ => ((1:ℚ), 0, 0, 1/2)) ⟨false, 1/2⟩ demoGeoms c f "img" (demoRaw c f) =
      .ok (demoDet c f) := by
  intro c f hc hf
  obtain rfl : c = 0 := by omega
  rcases (by omega : f = 0 ∨ f = 1) with rfl | rfl <;> decide +kernel

/-- The schedule in which the two images alternate. -/
def demoSched : List (Insertion Nat String) :=
  match demoDet 0 0, demoDet 0 1 with
  | [a, b], [c, d] => [c, a, b, d]
  | _, _ => []

example : Schedule (tasks 1 (fun _ => 2) demoDet) demoSched := by
  refine ⟨[demoSched], .cons ?_ .nil, by simp⟩
  refine .step (i := 1) (t := (demoDet 0 1).tail) rfl ?_
  refine .step (i := 0) (t := (demoDet 0 0).tail) rfl ?_
  refine .step (i := 0) (t := []) rfl ?_
  refine .step (i := 1) (t := []) rfl ?_
  exact .nil (by decide)

/-- The numbering of the observations does depend on the schedule. -/
theorem C07_numbering_depends_on_schedule :
    ∃ s₁ s₂, run 1 2 demoSched = .ok s₁ ∧ run 1 2 (demoDet 0 0 ++ demoDet 0 1) = .ok s₂ ∧
      s₁.obs ≠ s₂.obs := by
  refine ⟨_, _, rfl, rfl, ?_⟩
  decide

/-! ### C08 -/

/-- C08: saving the keypoints of any reachable store and loading the file into a fresh calibration of
the same configuration yields the same observations (up to numbering), image sizes and frames, and
the path of each frame; saving the loaded store gives the same file again.  `asserts`: whether
assertions are compiled in; if so every camera needs at least one observation. -/
theorem C08_roundtrip (asserts : Bool) (nCam nBoard : Nat) (l : List (Insertion P Path))
    (hl : ∀ a ∈ l, a.obs.cam < nCam ∧ a.obs.board < nBoard) (s : Store P Path)
    (hs : run nCam nBoard l = .ok s) (sz : List (Nat × Nat)) (hsz : sz.length = nCam)
    (hne : asserts = true → ∀ c < nCam, ∃ o ∈ s.obs, o.cam = c) :
    ∃ file s', save ⟨s, sz.map some⟩ = .ok file ∧
      load asserts nCam nBoard file = .ok ⟨s', sz.map some⟩ ∧
      s'.obs.Perm s.obs ∧
      OMap.keys s'.frames = OMap.keys s.frames ∧
      (∀ c f, ((OMap.get? s'.frames f).bind fun r => OMap.get? r.paths c) =
        ((OMap.get? s.frames f).bind fun r => OMap.get? r.paths c)) ∧
      save ⟨s', sz.map some⟩ = .ok file := by
  obtain ⟨s0, h1, d⟩ := run_describes nCam nBoard l hl
  rw [hs] at h1
  cases h1
  have hsz' : ∀ c < nCam, ((sz.map some)[c]?).join = some (sz.getD c (0, 0)) := by
    intro c hc
    have hc' : c < sz.length := by omega
    rw [List.getElem?_map, List.getD_eq_getElem?_getD, List.getElem?_eq_getElem hc']
    rfl
  have hsave := save_ok (⟨s, sz.map some⟩ : KStore P Path) (fun c => sz.getD c (0, 0))
    (by rw [d.cams_length]; exact hsz')
  simp only [d.cams_length] at hsave
  have hrb : ∀ c, ∀ r ∈ rows s c, r.board < nBoard := by
    intro c r hr
    rw [rows_eq d] at hr
    obtain ⟨f, _, hr⟩ := List.mem_flatMap.1 hr
    obtain ⟨b, hb, hr⟩ := List.mem_flatMap.1 hr
    obtain ⟨o, _, rfl⟩ := List.mem_map.1 hr
    simpa using hb
  have hrne : asserts = true → ∀ c < nCam, rows s c ≠ [] := by
    intro ha c hc
    obtain ⟨o, ho, hoc⟩ := hne ha c hc
    rw [d.obs] at ho
    obtain ⟨a, ha, rfl⟩ := List.mem_map.1 ho
    have hm : a.obs ∈ (l.filter (byAll c a.obs.frame a.obs.board)).map (·.obs) :=
      List.mem_map.2 ⟨a, List.mem_filter.2 ⟨ha, by simp [byAll, hoc]⟩, rfl⟩
    apply List.ne_nil_of_mem (a := (⟨a.obs.frame, (lastPath l c a.obs.frame).getD default,
      a.obs.board, a.obs.pts, a.obs.ids⟩ : Row P Path))
    rw [rows_eq d]
    exact List.mem_flatMap.2 ⟨_, (d.frame_key _).2 ⟨a, ha, rfl⟩, List.mem_flatMap.2
      ⟨_, by simpa using (hl a ha).2, List.mem_map.2 ⟨a.obs, hm, rfl⟩⟩⟩
  obtain ⟨s', hr', hload⟩ := load_saved asserts nCam nBoard (rows s) (fun c => sz.getD c (0, 0))
    hrne (fun c _ => hrb c)
  have esz : ((List.range nCam).map fun c => some (sz.getD c (0, 0))) = sz.map some := by
    apply List.ext_getElem
    · simp [hsz]
    · intro i h1 h2
      simp at h1 h2 ⊢
      rw [List.getElem?_eq_getElem h2]
      rfl
  rw [esz] at hload
  have hS := sameSave_rows hl d
  obtain ⟨s'', h2, d'⟩ := run_describes nCam nBoard
    ((List.range nCam).flatMap fun c => (rows s c).map (ofRow c)) (by
      intro a ha
      obtain ⟨c, hc, ha⟩ := List.mem_flatMap.1 ha
      obtain ⟨r, hr, rfl⟩ := List.mem_map.1 ha
      exact ⟨by simpa [ofRow] using hc, hrb c r hr⟩)
  rw [hr'] at h2
  cases h2
  refine ⟨_, s', hsave, hload, ?_, (keys_congr d d' hS).symm, ?_, ?_⟩
  · rw [d.obs, d'.obs]
    exact hS.perm.symm
  · intro c f
    have hk := keys_congr d d' hS
    cases h1 : OMap.get? s.frames f with
    | none =>
      have : OMap.get? s'.frames f = none := by
        rw [OMap.get?_eq_none] at h1 ⊢; rw [← hk]; exact h1
      rw [this]
    | some r =>
      obtain ⟨r', h2⟩ : ∃ r', OMap.get? s'.frames f = some r' := by
        rw [← OMap.mem_keys, ← hk]; exact OMap.mem_keys.2 ⟨r, h1⟩
      rw [h2, Option.bind_some, Option.bind_some, (d.frame_paths f r h1).2, (d'.frame_paths f r' h2).2]
      exact (hS.path c f).symm
  · rw [← save_congr d d' hS]
    exact hsave

/-- C08, excluded case: with assertions compiled in, a file in which some camera has no detection (as
saved when a camera saw nothing) makes the loader abort. -/
theorem C08_camera_without_detections_aborts :
    ∃ s file, run 2 1 [⟨⟨0, 0, 0, [7], [2]⟩, "a"⟩] = Outcome.ok (s : Store Nat String) ∧
      save ⟨s, [some (640, 480), some (640, 480)]⟩ = .ok file ∧ load true 2 1 file = .throw := by
  refine ⟨_, _, rfl, rfl, ?_⟩
  decide

/-- C08, other files: a camera that the file does not mention makes the loader abort if assertions are compiled in.
Otherwise, if the rest can be loaded, the camera has images of size zero and no observation. -/
theorem C08_missing_camera (nCam nBoard : Nat) (file : KeyFile P Path) (c : Nat) (hc : c < nCam)
    (hno : OMap.get? file.cams c = none) (asserts : Bool) (k : KStore P Path)
    (hk : load asserts nCam nBoard file = .ok k) :
    asserts = false ∧ k.sizes[c]? = some (some (0, 0)) ∧ ∀ o ∈ k.store.obs, o.cam ≠ c := by
  have hins : ∀ (s t : Store P Path) (a : Insertion P Path), insertNewBoard s a = .ok t → t.obs = s.obs ++ [a.obs] := by
    intro s t a h
    unfold insertNewBoard at h
    dsimp only at h
    split at h
    · simp only [Outcome.ok.injEq] at h
      rw [← h]
    · cases h
  have hrow : ∀ (d : Nat) (cf : CamFile P Path) (s t : Store P Path) (i : Nat), insertRow d cf s i = .ok t →
      ∃ o, o.cam = d ∧ t.obs = s.obs ++ [o] := by
    intro d cf s t i h
    unfold insertRow at h
    simp only [Outcome.bind_eq_ok] at h
    obtain ⟨f, -, b, -, p, -, e, -, q, -, h⟩ := h
    exact ⟨_, rfl, hins _ _ _ h⟩
  have hcam : ∀ (d : Nat) (x y : KStore P Path), loadCam asserts file x d = .ok y →
      y.sizes.length = x.sizes.length ∧ (d ≠ c → y.sizes[c]? = x.sizes[c]?) ∧
      ((∀ o ∈ x.store.obs, o.cam ≠ c) → ∀ o ∈ y.store.obs, o.cam ≠ c) ∧
      (d = c → asserts = false ∧ (c < x.sizes.length → y.sizes[c]? = some (some (0, 0)))) := by
    intro d x y h
    unfold loadCam at h
    dsimp only at h
    split at h
    · cases h
    rename_i ha
    simp only [Outcome.bind_eq_ok] at h
    obtain ⟨s, h1, h2⟩ := h
    rw [Outcome.pure_eq, Outcome.ok.injEq] at h2
    subst h2
    refine ⟨by simp, fun hd => by simp [List.getElem?_set, hd], fun hx => ?_, ?_⟩
    · by_cases hdc : d = c
      · subst hdc
        rw [hno] at h1
        simp only [Option.getD_none, missing, List.length_nil, List.range_zero, Outcome.foldlM_nil, Outcome.pure_eq,
          Outcome.ok.injEq] at h1
        rw [← h1]
        exact hx
      · refine Outcome.foldlM_inv (fun s : Store P Path => ∀ o ∈ s.obs, o.cam ≠ c) ?_ hx h1
        intro s t i _ hs ht o ho
        obtain ⟨o', e1, e2⟩ := hrow _ _ _ _ _ ht
        rw [e2] at ho
        rcases List.mem_append.1 ho with ho | ho
        · exact hs o ho
        · rw [List.mem_singleton.1 ho, e1]; exact hdc
    · rintro rfl
      rw [hno] at ha
      constructor
      · simpa [missing, wellFormed] using ha
      · intro hl
        rw [List.getElem?_set_self hl, hno]
        rfl
  have key : ∀ (l : List Nat) (x y : KStore P Path), Outcome.foldlM (loadCam asserts file) x l = .ok y →
      x.sizes.length = nCam → (∀ o ∈ x.store.obs, o.cam ≠ c) →
      (∀ o ∈ y.store.obs, o.cam ≠ c) ∧ y.sizes.length = nCam ∧ (c ∉ l → y.sizes[c]? = x.sizes[c]?) ∧
      (c ∈ l → asserts = false ∧ y.sizes[c]? = some (some (0, 0))) := by
    intro l
    induction l with
    | nil =>
      intro x y h hl ho
      rw [Outcome.foldlM_nil, Outcome.ok.injEq] at h
      subst h
      exact ⟨ho, hl, fun _ => rfl, fun h => nomatch h⟩
    | cons d l ih =>
      intro x y h hl ho
      rw [Outcome.foldlM_cons, Outcome.bind_eq_ok] at h
      obtain ⟨z, h1, h2⟩ := h
      obtain ⟨a1, a2, a3, a4⟩ := hcam d x z h1
      obtain ⟨b1, b2, b3, b4⟩ := ih z y h2 (a1.trans hl) (a3 ho)
      refine ⟨b1, b2, ?_, ?_⟩
      · intro hn
        rw [List.mem_cons, not_or] at hn
        rw [b3 hn.2, a2 (Ne.symm hn.1)]
      · intro hm
        by_cases hcl : c ∈ l
        · exact b4 hcl
        · rcases List.mem_cons.1 hm with e | e
          · obtain ⟨c1, c2⟩ := a4 e.symm
            exact ⟨c1, by rw [b3 hcl]; exact c2 (hl ▸ hc)⟩
          · exact absurd e hcl
  obtain ⟨b1, b2, _, b4⟩ := key _ _ _ hk (by simp) (by intro o ho; cases ho)
  obtain ⟨d1, d2⟩ := b4 (by simpa using hc)
  exact ⟨d1, d2, b1⟩

example : ∃ k, load false 2 1 (⟨1, [(0, ⟨(640, 480), [3], ["a"], [0], [[7]], [[2]]⟩)]⟩ : KeyFile Nat String) = .ok k ∧
    k.sizes = [some (640, 480), some (0, 0)] ∧ k.store.obs = [⟨0, 3, 0, [7], [2]⟩] := ⟨_, rfl, by decide, by decide⟩

/-- C08, excluded case: the size of a camera whose folder held no image is never assigned, saving
reads it. -/
theorem C08_unset_size_ub (k : KStore P Path) (c : Nat) (hc : c < k.store.cams.length)
    (h : (k.sizes[c]?).join = none) : save k = .ub := by
  unfold save
  suffices H : ∀ (L : List Nat), c ∈ L → ∀ m : OMap Nat (CamFile P Path),
      Outcome.foldlM (saveCam k) m L = .ub by
    rw [H _ (by simpa using hc) []]
    rfl
  intro L
  induction L with
  | nil => intro h; cases h
  | cons d L ih =>
    intro hm m
    rw [Outcome.foldlM_cons]
    cases hd : (k.sizes[d]?).join with
    | none =>
      have : saveCam k m d = .ub := by unfold saveCam; rw [hd]
      rw [this]; rfl
    | some sz =>
      have : saveCam k m d = .ok (m ++ [(d, camFile sz (rows k.store d))]) := by
        unfold saveCam; rw [hd]
      rw [this, Outcome.bind_ok]
      have hne : c ≠ d := by rintro rfl; rw [h] at hd; cases hd
      have hm' : c ∈ L := by
        rcases List.mem_cons.1 hm with rfl | h
        · exact absurd rfl hne
        · exact h
      exact ih hm' _

example : ∃ s, run 2 2 [⟨⟨1, 4, 1, [7, 8], [2, 3]⟩, "b"⟩, ⟨⟨0, 4, 0, [1], [0]⟩, "a"⟩,
      ⟨⟨1, 4, 0, [5], [1]⟩, "b"⟩] = Outcome.ok (s : Store Nat String) ∧
    (∀ c < 2, ∃ o ∈ s.obs, o.cam = c) ∧
    ∃ file s', save ⟨s, [some (4, 3), some (2, 1)]⟩ = .ok file ∧
      load true 2 2 file = .ok ⟨s', [some (4, 3), some (2, 1)]⟩ ∧ s' ≠ s ∧
      s'.obs.map (·.cam) = [0, 1, 1] := by
  refine ⟨_, rfl, by decide, _, _, rfl, rfl, ?_⟩
  decide

/-! ### C09 -/

/-- The corners stored when refinement is on: refined values up to the first infinite one, the
detector's from there on. -/
def refinedUntilInf (corners : List P) (refined : List (Option P)) : List P :=
  let good := (refined.takeWhile Option.isSome).filterMap id
  good ++ corners.drop good.length

theorem applyRefined_eq (corners : List P) (refined : List (Option P))
    (h : refined.length = corners.length) :
    applyRefined corners refined = .ok (refinedUntilInf corners refined) := by
  induction corners generalizing refined with
  | nil =>
    have : refined = [] := by simpa using h
    subst this
    rfl
  | cons p ps ih =>
    cases refined with
    | nil => cases h
    | cons q qs =>
      cases q with
      | none => simp [applyRefined, refinedUntilInf]
      | some q =>
        have := ih qs (by simpa using h)
        simp [applyRefined, this, refinedUntilInf, Outcome.bind]

theorem length_refinedUntilInf (corners : List P) (refined : List (Option P))
    (h : refined.length = corners.length) : (refinedUntilInf corners refined).length = corners.length := by
  induction corners generalizing refined with
  | nil =>
    have : refined = [] := by simpa using h
    subst this
    rfl
  | cons p ps ih =>
    cases refined with
    | nil => cases h
    | cons q qs =>
      cases q with
      | none => simp [refinedUntilInf]
      | some q =>
        have := ih qs (by simpa using h)
        simp [refinedUntilInf] at this ⊢
        exact this

private theorem boardPts_ok (g : Geom K) (ids : List Nat) (pts : List (K × K))
    (h : List.Forall₂ (fun i p => g.pts[i]? = some p) ids pts) : boardPts g ids = .ok pts := by
  unfold boardPts
  suffices H : ∀ acc, Outcome.foldlM (fun acc i => do
      let p ← Outcome.idx g.pts i
      pure (acc ++ [p])) acc ids = .ok (acc ++ pts) by simpa using H []
  induction h with
  | nil => simp
  | cons h1 _ ih =>
    intro acc
    rw [Outcome.foldlM_cons, Outcome.idx_of_getElem? h1]
    simp only [Outcome.bind_ok, Outcome.pure_eq]
    rw [show Outcome.foldlM (fun acc i => (do
      let p ← Outcome.idx g.pts i
      Outcome.ok (acc ++ [p]) : Outcome (List (K × K)))) _ _ = _ from ih _]
    simp

/-- C09: for any detector output whose ids are corners of the board, the board is stored iff it has
strictly more corners than the rounded minimum and than four, and the mean distance of its points to
the fitted line exceeds a tenth of the square size; what is stored are the (refined) corners and the
ids. -/
theorem C09_acceptance (fitLine : List (K × K) → K × K × K × K) (cfg : Cfg) (g : Geom K) (r : Raw P)
    (m : Nat) (hm : minCorners cfg g.nbPts = .ok m) (pts : List (K × K))
    (hpts : List.Forall₂ (fun i p => g.pts[i]? = some p) r.ids pts)
    (hr : r.refined.length = r.corners.length) :
    detectBoard fitLine cfg g r = .ok
      (if r.corners.length > m ∧ r.corners.length > 4 ∧ lineResidual fitLine pts > g.square * (1 / 10)
       then some (if cfg.refine then refinedUntilInf r.corners r.refined else r.corners, r.ids)
       else none) := by
  unfold detectBoard
  rw [hm, Outcome.bind_ok]
  by_cases h1 : r.corners.length > m
  · rw [if_pos h1]
    have hc : storedCorners cfg r =
        Outcome.ok (if cfg.refine then refinedUntilInf r.corners r.refined else r.corners) := by
      unfold storedCorners
      split
      · exact applyRefined_eq _ _ hr
      · rfl
    rw [hc, Outcome.bind_ok, boardPts_ok g r.ids pts hpts, Outcome.bind_ok]
    have hlen : (if cfg.refine then refinedUntilInf r.corners r.refined else r.corners).length =
        r.corners.length := by
      split
      · exact length_refinedUntilInf _ _ hr
      · rfl
    rw [hlen]
    by_cases h2 : lineResidual fitLine pts > g.square * (1 / 10)
    · by_cases h3 : r.corners.length > 4
      · simp only [h1, h2, h3, and_self, if_true, Outcome.pure_eq]
      · rw [if_neg (fun h => h3 h.2), if_neg (fun h => h3 h.2.1)]; rfl
    · rw [if_neg (fun h => h2 h.1), if_neg (fun h => h2 h.2.2)]; rfl
  · rw [if_neg h1, if_neg (fun h => h1 h.1)]; rfl

/-- C09: the minimum is the product of the configured fraction and the number of points, rounded to
the nearest integer (halves up). -/
theorem C09_minimum (cfg : Cfg) (n : Nat) (h : 0 ≤ cfg.minPerc) :
    ∃ m, minCorners cfg n = .ok m ∧ (m : ℚ) - 1 / 2 ≤ cfg.minPerc * n ∧ cfg.minPerc * n < m + 1 / 2 := by
  have hx : (0 : ℚ) ≤ cfg.minPerc * n := mul_nonneg h (by exact_mod_cast Nat.zero_le n)
  have hf : 0 ≤ (cfg.minPerc * n + 1 / 2).floor := by
    rw [Rat.le_floor_iff]; push_cast; linarith
  refine ⟨(cfg.minPerc * n + 1 / 2).floor.toNat, ?_, ?_, ?_⟩
  · unfold minCorners roundAway
    simp only [hx, if_true]
    rw [if_neg (by omega)]
  · have h1 : (((cfg.minPerc * n + 1 / 2).floor.toNat : ℤ) : ℚ) = ((cfg.minPerc * n + 1 / 2).floor : ℚ) := by
      rw [Int.toNat_of_nonneg hf]
    have h2 := Rat.floor_le (cfg.minPerc * n + 1 / 2)
    have h3 : (((cfg.minPerc * n + 1 / 2).floor.toNat : ℕ) : ℚ) =
      (((cfg.minPerc * n + 1 / 2).floor.toNat : ℤ) : ℚ) := by norm_cast
    rw [h3, h1]
    linarith
  · have h1 : (((cfg.minPerc * n + 1 / 2).floor.toNat : ℤ) : ℚ) = ((cfg.minPerc * n + 1 / 2).floor : ℚ) := by
      rw [Int.toNat_of_nonneg hf]
    have h2 : cfg.minPerc * n + 1 / 2 < ((cfg.minPerc * n + 1 / 2).floor : ℚ) + 1 := by
      have := Rat.lt_floor_add_one (cfg.minPerc * n + 1 / 2)
      rwa [Rat.intCast_add] at this
    have h3 : (((cfg.minPerc * n + 1 / 2).floor.toNat : ℕ) : ℚ) =
      (((cfg.minPerc * n + 1 / 2).floor.toNat : ℤ) : ℚ) := by norm_cast
    rw [h3, h1]
    linarith

/-- C09: collinear points are never stored, provided the line fit goes through the points whenever
some line does, and square sizes are not negative. -/
theorem C09_collinear_rejected [IsStrictOrderedRing K] (fitLine : List (K × K) → K × K × K × K)
    (hfit : ∀ pts : List (K × K), (∃ a b c : K, (a ≠ 0 ∨ b ≠ 0) ∧ ∀ p ∈ pts, a * p.1 + b * p.2 + c = 0) →
      ∀ p ∈ pts, (fitLine pts).1 * (p.2 - (fitLine pts).2.2.2) = (fitLine pts).2.1 * (p.1 - (fitLine pts).2.2.1))
    (cfg : Cfg) (g : Geom K) (r : Raw P) (hsq : 0 ≤ g.square)
    (m : Nat) (hm : minCorners cfg g.nbPts = .ok m) (pts : List (K × K))
    (hpts : List.Forall₂ (fun i p => g.pts[i]? = some p) r.ids pts)
    (hr : r.refined.length = r.corners.length)
    (hcol : ∃ a b c : K, (a ≠ 0 ∨ b ≠ 0) ∧ ∀ p ∈ pts, a * p.1 + b * p.2 + c = 0) :
    detectBoard fitLine cfg g r = .ok none := by
  rw [C09_acceptance fitLine cfg g r m hm pts hpts hr]
  have hz : lineResidual fitLine pts = 0 := by
    unfold lineResidual
    have h0 : ∀ p ∈ pts, |p.1 * (fitLine pts).2.1 + p.2 * (-(fitLine pts).1) +
        ((fitLine pts).1 * (fitLine pts).2.2.2 - (fitLine pts).2.1 * (fitLine pts).2.2.1)| = 0 := by
      intro p hp
      have := hfit pts hcol p hp
      rw [abs_eq_zero]
      linear_combination -this
    have hs : (pts.map fun p => |p.1 * (fitLine pts).2.1 + p.2 * (-(fitLine pts).1) +
        ((fitLine pts).1 * (fitLine pts).2.2.2 - (fitLine pts).2.1 * (fitLine pts).2.2.1)|).sum = 0 := by
      apply List.sum_eq_zero
      intro x hx
      obtain ⟨p, hp, rfl⟩ := List.mem_map.1 hx
      exact h0 p hp
    simp only
    rw [hs, zero_div]
  rw [hz, if_neg]
  rintro ⟨_, _, h⟩
  have : (0 : K) ≤ g.square * (1 / 10) := mul_nonneg hsq (by positivity)
  exact absurd h (not_lt.2 this)

/-- C09, error branch: once the corner count passes the first test, a corner id that is not a point of
the board is an out of range read. -/
theorem C09_bad_id_ub (fitLine : List (K × K) → K × K × K × K) (cfg : Cfg) (g : Geom K) (r : Raw P)
    (m : Nat) (hm : minCorners cfg g.nbPts = .ok m) (hc : r.corners.length > m)
    (hr : r.refined.length = r.corners.length) (hid : ∃ i ∈ r.ids, g.pts.length ≤ i) :
    detectBoard fitLine cfg g r = .ub := by
  unfold detectBoard
  rw [hm, Outcome.bind_ok, if_pos hc]
  have hc : storedCorners cfg r =
      Outcome.ok (if cfg.refine then refinedUntilInf r.corners r.refined else r.corners) := by
    unfold storedCorners
    split
    · exact applyRefined_eq _ _ hr
    · rfl
  have hb : boardPts g r.ids = .ub := by
    unfold boardPts
    suffices H : ∀ ids : List Nat, (∃ i ∈ ids, g.pts.length ≤ i) → ∀ acc,
        Outcome.foldlM (fun acc i => do
          let p ← Outcome.idx g.pts i
          pure (acc ++ [p])) acc ids = .ub from H _ hid []
    intro ids
    induction ids with
    | nil => rintro ⟨i, hi, _⟩; cases hi
    | cons j ids ih =>
      rintro ⟨i, hi, hle⟩ acc
      rw [Outcome.foldlM_cons]
      by_cases hj : g.pts.length ≤ j
      · rw [Outcome.idx_ub_iff.2 hj]; rfl
      · rw [Outcome.idx_of_getElem? (List.getElem?_eq_getElem (by omega))]
        simp only [Outcome.bind_ok, Outcome.pure_eq]
        refine ih ⟨i, ?_, hle⟩ _
        rcases List.mem_cons.1 hi with rfl | h
        · exact absurd hle hj
        · exact h
  rw [hc, Outcome.bind_ok, hb]
  rfl

/-- C09: the boards of an image are considered independently and in ascending index: if board `i` is
decided as `res i`, the insertions are the accepted boards in ascending order. -/
theorem C09_image (fitLine : List (K × K) → K × K × K × K) (cfg : Cfg) (geoms : List (Geom K))
    (cam frame : Nat) (path : Path) (raw : Nat → Raw P) (res : Nat → Option (List P × List Nat))
    (h : ∀ i g, geoms[i]? = some g → detectBoard fitLine cfg g (raw i) = .ok (res i)) :
    detectImage fitLine cfg geoms cam frame path (some raw) = .ok
      ((List.range geoms.length).filterMap fun i =>
        (res i).map fun x => ⟨⟨cam, frame, i, x.1, x.2⟩, path⟩) := by
  unfold detectImage
  simp only
  rw [foldlM_collect (res := fun gi : Geom K × Nat =>
    (res gi.2).map fun x => (⟨⟨cam, frame, gi.2, x.1, x.2⟩, path⟩ : Insertion P Path))]
  · rw [List.nil_append]
    congr 1
    have e : geoms.zipIdx.map Prod.snd = List.range geoms.length := by
      rw [List.zipIdx_map_snd, List.range_eq_range']
    rw [← e, List.filterMap_map]
    rfl
  · intro acc gi hgi
    have hg : geoms[gi.2]? = some gi.1 := by
      have := List.mem_zipIdx_iff_getElem?.1 (show (gi.1, gi.2) ∈ geoms.zipIdx from hgi)
      exact this
    rw [h _ _ hg, Outcome.bind_ok]
    cases res gi.2 <;> simp

/-- An unreadable image adds nothing. -/
theorem C09_unreadable (fitLine : List (K × K) → K × K × K × K) (cfg : Cfg) (geoms : List (Geom K))
    (cam frame : Nat) (path : Path) :
    detectImage (P := P) fitLine cfg geoms cam frame path none = .ok [] := rfl

/-- Non-vacuity of the acceptance theorem: the demo board is stored, with the first two corners
refined, the third being infinite. -/
example : minCorners ⟨true, 1/2⟩ 6 = .ok 3 ∧
    detectBoard (fun _ => ((1:ℚ), 0, 0, 1/2)) ⟨true, 1/2⟩
      ⟨6, [(0,0),(1,0),(2,0),(0,1),(1,1),(2,1)], 1⟩
      ⟨[10, 11, 12, 13, 14], [0, 1, 2, 3, 4], [some 20, some 21, none, some 23, some 24]⟩ =
      .ok (some (([20, 21, 12, 13, 14] : List Nat), [0, 1, 2, 3, 4])) := by
  decide +kernel

end Verif.Props.Detection
