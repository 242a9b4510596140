import Verif.Model.Display
import Verif.Props.Store
import Verif.Props.Detection

/-! C110: displayBoards draws the detections of the image it is given, and nothing else. -/
namespace Verif.Display
open Verif Verif.Images Verif.Store Verif.Spec.Store Verif.Detection Verif.Props.Store Verif.Props.Detection

variable {Path : Type}

/-- The circles of a list of detections: one for each point, in the colour of its board. -/
noncomputable def circlesOf (colour : Nat → Int × Int × Int) (l : List (Insertion (ℝ × ℝ) Path)) : List Circle :=
  l.flatMap fun a => a.obs.pts.map (circle (colour a.obs.board))

theorem filterMap_positions {α} (p : α → Bool) (l : List α) :
    (positions p l).filterMap (fun i => l[i]?) = l.filter p := by
  induction l using List.reverseRecOn with
  | nil => rfl
  | append_singleton l a ih =>
    rw [positions_snoc, List.filterMap_append, List.filter_append]
    congr 1
    · rw [← ih]
      apply List.filterMap_congr
      intro i hi
      obtain ⟨x, hx, -⟩ := (positions_get p l i).1 hi
      have : i < l.length := by
        by_contra h
        rw [List.getElem?_eq_none (by omega)] at hx
        cases hx
      exact List.getElem?_append_left this
    · by_cases h : p a <;> simp [h]

theorem foldl_display (colour : Nat → Int × Int × Int) (s : Store (ℝ × ℝ) Path)
    (l : List (Insertion (ℝ × ℝ) Path)) (hobs : s.obs = l.map (·.obs)) (hb : ∀ a ∈ l, a.obs.board < s.boards.length) :
    ∀ (is : List Nat) (acc : List Circle), is.foldl (displayObs colour s) acc =
      acc ++ circlesOf colour (is.filterMap fun i => l[i]?)
  | [], acc => by simp [circlesOf]
  | i :: is, acc => by
    rw [List.foldl_cons, foldl_display colour s l hobs hb is]
    unfold displayObs
    rw [hobs, List.getElem?_map]
    cases h : l[i]? with
    | none => simp [h]
    | some a =>
      have := hb a (List.mem_of_getElem? h)
      simp [h, this, circlesOf]

/-- After any insertions of detections, `displayBoards` draws, on the image of a camera in a frame, one circle for
each point detected in it, and nothing for another camera or frame. -/
theorem C110_drawn (colour : Nat → Int × Int × Int) (nCam nBoard : Nat) (l : List (Insertion (ℝ × ℝ) Path))
    (hl : ∀ a ∈ l, a.obs.cam < nCam ∧ a.obs.board < nBoard) (s : Store (ℝ × ℝ) Path)
    (hs : run nCam nBoard l = .ok s) (c f : Nat) :
    displayBoards colour s c f = circlesOf colour (l.filter fun a => a.obs.cam == c && a.obs.frame == f) := by
  obtain ⟨s', h1, h2⟩ := C06_indexes nCam nBoard l hl
  rw [hs] at h1
  cases h1
  unfold displayBoards
  cases hg : OMap.get? s.camObs (c, f) with
  | none =>
    have hk : (c, f) ∉ OMap.keys s.camObs := OMap.get?_eq_none.1 hg
    have : l.filter (fun a => a.obs.cam == c && a.obs.frame == f) = [] := by
      rw [List.filter_eq_nil_iff]
      intro a ha h
      apply hk
      rw [h2.camObs_key]
      simp only [Bool.and_eq_true, beq_iff_eq] at h
      exact ⟨a, ha, h⟩
    rw [this]
    rfl
  | some co =>
    simp only
    rw [(h2.camObs c f co hg).1, foldl_display colour s l h2.obs (fun a ha => by
      rw [h2.boards_length]; exact (hl a ha).2), filterMap_positions]
    rfl

/-- The image shown does not depend on the schedule of the detection, and shows what was detected in it: whatever
the order in which the tasks of the pool ran, its circles are those of the points accepted in that image. -/
theorem C110_schedule {K : Type} [Field K] [LinearOrder K] [Inhabited Path] (colour : Nat → Int × Int × Int)
    (fitLine : List (K × K) → K × K × K × K) (cfg : Cfg)
    (geoms : List (Geom K)) (nCam : Nat) (nFrames : Nat → Nat) (path : Nat → Nat → Path)
    (raw : Nat → Nat → Option (Nat → Raw (ℝ × ℝ))) (det : Nat → Nat → List (Insertion (ℝ × ℝ) Path))
    (hdet : ∀ c f, c < nCam → f < nFrames c →
      detectImage fitLine cfg geoms c f (path c f) (raw c f) = .ok (det c f))
    (l : List (Insertion (ℝ × ℝ) Path)) (h : Schedule (tasks nCam nFrames det) l) :
    ∃ s, run nCam geoms.length l = .ok s ∧
      ∀ c f, displayBoards colour s c f =
        if c < nCam ∧ f < nFrames c then circlesOf colour (det c f) else [] := by
  have hmem : ∀ a ∈ l, ∃ c f, c < nCam ∧ f < nFrames c ∧ a ∈ det c f := by
    intro a ha
    obtain ⟨ts, h3, h4⟩ := List.mem_flatMap.1 (h.perm.mem_iff.1 ha)
    obtain ⟨t, h5, h6⟩ := List.mem_flatten.1 h4
    obtain ⟨j, hj⟩ := List.mem_iff_getElem?.1 h5
    obtain ⟨c, hc, hj', rfl⟩ := getElem?_tasks h3 hj
    exact ⟨c, j, hc, hj', h6⟩
  have hl : ∀ a ∈ l, a.obs.cam < nCam ∧ a.obs.board < geoms.length := by
    intro a ha
    obtain ⟨c, f, hc, hf, hm⟩ := hmem a ha
    have := detectImage_mem (hdet c f hc hf) a hm
    exact ⟨by rw [this.1]; exact hc, this.2.2.2⟩
  obtain ⟨s, hs, -⟩ := C06_indexes nCam geoms.length l hl
  refine ⟨s, hs, fun c f => ?_⟩
  rw [C110_drawn colour nCam geoms.length l hl s hs]
  have hget : ∀ d ts j t, (tasks nCam nFrames det)[d]? = some ts → ts[j]? = some t →
      d < nCam ∧ j < nFrames d ∧ t = det d j := by
    intro d ts j t hd hj
    unfold tasks at hd
    rw [List.getElem?_map] at hd
    obtain ⟨x, hx, rfl⟩ := Option.map_eq_some_iff.1 hd
    obtain ⟨hx1, hx2⟩ := List.getElem?_eq_some_iff.1 hx
    rw [List.getElem_range] at hx2
    subst hx2
    rw [List.getElem?_map] at hj
    obtain ⟨y, hy, rfl⟩ := Option.map_eq_some_iff.1 hj
    obtain ⟨hy1, hy2⟩ := List.getElem?_eq_some_iff.1 hy
    rw [List.getElem_range] at hy2
    subst hy2
    exact ⟨by simpa using hx1, by simpa using hy1, rfl⟩
  split
  · rename_i hcf
    have hflt := h.filter (fun a => a.obs.cam == c && a.obs.frame == f) c f (by
      intro d ts j t hd hj hne a ha
      obtain ⟨hd', hj', rfl⟩ := hget d ts j t hd hj
      have := detectImage_mem (hdet d j hd' hj') a ha
      rw [this.1, this.2.1]
      by_contra hh
      apply hne
      simp only [Bool.not_eq_false, Bool.and_eq_true, beq_iff_eq] at hh
      rw [hh.1, hh.2])
    have hd : ((((tasks nCam nFrames det)[c]?).getD [])[f]?).getD [] = det c f := by
      unfold tasks
      simp [List.getElem?_map, List.getElem?_range, hcf.1, hcf.2]
    rw [hflt, hd]
    congr 1
    rw [List.filter_eq_self]
    intro a ha
    have := detectImage_mem (hdet c f hcf.1 hcf.2) a ha
    simp [this.1, this.2.1]
  · rename_i hcf
    have : l.filter (fun a => a.obs.cam == c && a.obs.frame == f) = [] := by
      rw [List.filter_eq_nil_iff]
      intro a ha hh
      obtain ⟨c', f', hc, hf, hm⟩ := hmem a ha
      have := detectImage_mem (hdet c' f' hc hf) a hm
      simp only [Bool.and_eq_true, beq_iff_eq] at hh
      rw [this.1, this.2.1] at hh
      obtain ⟨rfl, rfl⟩ := hh
      exact hcf ⟨hc, hf⟩
    rw [this]
    rfl

/-- A concrete case: two boards in the first image of camera 0, and one in that of camera 1. -/
example : ∃ s, run 2 2 [(⟨⟨0, 0, 1, [(1.5, 2)], [4]⟩, "a"⟩ : Insertion (ℝ × ℝ) String), ⟨⟨1, 0, 0, [(7, 7)], [0]⟩, "b"⟩,
      ⟨⟨0, 0, 0, [(3, -4.5), (0, 0)], [1, 2]⟩, "a"⟩] = .ok s ∧
    displayBoards (fun b => (b, 0, 0)) s 0 0 = [⟨1, 2, 1, 0, 0⟩, ⟨3, -4, 0, 0, 0⟩, ⟨0, 0, 0, 0, 0⟩] := by
  have hl : ∀ a ∈ [(⟨⟨0, 0, 1, [(1.5, 2)], [4]⟩, "a"⟩ : Insertion (ℝ × ℝ) String), ⟨⟨1, 0, 0, [(7, 7)], [0]⟩, "b"⟩,
      ⟨⟨0, 0, 0, [(3, -4.5), (0, 0)], [1, 2]⟩, "a"⟩], a.obs.cam < 2 ∧ a.obs.board < 2 := by
    simp
  obtain ⟨s, hs, -⟩ := C06_indexes 2 2 _ hl
  refine ⟨s, hs, ?_⟩
  rw [C110_drawn _ 2 2 _ hl s hs]
  have e1 : ⌊(1.5 : ℝ)⌋ = 1 := by rw [Int.floor_eq_iff]; norm_num
  have e2 : ⌈(-4.5 : ℝ)⌉ = -4 := by rw [Int.ceil_eq_iff]; norm_num
  have n2 : ¬ (0:ℝ) ≤ -4.5 := by norm_num
  have p1 : (0:ℝ) ≤ 1.5 := by norm_num
  simp [circlesOf, circle, toInt, e1, e2, n2, p1]

end Verif.Display
