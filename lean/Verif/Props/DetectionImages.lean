import Verif.Props.Finish
import Verif.Props.Display

/-! C65 and C110 together: what the saved detection images of a run mark is what was detected. -/
namespace Verif.Props.DetectionImages
open Verif Verif.Structure Verif.Objects Verif.Groups Verif.GroupPose Verif.NonOverlap Verif.Pipeline
open Verif.Spec.Groups Verif.Spec.Structure Verif.Spec.NonOverlap Verif.Spec.Pipeline Verif.Lemmas.Pipeline
open Verif.Spec.Finish Verif.Lemmas.FinishRun Verif.Spec.Report Verif.Spec.Images

variable {V G Pt Path : Type}

section
variable [Group G] [SMul G Pt] (nCam nBoard : Nat) (l : List (Insertion (ℝ × ℝ) Path))
  (hl : ∀ a ∈ l, a.obs.cam < nCam ∧ a.obs.board < nBoard) (s : Store (ℝ × ℝ) Path)
  (hs : Store.run nCam nBoard l = .ok s) (obs : List (BoardObs (ℝ × ℝ)))
  (hobs : Spec.Objects.SameViews s.obs obs) (bpts : List (List Pt)) (hb : bpts.length = nBoard)
  (n : Numerics V G) (fix : Int) (r : State G Pt (ℝ × ℝ) × OMap (Nat × Nat) (OMap Nat V))
  (hr : Finish.run n fix bpts s obs = .ok r)

include hl hs hobs hb hr in
/-- C65: at the end of a calibration that ends, the circles of the detection image of a camera in a frame are those of the
pixels that the removal of outliers left of the boards detected there, each in the colour of the object of its board: none
is missing and there is no other. -/
theorem C65_corners (colour : Nat → Int × Int × Int) (c f : Nat) (ci : Images.Circle) :
    ci ∈ detections colour r.1.oo c f ↔
      ∃ bo ∈ obs, bo.cam = c ∧ bo.frame = f ∧ ∃ i ob, OMap.get? r.1.objs i = some ob ∧
        bo.board ∈ OMap.keys ob.boards ∧ ∃ q ∈ bo.pts, ci = mark (colour i) q := by
  obtain ⟨h, _⟩ := Props.Finish.ends nCam nBoard l hl s hs obs hobs bpts hb n fix r hr
  have hpts : ∀ (ob : Object G Pt) c f q, q ∈ (Spec.Objects.objObs ob obs c f).pts ↔
      ∃ bo ∈ obs, bo.cam = c ∧ bo.frame = f ∧ bo.board ∈ OMap.keys ob.boards ∧ q ∈ bo.pts := by
    intro ob c f q
    unfold Spec.Objects.objObs
    rw [List.mem_flatMap]
    constructor
    · rintro ⟨bo, hbo, hq⟩
      obtain ⟨i, hi, he⟩ := List.mem_filterMap.1 hbo
      obtain ⟨bo', hbo', hp⟩ := (Props.Store.positions_get _ _ _).1 hi
      rw [he] at hbo'
      simp only [Option.some.injEq] at hbo'
      subst hbo'
      simp only [Bool.and_eq_true, beq_iff_eq, decide_eq_true_eq] at hp
      exact ⟨bo, List.mem_of_getElem? he, hp.1.1, hp.1.2, hp.2, hq⟩
    · rintro ⟨bo, hbo, h1, h2, h3, hq⟩
      obtain ⟨i, hi⟩ := List.getElem?_of_mem hbo
      exact ⟨bo, List.mem_filterMap.2 ⟨i, (Props.Store.positions_get _ _ _).2 ⟨bo, hi, by simp [h1, h2, h3]⟩, hi⟩, hq⟩
  unfold detections seenBy
  simp only [List.mem_flatMap, List.mem_filter, List.mem_map, Bool.and_eq_true, beq_iff_eq]
  constructor
  · rintro ⟨o, ⟨ho, rfl, rfl⟩, q, hq, rfl⟩
    obtain ⟨ob, h1, h2, -⟩ := mem_oo s obs bpts h ho
    rw [h2] at hq
    obtain ⟨bo, hbo, q1, q2, q3, q4⟩ := (hpts ob _ _ q).1 hq
    exact ⟨bo, hbo, q1, q2, o.obj, ob, h1, q3, q, q4, rfl⟩
  · rintro ⟨bo, hbo, rfl, rfl, i, ob, hob, hm, q, hq, rfl⟩
    obtain ⟨o, ho, q1, q2, q3⟩ := (h.consistent.sees i bo.cam bo.frame).2
      ⟨ob, hob, bo, hbo, rfl, rfl, hm, List.ne_nil_of_mem hq⟩
    obtain ⟨ob', h1, h2, -⟩ := mem_oo s obs bpts h ho
    rw [q1, hob] at h1
    simp only [Option.some.injEq] at h1
    subst h1
    refine ⟨o, ⟨ho, q3, q2⟩, q, ?_, by rw [q1]⟩
    rw [h2, hpts]
    exact ⟨bo, hbo, q2.symm, q3.symm, hm, hq⟩

include hl hs hobs hb hr in
/-- In particular every board of which a pixel is left is in exactly one object, and each such pixel is marked, in the
colour of that object. -/
theorem C65_every_corner (colour : Nat → Int × Int × Int) (bo : BoardObs (ℝ × ℝ)) (hbo : bo ∈ obs) (q : ℝ × ℝ)
    (hq : q ∈ bo.pts) : ∃ i ob, OMap.get? r.1.objs i = some ob ∧ bo.board ∈ OMap.keys ob.boards ∧
      mark (colour i) q ∈ detections colour r.1.oo bo.cam bo.frame ∧
      ∀ j ob', OMap.get? r.1.objs j = some ob' → bo.board ∈ OMap.keys ob'.boards → j = i := by
  obtain ⟨h, _⟩ := Props.Finish.ends nCam nBoard l hl s hs obs hobs bpts hb n fix r hr
  obtain ⟨i, ob, hob, hm⟩ := h.joins.boards bo hbo (List.ne_nil_of_mem hq)
  exact ⟨i, ob, hob, hm, (C65_corners nCam nBoard l hl s hs obs hobs bpts hb n fix r hr colour bo.cam bo.frame _).2
    ⟨bo, hbo, rfl, rfl, i, ob, hob, hm, q, hq, rfl⟩,
    fun j ob' hj hjm => h.consistent.objs.disjoint j i ob' ob hj hob bo.board hjm hm⟩

include hl hs hobs hb hr in
/-- C110: displayBoards, called after the detection on the image of a camera in a frame, marks every place that the
saved detection image of that camera and frame marks; and no others if no outlier is removed there. -/
theorem C110_saved (hsub : ∀ bo ∈ obs, ∃ a ∈ l, a.obs.cam = bo.cam ∧ a.obs.frame = bo.frame ∧ ∀ q ∈ bo.pts, q ∈ a.obs.pts)
    (colour colour' : Nat → Int × Int × Int) (c f : Nat) :
    (∀ ci ∈ detections colour r.1.oo c f, ∃ ci' ∈ Display.displayBoards colour' s c f, ci'.x = ci.x ∧ ci'.y = ci.y) ∧
    ((∀ a ∈ l, a.obs.cam = c → a.obs.frame = f → a.obs ∈ obs) →
      ∀ ci' ∈ Display.displayBoards colour' s c f, ∃ ci ∈ detections colour r.1.oo c f, ci.x = ci'.x ∧ ci.y = ci'.y) := by
  have hcirc : ∀ col q, Images.circle col q = mark col q := fun col q => by
    simp only [Images.circle, mark, Images.toInt, cut, Int.floor_neg, neg_neg]
  rw [Display.C110_drawn colour' nCam nBoard l hl s hs c f]
  unfold Display.circlesOf
  simp only [List.mem_flatMap, List.mem_filter, List.mem_map, Bool.and_eq_true, beq_iff_eq, hcirc]
  constructor
  · intro ci hci
    obtain ⟨bo, hbo, rfl, rfl, i, ob, -, -, q, hq, rfl⟩ :=
      (C65_corners nCam nBoard l hl s hs obs hobs bpts hb n fix r hr colour c f ci).1 hci
    obtain ⟨a, ha, h1, h2, h3⟩ := hsub bo hbo
    exact ⟨_, ⟨a, ⟨ha, h1, h2⟩, q, h3 q hq, rfl⟩, rfl, rfl⟩
  · rintro hall ci' ⟨a, ⟨ha, h1, h2⟩, q, hq, rfl⟩
    obtain ⟨i, ob, -, -, hm, -⟩ := C65_every_corner nCam nBoard l hl s hs obs hobs bpts hb n fix r hr colour a.obs
      (hall a ha h1 h2) q hq
    rw [h1, h2] at hm
    exact ⟨_, hm, rfl, rfl⟩

end

open Props.Finish in
/-- A concrete case: two cameras see one corner; the image of camera 1 in frame 0 is marked at (5, 6), as displayBoards
marks it, whatever the numerical results. -/
example [Group G] [SMul G Pt] (n : Numerics V G) (p0 : Pt) : ∃ s r, Store.run 2 1 pair = .ok s ∧ Finish.run n 0 [[p0]] s (pair.map (·.obs)) = .ok r ∧
    mark (1, 2, 3) (5, 6) ∈ detections (fun _ => (1, 2, 3)) r.1.oo 1 0 ∧
    ∃ ci ∈ Display.displayBoards (fun _ => (9, 9, 9)) s 1 0, ci.x = (mark (1, 2, 3) (5, 6)).x := by
  have hl : ∀ a ∈ pair, a.obs.cam < 2 ∧ a.obs.board < 1 := by
    intro a ha
    simp only [pair, List.mem_cons, List.not_mem_nil, or_false] at ha
    rcases ha with rfl | rfl <;> simp
  obtain ⟨s, hs, hd⟩ := Props.Store.C06_indexes 2 1 pair hl
  have hob : s.obs = pair.map (·.obs) := hd.obs
  have hsv : Spec.Objects.SameViews s.obs (pair.map (·.obs)) := ⟨by rw [hob], by
    intro o ho
    simp only [pair, List.map_cons, List.map_nil, List.mem_cons, List.not_mem_nil, or_false] at ho
    rcases ho with rfl | rfl <;> rfl⟩
  have hoc : ∀ c, c ∈ observingCams 2 pair ↔ c = 0 ∨ c = 1 := by
    intro c
    have : observingCams 2 pair = [0, 1] := rfl
    rw [this]; simp
  have hlk : ∀ a b, a ≠ b → (a = 0 ∨ a = 1) → (b = 0 ∨ b = 1) → CamsLinked pair (pair.map (·.obs)) a b := by
    rintro a b hne (rfl | rfl) (rfl | rfl)
    · exact absurd rfl hne
    · exact ⟨hne, _, List.mem_cons_self, _, List.mem_cons_of_mem _ List.mem_cons_self, rfl, rfl, rfl, by simp, by simp,
        Relation.ReflTransGen.refl⟩
    · exact ⟨hne, _, List.mem_cons_of_mem _ List.mem_cons_self, _, List.mem_cons_self, rfl, rfl, rfl, by simp, by simp,
        Relation.ReflTransGen.refl⟩
    · exact absurd rfl hne
  obtain ⟨r, hr, -⟩ := C78_one_group 2 1 pair hl s hs (pair.map (·.obs)) hsv [[p0]] rfl n 0 (by
    intro a ha b hb
    by_cases h : a = b
    · rw [h]
    · exact .single (hlk a b h ((hoc a).1 ha) ((hoc b).1 hb))) ⟨_, List.mem_cons_self, by simp⟩
  refine ⟨s, r, hs, hr, ?_⟩
  have hm : mark (1, 2, 3) (5, 6) ∈ detections (fun _ => (1, 2, 3)) r.1.oo 1 0 := by
    have hmem : (⟨1, 0, 0, [(5, 6)], [0]⟩ : BoardObs (ℝ × ℝ)) ∈ pair.map (·.obs) := List.mem_cons_of_mem _ List.mem_cons_self
    have hq : ((5, 6) : ℝ × ℝ) ∈ (⟨1, 0, 0, [(5, 6)], [0]⟩ : BoardObs (ℝ × ℝ)).pts := List.mem_cons_self
    have k1 := C65_every_corner 2 1 pair hl s hs (pair.map (·.obs)) hsv [[p0]] rfl n 0 r
    have k2 := k1 hr (fun _ => (1, 2, 3))
    have k3 := k2 _ hmem
    obtain ⟨i, ob, -, -, h, -⟩ := k3 _ hq
    exact h
  refine ⟨hm, ?_⟩
  have hsub : ∀ bo ∈ pair.map (·.obs), ∃ a ∈ pair, a.obs.cam = bo.cam ∧ a.obs.frame = bo.frame ∧
      ∀ q ∈ bo.pts, q ∈ a.obs.pts := by
    intro bo hbo
    obtain ⟨a, ha, rfl⟩ := List.mem_map.1 hbo
    exact ⟨a, ha, rfl, rfl, fun q hq => hq⟩
  have k4 := C110_saved 2 1 pair hl s hs (pair.map (·.obs)) hsv [[p0]] rfl n 0 r
  have k5 := k4 hr hsub (fun _ => (1, 2, 3)) (fun _ => (9, 9, 9)) 1 0
  obtain ⟨ci, h1, h2, -⟩ := k5.1 _ hm
  exact ⟨ci, h1, h2⟩

end Verif.Props.DetectionImages
