import Verif.Model.Figure
import Mathlib.Tactic.Linarith
import Mathlib.Tactic.Ring
import Mathlib.Data.Fintype.Basic
import Mathlib.Tactic.FinCases
import Mathlib.Tactic.LinearCombination
import Mathlib.Data.Fin.VecNotation

/-! C109: the axes of a figure get equal ranges, and nothing that was in view leaves it. -/
namespace Verif.Figure

/-- A point is in view: each coordinate is between the limits of its axis, whichever of them is the larger. -/
def InView (l : Limits) (p : Fin 3 → ℝ) : Prop :=
  ∀ d, min (l d).1 (l d).2 ≤ p d ∧ p d ≤ max (l d).1 (l d).2

/-- Where a value is drawn along an axis: 0 at the first limit, 1 at the second. -/
noncomputable def drawnAt (l : Limits) (d : Fin 3) (v : ℝ) : ℝ := (v - (l d).1) / ((l d).2 - (l d).1)

theorem size_le (l : Limits) (d : Fin 3) : |size l d| ≤ maxsize l := by
  unfold maxsize
  fin_cases d
  · exact le_trans (le_max_left _ _) (le_max_left _ _)
  · exact le_trans (le_max_right _ _) (le_max_left _ _)
  · exact le_max_right _ _

theorem maxsize_mem (l : Limits) : ∃ d, maxsize l = |size l d| := by
  unfold maxsize
  rcases max_choice (max |size l 0| |size l 1|) |size l 2| with h | h
  · rcases max_choice |size l 0| |size l 1| with k | k
    · exact ⟨0, by rw [h, k]⟩
    · exact ⟨1, by rw [h, k]⟩
  · exact ⟨2, h⟩

theorem maxsize_nonneg (l : Limits) : 0 ≤ maxsize l := le_trans (abs_nonneg _) (size_le l 0)

/-- Nothing leaves the view. -/
theorem C109_view (l : Limits) (p : Fin 3 → ℝ) (h : InView l p) : InView (axisEqual3d l) p := by
  intro d
  obtain ⟨h1, h2⟩ := h d
  have hm := size_le l d
  have h0 := maxsize_nonneg l
  have hs : |(l d).2 - (l d).1| ≤ maxsize l := hm
  rw [abs_le] at hs
  simp only [axisEqual3d, center]
  rw [min_eq_left (by linarith), max_eq_right (by linarith)]
  rcases le_total (l d).1 (l d).2 with k | k
  · rw [min_eq_left k] at h1; rw [max_eq_right k] at h2
    constructor <;> linarith
  · rw [min_eq_right k] at h1; rw [max_eq_left k] at h2
    constructor <;> linarith

/-- The three ranges have the same length, that of the longest range before; each is centered where it was, and runs
upwards. -/
theorem C109_ranges (l : Limits) :
    (∀ d e, (axisEqual3d l d).2 - (axisEqual3d l d).1 = (axisEqual3d l e).2 - (axisEqual3d l e).1) ∧
    (∀ d, |(l d).2 - (l d).1| ≤ (axisEqual3d l d).2 - (axisEqual3d l d).1) ∧
    (∃ d, |(l d).2 - (l d).1| = (axisEqual3d l d).2 - (axisEqual3d l d).1) ∧
    (∀ d, (axisEqual3d l d).1 + (axisEqual3d l d).2 = (l d).1 + (l d).2) ∧
    (∀ d, (axisEqual3d l d).1 ≤ (axisEqual3d l d).2) := by
  have h0 := maxsize_nonneg l
  have hl : ∀ d, (axisEqual3d l d).2 - (axisEqual3d l d).1 = maxsize l := by
    intro d; simp only [axisEqual3d]; ring
  refine ⟨fun d e => by rw [hl, hl], fun d => by rw [hl]; exact size_le l d, ?_, ?_, fun d => by linarith [hl d]⟩
  · obtain ⟨d, hd⟩ := maxsize_mem l
    exact ⟨d, by rw [hl, hd]; rfl⟩
  · intro d; simp only [axisEqual3d, center]; ring

/-- These are the only limits of which that holds: the same centers, one length, not less than any length before, and
equal to one. -/
theorem C109_unique (l m : Limits) (r : ℝ)
    (hr : ∀ d, (m d).2 - (m d).1 = r) (hc : ∀ d, (m d).1 + (m d).2 = (l d).1 + (l d).2)
    (hge : ∀ d, |(l d).2 - (l d).1| ≤ r) (heq : ∃ d, |(l d).2 - (l d).1| = r) : m = axisEqual3d l := by
  have hm : maxsize l = r := by
    obtain ⟨d, hd⟩ := heq
    obtain ⟨e, he⟩ := maxsize_mem l
    apply le_antisymm
    · rw [he]; exact hge e
    · rw [← hd]; exact size_le l d
  funext d
  have a := hr d
  have b := hc d
  apply Prod.ext
  · simp only [axisEqual3d, center, hm]; linarith
  · simp only [axisEqual3d, center, hm]; linarith

/-- Equal differences are drawn equally long on whichever axes they are: a segment along x and one as long along z
take the same part of their axes. -/
theorem C109_scale (l : Limits) (d e : Fin 3) (v w v' w' : ℝ) (h : v - w = v' - w') :
    drawnAt (axisEqual3d l) d v - drawnAt (axisEqual3d l) d w =
      drawnAt (axisEqual3d l) e v' - drawnAt (axisEqual3d l) e w' := by
  have hl := (C109_ranges l).1 d e
  unfold drawnAt
  rw [← sub_div, ← sub_div, hl]
  congr 1
  linarith

/-- Doing it again changes nothing, and moving or scaling everything plotted moves or scales the limits with it. -/
theorem C109_again (l : Limits) : axisEqual3d (axisEqual3d l) = axisEqual3d l := by
  obtain ⟨h1, _, _, _, h5⟩ := C109_ranges l
  refine (C109_unique (axisEqual3d l) (axisEqual3d l) ((axisEqual3d l 0).2 - (axisEqual3d l 0).1)
    (fun d => h1 d 0) (fun _ => rfl) (fun d => ?_) ⟨0, ?_⟩).symm
  · rw [abs_of_nonneg (by linarith [h5 d]), h1 d 0]
  · rw [abs_of_nonneg (by linarith [h5 0])]

theorem C109_moved (l : Limits) (t : Fin 3 → ℝ) (s : ℝ) (hs : 0 ≤ s) :
    axisEqual3d (fun d => (s * (l d).1 + t d, s * (l d).2 + t d)) =
      fun d => (s * (axisEqual3d l d).1 + t d, s * (axisEqual3d l d).2 + t d) := by
  obtain ⟨h1, h2, ⟨k, h3⟩, h4, _⟩ := C109_ranges l
  have hk : ∀ d, |s * (l d).2 + t d - (s * (l d).1 + t d)| = s * |(l d).2 - (l d).1| := by
    intro d
    rw [show s * (l d).2 + t d - (s * (l d).1 + t d) = s * ((l d).2 - (l d).1) by ring, abs_mul, abs_of_nonneg hs]
  refine (C109_unique _ _ (s * ((axisEqual3d l 0).2 - (axisEqual3d l 0).1)) (fun d => ?_) (fun d => ?_)
    (fun d => ?_) ⟨k, ?_⟩).symm
  · have := h1 d 0
    linear_combination s * this
  · have := h4 d
    linear_combination s * this
  · simp only [hk]
    have := h2 d
    rw [h1 d 0] at this
    exact mul_le_mul_of_nonneg_left this hs
  · simp only [hk]
    rw [h3, h1 k 0]

/-- A concrete case: ranges 0..4, 10..8 (inverted) and -1..1; the point (1, 9, 0) is in view before and after, and the
ranges become 0..4, 7..11 and -2..2. -/
example : let l : Limits := ![(0, 4), (10, 8), (-1, 1)]
    InView l ![1, 9, 0] ∧ axisEqual3d l = ![(0, 4), (7, 11), (-2, 2)] := by
  intro l
  constructor
  · intro d
    fin_cases d <;> simp [l] <;> norm_num
  · refine (C109_unique l _ 4 ?_ ?_ ?_ ⟨0, ?_⟩).symm
    · intro d; fin_cases d <;> simp <;> norm_num
    · intro d; fin_cases d <;> simp [l] <;> norm_num
    · intro d; fin_cases d <;> simp [l, abs_le] <;> norm_num
    · simp [l]

end Verif.Figure
