import Verif.Props.Noise
import Verif.Props.GroupPose

/-! C95 for the poses of objects in a camera group. -/
namespace Verif.Props.NoiseObjects
open Verif Verif.Spec.Majority Verif.Spec.Noise Verif.Average Verif.Props.Majority
open Verif.Rigid Verif.Quaternion Verif.Lemmas.Rodrigues Verif.Lemmas.Noise

/-- Means of numbers within `δ` of `c` are within `δ` of `c`. -/
theorem mean_close (l : List ℝ) (c δ : ℝ) (hne : l ≠ []) (h : ∀ x ∈ l, |x - c| ≤ δ) : |l.foldl (· + ·) 0 / (l.length : ℝ) - c| ≤ δ := by
  rw [← List.sum_eq_foldl]
  have hn : (0 : ℝ) < l.length := by exact_mod_cast List.length_pos_of_ne_nil hne
  have h1 : l.sum ≤ l.length * (c + δ) := by
    have := List.sum_le_card_nsmul l (c + δ) fun x hx => by have := (abs_le.1 (h x hx)).2; linarith
    rwa [nsmul_eq_mul] at this
  have h2 : l.length * (c - δ) ≤ l.sum := by
    have := List.card_nsmul_le_sum l (c - δ) fun x hx => by have := (abs_le.1 (h x hx)).1; linarith
    rwa [nsmul_eq_mul] at this
  rw [abs_le]
  constructor
  · rw [neg_le_sub_iff_le_add, ← sub_le_iff_le_add, le_div_iff₀ hn]
    linarith
  · rw [sub_le_iff_le_add, div_le_iff₀ hn]
    linarith

theorem groupAverage_near (ps : List (Vec6 ℝ)) (hne : ps ≠ []) (x : Vec6 ℝ) (δ : ℝ) (h : ∀ p ∈ ps, Near δ p x) :
    Near δ (groupAverageVec ps) x := by
  have hm : ∀ (f : Vec6 ℝ → ℝ) (c : ℝ), (∀ p ∈ ps, |f p - c| ≤ δ) → |median (ps.map f) - c| ≤ δ := fun f c hf =>
    median_near ps f c δ ⟨ps, [], by simp, by simpa using List.length_pos_of_ne_nil hne, hf⟩
  have ht : ∀ (f : Vec6 ℝ → ℝ) (c : ℝ), (∀ p ∈ ps, |f p - c| ≤ δ) → |(ps.map f).foldl (· + ·) 0 / (ps.length : ℝ) - c| ≤ δ := by
    intro f c hf
    have := mean_close (ps.map f) c δ (by simpa using hne) (by
      intro y hy
      obtain ⟨p, hp, rfl⟩ := List.mem_map.1 hy
      exact hf p hp)
    rwa [List.length_map] at this
  exact ⟨hm _ _ fun p hp => (h p hp).r1, hm _ _ fun p hp => (h p hp).r2, hm _ _ fun p hp => (h p hp).r3,
    ht _ _ fun p hp => (h p hp).t1, ht _ _ fun p hp => (h p hp).t2, ht _ _ fun p hp => (h p hp).t3⟩

/-- C95 (objects in a camera group): if every camera of the group that sees an object in a frame places it within `δ` of a
pose in each of the six numbers, so does the group, and no point `p` of the object is further than `√3 δ (1 + |p|)` from
where that pose has it. The entries of a group observation carry the object and its pose in the group by each camera. -/
theorem C95_objects (ref : Nat) (m : OMap Nat (Vec6 ℝ)) (hm : OMap.Sorted m) (es : List (GroupPose.Entry (Vec6 ℝ))) (o : Nat)
    (ho : o ∈ es.map (·.obj)) (x : Vec6 ℝ) (δ : ℝ) (h : ∀ e ∈ es, e.obj = o → Near δ e.inGroup x) :
    ∃ v, OMap.get? (GroupPose.computeObjectsPose groupAverageVec ref m es).1 o = some v ∧ Near δ v x ∧
      Off (Real.sqrt 3 * δ) (Real.sqrt 3 * δ) (Pose.ofVec rod rod_sound v) (Pose.ofVec rod rod_sound x) := by
  have key : ∃ v, OMap.get? (GroupPose.computeObjectsPose groupAverageVec ref m es).1 o = some v ∧ Near δ v x := by
    cases hr : (Props.GroupPose.byRef ref es o).getLast? with
    | some e =>
      refine ⟨_, Props.GroupPose.C26_reference groupAverageVec ref m hm es o e hr, ?_⟩
      have := List.mem_of_getLast? hr
      simp only [Props.GroupPose.byRef, List.mem_filter, Bool.and_eq_true, beq_iff_eq] at this
      exact h e this.1 this.2.1
    | none =>
      refine ⟨_, Props.GroupPose.C26_average ref m hm es o ho (List.getLast?_eq_none_iff.1 hr), ?_⟩
      obtain ⟨e, he, heo⟩ := List.mem_map.1 ho
      apply groupAverage_near
      · intro hnil
        rw [List.map_eq_nil_iff] at hnil
        have h' : e ∈ Props.GroupPose.ofObject es o := List.mem_filter.2 ⟨he, by simpa using heo⟩
        rw [hnil] at h'
        exact absurd h' (List.not_mem_nil)
      · intro z hz
        obtain ⟨e', he', rfl⟩ := List.mem_map.1 hz
        simp only [Props.GroupPose.ofObject, List.mem_filter, beq_iff_eq] at he'
        exact h e' he'.1 he'.2
  obtain ⟨v, h1, h2⟩ := key
  exact ⟨v, h1, h2, off_of_near h2⟩

/-- Two cameras, none of them the reference camera, see object 5; their estimates differ by less than a tenth. -/
example : ∃ v : Vec6 ℝ, OMap.get? (GroupPose.computeObjectsPose groupAverageVec 0 []
      [⟨1, 5, ⟨0, 0, 0, 1, 2, 3⟩⟩, ⟨1, 6, ⟨0, 0, 1, 9, 9, 9⟩⟩, ⟨2, 5, ⟨0, 0.1, 0, 1, 2.1, 3⟩⟩]).1 5 = some v ∧
    Near 0.1 v ⟨0, 0, 0, 1, 2, 3⟩ := by
  obtain ⟨v, h1, h2, _⟩ := C95_objects 0 [] List.Pairwise.nil
    [⟨1, 5, ⟨0, 0, 0, 1, 2, 3⟩⟩, ⟨1, 6, ⟨0, 0, 1, 9, 9, 9⟩⟩, ⟨2, 5, ⟨0, 0.1, 0, 1, 2.1, 3⟩⟩] 5 (by simp) ⟨0, 0, 0, 1, 2, 3⟩ 0.1 (by
      intro e he heo
      simp only [List.mem_cons, List.not_mem_nil, or_false] at he
      rcases he with rfl | rfl | rfl
      · constructor <;> norm_num
      · exact absurd heo (by simp)
      · constructor <;> norm_num)
  exact ⟨v, h1, h2⟩

end Verif.Props.NoiseObjects
