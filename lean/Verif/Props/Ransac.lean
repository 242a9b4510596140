import Verif.Lemmas.Ransac
import Mathlib.Analysis.SpecialFunctions.Log.Deriv
import Mathlib.Analysis.SpecialFunctions.Pow.Real
import Mathlib.Analysis.Complex.ExponentialBounds

/-!
C29: the robust pose search, for every solver, distance, stopping rule and sequence of shuffles.
`model k` is the pose solved at the k-th trial (whether or not the search gets that far), `inliers p` the
indexes of the correspondences with error below the threshold under `p` (`Spec/Ransac.lean`).
-/
namespace Verif.Props.Ransac
open Verif Verif.Ransac Verif.Lemmas.Ransac

variable {P3 P2 Pose E : Type} [LinearOrder E]

/-- C29: what an inlier is. -/
theorem C29_inlier (lib : Lib P3 P2 Pose E) (scene : List P3) (image : List P2) (p : Pose) (i : Nat) :
    i ∈ inliers lib scene image p ↔
      ∃ a b, scene[i]? = some a ∧ image[i]? = some b ∧ lib.err p a b < lib.thresh := by
  unfold inliers
  rw [List.mem_filter, List.mem_range]
  constructor
  · rintro ⟨hi, h⟩
    obtain ⟨⟨a, b⟩, hab⟩ : ∃ s, (scene.zip image)[i]? = some s := ⟨_, List.getElem?_eq_getElem hi⟩
    rw [hab] at h
    rw [List.getElem?_zip_eq_some] at hab
    exact ⟨a, b, hab.1, hab.2, by simpa [isInlier] using h⟩
  · rintro ⟨a, b, ha, hb, h⟩
    have hz : (scene.zip image)[i]? = some (a, b) := by rw [List.getElem?_zip_eq_some]; exact ⟨ha, hb⟩
    refine ⟨(List.getElem?_eq_some_iff.1 hz).1, ?_⟩
    rw [hz]; simpa [isInlier] using h

private theorem finish_pts (scene : List P3) (image : List P2) : ∀ (l : List Nat) (acc : List (P3 × P2)),
    (∀ i ∈ l, ∃ s, (scene.zip image)[i]? = some s) →
    Outcome.foldlM (gatherPoint scene image) acc l =
      .ok (acc ++ l.filterMap fun i => (scene.zip image)[i]?)
  | [], acc, _ => by simp
  | i :: l, acc, h => by
    obtain ⟨s, hs⟩ := h i List.mem_cons_self
    rw [Outcome.foldlM_cons, gatherPoint, sampleAt_ok _ _ _ _ hs]
    simp only [Outcome.bind_ok, Outcome.pure_eq]
    rw [finish_pts scene image l _ (fun j hj => h j (List.mem_cons_of_mem _ hj))]
    simp [hs]

/-- C29: with at least four correspondences the search returns after some number `n ≤ it` of trials.  No
model tried had more inliers than reported.  Either no tried model had any inlier: then all `it` trials
were done, nothing is reported and the caller's pose is left as it was; or the reported inliers are those
of a tried model `j`, the first with that many, and the pose is that model's, refined on its inliers if
they are at least four.  The search stops exactly when, since the last improvement, as many trials were
done as the stopping rule asks for, or at `it`. -/
theorem C29_search (lib : Lib P3 P2 Pose E) (hs : ∀ k l, (lib.shuffle k l).Perm l) (scene : List P3)
    (image : List P2) (hl : scene.length = image.length) (hn : 4 ≤ image.length) (it : Nat)
    (doRefine : Bool) (init cur : Pose) :
    ∃ n ≤ it, ∃ inl pose, ransacP3P lib scene image it doRefine init cur = .ok (inl, pose) ∧
      (∀ i < n, (inliers lib scene image (model lib scene image cur i)).length ≤ inl.length) ∧
      ((inl = [] ∧ pose = init ∧ n = it) ∨
       ∃ j < n, let m := model lib scene image cur j
        inl = inliers lib scene image m ∧ inl ≠ [] ∧
        (∀ i < j, (inliers lib scene image (model lib scene image cur i)).length < inl.length) ∧
        pose = (if doRefine = true ∧ 4 ≤ inl.length then
          lib.refine m (inl.filterMap fun i => (scene.zip image)[i]?) else m) ∧
        (n = it ∨ lib.trials inl.length scene.length ≤ (n : Int) - 1 - j) ∧
        (j + 1 < n → (n : Int) - 1 - j ≤ lib.trials inl.length scene.length)) := by
  obtain ⟨n, st, h1, h2, -, h4, h5⟩ := loop_after lib hs scene image hl hn it init cur it 0 _
    (After.start lib scene image it init cur)
  rw [Nat.zero_add] at h4 h5
  refine ⟨n, h4, ?_⟩
  unfold ransacP3P
  rw [h1, Outcome.bind_ok]
  have hfin : ∃ pose, finish lib scene image doRefine st = .ok (st.inl, pose) ∧
      pose = (if doRefine = true ∧ 4 ≤ st.inl.length then
          lib.refine st.best (st.inl.filterMap fun i => (scene.zip image)[i]?) else st.best) := by
    unfold finish
    rw [h2.nb]
    split_ifs with hr
    · have hin : ∀ i ∈ st.inl, ∃ s, (scene.zip image)[i]? = some s := by
        rcases h2.best with ⟨e, -⟩ | ⟨j, -, -, e, -⟩
        · rw [e]; simp
        · rw [e]; exact fun i hi => inliers_lt lib scene image _ i hi
      rw [finish_pts scene image st.inl [] hin]
      exact ⟨_, rfl, rfl⟩
    · exact ⟨_, rfl, rfl⟩
  obtain ⟨pose, hp, hpe⟩ := hfin
  refine ⟨st.inl, pose, hp, fun i hi => h2.nb ▸ h2.le i hi, ?_⟩
  rcases h2.best with ⟨e1, e2, e3, e4⟩ | ⟨j, hj, e1, e2, e3, e4, e5, e6, e7⟩
  · left
    refine ⟨e1, ?_, ?_⟩
    · rw [hpe, e1]; simp [e2]
    · rcases h5 with h5 | h5
      · exact h5
      · rw [e3, e4] at h5; omega
  · right
    refine ⟨j, hj, ?_⟩
    rw [h2.nb] at e3 e4 e5
    simp only []
    rw [e1] at e2 hpe
    refine ⟨e2, List.ne_nil_of_length_pos e3, e4, hpe, ?_, ?_⟩
    · rcases h5 with h5 | h5
      · left; exact h5
      · right; rw [← e5]; omega
    · intro hjn
      rw [← e5]; omega

/-- C29: on fewer than four image points (and at least one trial allowed) the four sampled indexes are
read out of range, whatever the shuffle does. -/
theorem C29_few_points (lib : Lib P3 P2 Pose E) (hs : ∀ k l, (lib.shuffle k l).Perm l) (scene : List P3)
    (image : List P2) (hn : image.length < 4) (it : Nat) (hit : 0 < it) (doRefine : Bool) (init cur : Pose) :
    ransacP3P lib scene image it doRefine init cur = .ub := by
  obtain ⟨it, rfl⟩ : ∃ k, it = k + 1 := ⟨it - 1, by omega⟩
  unfold ransacP3P loop
  have h : (((0 : Nat) : Int) < ((it + 1 : Nat) : Int)) := by push_cast; omega
  rw [if_pos h]
  unfold step
  simp only []
  rw [sample_ub _ _ _ (by rw [(hs _ _).length_eq, List.length_range]; exact hn)]
  rfl

/-- C29: with no trial allowed nothing is touched. -/
theorem C29_no_trials (lib : Lib P3 P2 Pose E) (scene : List P3) (image : List P2) (doRefine : Bool)
    (init cur : Pose) : ransacP3P lib scene image 0 doRefine init cur = .ok ([], init) := by
  simp [ransacP3P, loop, finish]

/-! ### The stopping rule of the code, `trials 0.99` -/

private theorem noOutliers_bounds (b t : Nat) : noOutliers b t ≤ 1 - 0.00001 := by
  unfold noOutliers
  simp only []
  split_ifs <;> first | linarith | norm_num

private theorem noOutliers_pos (b t : Nat) (hb : b ≤ t) : 0 < noOutliers b t := by
  have hf : ((b : ℝ) / t) ^ 3 ≤ 1 := by
    apply pow_le_one₀ (by positivity)
    rcases Nat.eq_zero_or_pos t with h | h
    · subst h; simp
    · rw [div_le_one (by positivity)]; exact_mod_cast hb
  unfold noOutliers
  simp only []
  split_ifs with h1 h2 h2
  · norm_num
  · norm_num
  · norm_num
  · exact lt_of_le_of_ne (by linarith) (Ne.symm h1)

private theorem log_noOutliers_neg (b t : Nat) (hb : b ≤ t) : Real.log (noOutliers b t) < 0 :=
  Real.log_neg (noOutliers_pos b t hb) (by have := noOutliers_bounds b t; norm_num at this ⊢; linarith)

/-- C29: rounding gives a nearest integer, of halves the one away from zero. -/
theorem C29_round (x : ℝ) : |(roundHalfAway x : ℝ) - x| ≤ 1 / 2 ∧
    (|(roundHalfAway x : ℝ) - x| = 1 / 2 → |x| ≤ |(roundHalfAway x : ℝ)|) := by
  unfold roundHalfAway
  split_ifs with h
  · have h1 := Int.floor_le (x + 1 / 2)
    have h2 := Int.lt_floor_add_one (x + 1 / 2)
    refine ⟨abs_le.2 ⟨by linarith, by linarith⟩, fun he => ?_⟩
    rcases abs_choice ((⌊x + 1 / 2⌋ : ℝ) - x) with e | e <;> rw [e] at he
    · rw [abs_of_nonneg h, abs_of_nonneg (by linarith)]; linarith
    · linarith
  · have h1 := Int.floor_le (-x + 1 / 2)
    have h2 := Int.lt_floor_add_one (-x + 1 / 2)
    push_cast
    refine ⟨abs_le.2 ⟨by linarith, by linarith⟩, fun he => ?_⟩
    rcases abs_choice (-(⌊-x + 1 / 2⌋ : ℝ) - x) with e | e <;> rw [e] at he
    · linarith
    · rw [abs_of_neg (by linarith), abs_of_neg (by linarith)]; linarith

/-- C29: the number of trials asked for is, up to rounding, the number after which a sample without outlier has been
drawn with probability `p`, if the probability of an outlier in a sample of three is neither 0 nor almost 1. -/
theorem C29_trials_formula (p : ℝ) (b t : Nat) (h0 : 1 - ((b : ℝ) / t) ^ 3 ≠ 0)
    (h1 : 1 - ((b : ℝ) / t) ^ 3 ≤ 1 - 0.00001) :
    |(trials p b t : ℝ) - Real.log (1 - p) / Real.log (1 - ((b : ℝ) / t) ^ 3)| ≤ 1 / 2 := by
  have e : noOutliers b t = 1 - ((b : ℝ) / t) ^ 3 := by
    unfold noOutliers
    simp only []
    rw [if_neg h0, if_neg (by linarith)]
  have := (C29_round (Real.log (1 - p) / Real.log (noOutliers b t))).1
  rw [e] at this
  unfold trials
  rw [e]
  exact this

/-- Half of the points inliers: the hypotheses hold. -/
example : (1 : ℝ) - (((5 : Nat) : ℝ) / (10 : Nat)) ^ 3 ≠ 0 ∧ (1 : ℝ) - (((5 : Nat) : ℝ) / (10 : Nat)) ^ 3 ≤ 1 - 0.00001 := by
  norm_num

/-- C29: the number of trials asked for is never negative. -/
theorem C29_trials_nonneg (p : ℝ) (hp : 0 < p) (hp1 : p < 1) (b t : Nat) (hb : b ≤ t) : 0 ≤ trials p b t := by
  unfold trials roundHalfAway
  have h : 0 ≤ Real.log (1 - p) / Real.log (noOutliers b t) :=
    div_nonneg_of_nonpos (Real.log_nonpos (by linarith) (by linarith)) (log_noOutliers_neg b t hb).le
  rw [if_pos h]
  exact Int.floor_nonneg.2 (by linarith)

/-- C29: more inliers never ask for more trials (for at most 100000 points). -/
theorem C29_trials_antitone (p : ℝ) (hp : 0 < p) (hp1 : p < 1) (b b' t : Nat) (h : b ≤ b') (hb : b' ≤ t)
    (ht : t ≤ 100000) : trials p b' t ≤ trials p b t := by
  rcases Nat.eq_zero_or_pos t with h0 | h0
  · have : b = b' := by omega
    rw [this]
  have htp : (0 : ℝ) < t := by exact_mod_cast h0
  have hmono : noOutliers b' t ≤ noOutliers b t := by
    have hfb : ((b : ℝ) / t) ≤ (b' : ℝ) / t := by
      apply div_le_div_of_nonneg_right _ htp.le; exact_mod_cast h
    have h3 : ((b : ℝ) / t) ^ 3 ≤ ((b' : ℝ) / t) ^ 3 := pow_le_pow_left₀ (by positivity) hfb 3
    have hq : b < t → (0.00001 : ℝ) ≤ 1 - ((b : ℝ) / t) ^ 3 := by
      intro hlt
      have h1 : (b : ℝ) / t ≤ 1 - 0.00001 := by
        have : (b : ℝ) + 1 ≤ t := by exact_mod_cast hlt
        have ht' : (t : ℝ) ≤ 100000 := by exact_mod_cast ht
        rw [div_le_iff₀ htp]
        norm_num
        nlinarith
      have h2 : ((b : ℝ) / t) ^ 3 ≤ (b : ℝ) / t := by
        apply pow_le_of_le_one (by positivity) (by linarith) (by norm_num)
      linarith
    have hbt : ((b : ℝ) / t) ^ 3 = 1 → b = t := by
      intro he
      by_contra hne
      have := hq (by omega)
      rw [he] at this
      norm_num at this
    unfold noOutliers
    simp only []
    by_cases e : 1 - ((b : ℝ) / t) ^ 3 = 0
    · have hb1 : b = t := hbt (by linarith)
      have : b' = b := by omega
      rw [this]
    · have hlt : b < t := by
        rcases Nat.lt_or_ge b t with h | h
        · exact h
        · exfalso; apply e
          have : b = t := by omega
          rw [this, div_self htp.ne']; norm_num
      have := hq hlt
      rw [if_neg e]
      by_cases e' : 1 - ((b' : ℝ) / t) ^ 3 = 0
      · rw [if_pos e']
        split_ifs <;> linarith
      · rw [if_neg e']
        split_ifs <;> linarith
  have hl : Real.log (noOutliers b' t) ≤ Real.log (noOutliers b t) :=
    Real.log_le_log (noOutliers_pos b' t hb) hmono
  have hn := log_noOutliers_neg b t (by omega)
  have hn' := log_noOutliers_neg b' t hb
  have hlp : Real.log (1 - p) ≤ 0 := Real.log_nonpos (by linarith) (by linarith)
  unfold trials roundHalfAway
  rw [if_pos (div_nonneg_of_nonpos hlp hn.le), if_pos (div_nonneg_of_nonpos hlp hn'.le)]
  apply Int.floor_le_floor
  have : Real.log (1 - p) / Real.log (noOutliers b' t) ≤ Real.log (1 - p) / Real.log (noOutliers b t) := by
    rw [← neg_div_neg_eq (Real.log (1 - p)), ← neg_div_neg_eq (Real.log (1 - p))]
    exact div_le_div_of_nonneg_left (by linarith) (by linarith) (by linarith)
  linarith

/-- C29: for the probability used, the number always fits an `int`. -/
theorem C29_trials_int (b t : Nat) (hb : b ≤ t) : trials 0.99 b t ≤ 1000000 := by
  have hn := log_noOutliers_neg b t hb
  have h1 : Real.log (noOutliers b t) ≤ -0.00001 := by
    have := Real.log_le_sub_one_of_pos (noOutliers_pos b t hb)
    have := noOutliers_bounds b t
    linarith
  have h2 : Real.log (1 - 0.99) = -Real.log 100 := by
    rw [← Real.log_inv]; norm_num
  have h3 : Real.log 100 ≤ 9 := by
    have h10 : Real.log 100 = 2 * Real.log 10 := by
      rw [show (100 : ℝ) = 10 ^ 2 by norm_num, Real.log_pow]; norm_num
    have : Real.log 10 ≤ 10 / Real.exp 1 := by
      have := Real.log_le_sub_one_of_pos (show (0:ℝ) < 10 / Real.exp 1 by positivity)
      rw [Real.log_div (by norm_num) (Real.exp_ne_zero 1), Real.log_exp] at this
      linarith
    have he : (2.5 : ℝ) ≤ Real.exp 1 := by have := Real.exp_one_gt_d9; linarith
    have : 10 / Real.exp 1 ≤ 4 := by rw [div_le_iff₀ (by positivity)]; linarith
    linarith
  have hlog100 : 0 ≤ Real.log 100 := Real.log_nonneg (by norm_num)
  have h4 : Real.log (1 - 0.99) / Real.log (noOutliers b t) ≤ 900000 := by
    rw [h2, ← neg_div_neg_eq, neg_neg, div_le_iff₀ (by linarith)]
    nlinarith
  have h5 : 0 ≤ Real.log (1 - 0.99) / Real.log (noOutliers b t) := by
    apply div_nonneg_of_nonpos _ hn.le; rw [h2]; linarith
  unfold trials roundHalfAway
  rw [if_pos h5]
  have : ⌊Real.log (1 - 0.99) / Real.log (noOutliers b t) + 1 / 2⌋ ≤ ⌊(1000000 : ℝ)⌋ :=
    Int.floor_le_floor (by linarith)
  simpa using this

/-- C29: once all points are inliers no further trial is asked for. -/
theorem C29_trials_all (t : Nat) (ht : 0 < t) : trials 0.99 t t = 0 := by
  have htp : (t : ℝ) ≠ 0 := by exact_mod_cast ht.ne'
  have e : noOutliers t t = (1 / 10) ^ 5 := by
    unfold noOutliers
    simp only [div_self htp]
    norm_num
  have h2 : Real.log (1 - 0.99) = 2 * Real.log (1 / 10) := by
    rw [show (1 - 0.99 : ℝ) = (1 / 10) ^ 2 by norm_num, Real.log_pow]; norm_num
  have h3 : Real.log (1 / 10 : ℝ) ≠ 0 := (Real.log_neg (by norm_num) (by norm_num)).ne
  have h4 : Real.log (1 - 0.99) / Real.log (noOutliers t t) = 2 / 5 := by
    rw [e, h2, Real.log_pow]; push_cast; field_simp
  unfold trials roundHalfAway
  rw [h4, if_pos (by norm_num), Int.floor_eq_iff]
  norm_num

/-- C29: with the stopping rule of the code, if some model within the allowed trials has every point as an
inlier and the search has not stopped before it, the search stops right there: the returned inliers are
all the points and exactly `j + 1` trials were done, `j` the first such model. -/
theorem C29_stop_all (lib : Lib P3 P2 Pose E) (hs : ∀ k l, (lib.shuffle k l).Perm l)
    (htr : lib.trials = trials 0.99) (scene : List P3)
    (image : List P2) (hl : scene.length = image.length) (hn : 4 ≤ image.length) (it : Nat)
    (doRefine : Bool) (init cur : Pose) :
    ∃ n ≤ it, ∃ inl pose, ransacP3P lib scene image it doRefine init cur = .ok (inl, pose) ∧
      (inl = [] ∧ n = it ∨ ∃ j < n, inl = inliers lib scene image (model lib scene image cur j)) ∧
      ∀ j < n, inliers lib scene image (model lib scene image cur j) = List.range image.length →
        n = j + 1 ∧ inl = List.range image.length := by
  obtain ⟨n, hn1, inl, pose, h1, h2, h3⟩ := C29_search lib hs scene image hl hn it doRefine init cur
  refine ⟨n, hn1, inl, pose, h1, ?_, ?_⟩
  · rcases h3 with ⟨e1, e2, e3⟩ | ⟨k, hk, e1, e2, e3, e4, e5, e6⟩
    · exact Or.inl ⟨e1, e3⟩
    · exact Or.inr ⟨k, hk, e1⟩
  intro j hj hall
  have hlen : (inliers lib scene image (model lib scene image cur j)).length = image.length := by
    rw [hall, List.length_range]
  have hz : (scene.zip image).length = image.length := by rw [List.length_zip]; omega
  have hle : ∀ p, (inliers lib scene image p).length ≤ image.length := by
    intro p
    unfold inliers
    refine (List.length_filter_le _ _).trans ?_
    rw [List.length_range, hz]
  have hj2 := h2 j hj
  rcases h3 with ⟨e1, e2, e3⟩ | ⟨k, hk, e1, e2, e3, e4, e5, e6⟩
  · rw [hlen, e1, List.length_nil] at hj2
    omega
  · have hfull : inl.length = image.length := by
      have := hle (model lib scene image cur k)
      rw [← e1] at this
      omega
    have hnk : n = k + 1 := by
      by_contra hne
      have := e6 (by omega)
      rw [htr, hfull, hl, C29_trials_all image.length (by omega)] at this
      omega
    have hkj : k ≤ j := by
      by_contra hlt
      have := e3 j (by omega)
      omega
    refine ⟨by omega, ?_⟩
    rw [e1]
    have : j = k := by omega
    rw [← this]; exact hall

end Verif.Props.Ransac
