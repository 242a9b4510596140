import Verif.Spec.Ransac
import Verif.Lemmas.Objects

namespace Verif.Lemmas.Ransac
open Verif Verif.Ransac

variable {P3 P2 Pose E : Type} [LinearOrder E]

theorem sampleAt_ok (scene : List P3) (image : List P2) (i : Nat) (s : P3 × P2)
    (h : (scene.zip image)[i]? = some s) : sampleAt scene image i = .ok s := by
  rw [List.getElem?_zip_eq_some] at h
  unfold sampleAt
  rw [Outcome.idx_of_getElem? h.1, Outcome.bind_ok, Outcome.idx_of_getElem? h.2]
  rfl

theorem zip_some (scene : List P3) (image : List P2) (hl : scene.length = image.length) (i : Nat)
    (hi : i < image.length) : ∃ s, (scene.zip image)[i]? = some s := by
  have : i < (scene.zip image).length := by rw [List.length_zip]; omega
  exact ⟨_, List.getElem?_eq_getElem this⟩

theorem sample_ok (scene : List P3) (image : List P2) (hl : scene.length = image.length)
    (hn : 4 ≤ image.length) (vec : List Nat) (hv : vec.Perm (List.range image.length)) :
    sample scene image vec = .ok ((vec.take 4).filterMap fun i => (scene.zip image)[i]?) := by
  have hlen : vec.length = image.length := by rw [hv.length_eq, List.length_range]
  match vec, hv, hlen with
  | a :: b :: c :: d :: rest, hv, _ =>
    have hm : ∀ x ∈ [a, b, c, d], x < image.length := by
      intro x hx
      have : x ∈ a :: b :: c :: d :: rest := by simp at hx ⊢; tauto
      exact List.mem_range.1 (hv.mem_iff.1 this)
    obtain ⟨sa, ha⟩ := zip_some scene image hl a (hm a (by simp))
    obtain ⟨sb, hb⟩ := zip_some scene image hl b (hm b (by simp))
    obtain ⟨sc, hc⟩ := zip_some scene image hl c (hm c (by simp))
    obtain ⟨sd, hd⟩ := zip_some scene image hl d (hm d (by simp))
    simp [sample, Outcome.idx, sampleAt_ok _ _ _ _ ha, sampleAt_ok _ _ _ _ hb, sampleAt_ok _ _ _ _ hc,
      sampleAt_ok _ _ _ _ hd, ha, hb, hc, hd]
  | [], _, h => simp at h; omega
  | [_], _, h => simp at h; omega
  | [_, _], _, h => simp at h; omega
  | [_, _, _], _, h => simp at h; omega

omit [LinearOrder E] in
theorem sample_ub (scene : List P3) (image : List P2) (vec : List Nat) (h : vec.length < 4) :
    sample scene image vec = .ub := by
  match vec, h with
  | [], _ => simp [sample, Outcome.idx]
  | [_], _ => simp [sample, Outcome.idx]
  | [_, _], _ => simp [sample, Outcome.idx]
  | [_, _, _], _ => simp [sample, Outcome.idx]

theorem countInliers_ok (lib : Lib P3 P2 Pose E) (scene : List P3) (image : List P2)
    (hl : scene.length = image.length) (p : Pose) :
    countInliers lib scene image p = .ok (inliers lib scene image p) := by
  have key : ∀ k, k ≤ scene.length →
      Outcome.foldlM (testPoint lib image p) [] (scene.zipIdx.take k) =
        .ok ((List.range k).filter fun i => isInlier lib p (scene.zip image)[i]?) := by
    intro k
    induction k with
    | zero => intro _; simp
    | succ k ih =>
      intro hk
      have hk' : k < scene.zipIdx.length := by simp; omega
      rw [List.take_succ_eq_append_getElem hk', Outcome.foldlM_append, ih (by omega), Outcome.bind_ok]
      simp only [Outcome.foldlM_cons, Outcome.foldlM_nil, List.getElem_zipIdx, Nat.zero_add]
      have h1 : scene[k]? = some scene[k] := List.getElem?_eq_getElem (by omega)
      have h2 : image[k]? = some image[k] := List.getElem?_eq_getElem (by omega)
      have hz : (scene.zip image)[k]? = some (scene[k], image[k]) := by
        rw [List.getElem?_zip_eq_some]; exact ⟨h1, h2⟩
      rw [List.range_succ, List.filter_append, List.filter_cons, List.filter_nil, hz]
      unfold testPoint
      rw [Outcome.idx_of_getElem? h2]
      by_cases he : lib.err p scene[k] image[k] < lib.thresh <;> simp [he, isInlier]
  have := key scene.length le_rfl
  rw [List.take_of_length_le (by simp)] at this
  have e : (scene.zip image).length = scene.length := by rw [List.length_zip, hl, Nat.min_self]
  rw [countInliers, this, inliers, e]

theorem inliers_lt (lib : Lib P3 P2 Pose E) (scene : List P3) (image : List P2) (p : Pose) (i : Nat)
    (h : i ∈ inliers lib scene image p) : ∃ s, (scene.zip image)[i]? = some s := by
  unfold inliers at h
  rw [List.mem_filter, List.mem_range] at h
  exact ⟨_, List.getElem?_eq_getElem h.1⟩

omit [LinearOrder E] in
theorem order_perm (lib : Lib P3 P2 Pose E) (hs : ∀ k l, (lib.shuffle k l).Perm l) (n k : Nat) :
    (order lib n k).Perm (List.range n) := by
  induction k with
  | zero => exact hs 0 _
  | succ k ih => exact (hs (k + 1) _).trans ih

/-- State of the search after `k` trials. -/
structure After (lib : Lib P3 P2 Pose E) (scene : List P3) (image : List P2) (it : Nat) (init cur : Pose)
    (k : Nat) (st : St Pose) : Prop where
  count : st.count = k
  vec : lib.shuffle k st.vec = order lib image.length k
  hcur : lib.p3p st.cur (picked lib scene image k) = model lib scene image cur k
  nb : st.bestNb = st.inl.length
  le : ∀ i < k, (inliers lib scene image (model lib scene image cur i)).length ≤ st.bestNb
  best : (st.inl = [] ∧ st.best = init ∧ st.N = it ∧ st.trial = k) ∨
    ∃ j < k, st.best = model lib scene image cur j ∧ st.inl = inliers lib scene image st.best ∧
      0 < st.bestNb ∧
      (∀ i < j, (inliers lib scene image (model lib scene image cur i)).length < st.bestNb) ∧
      st.N = lib.trials st.bestNb scene.length ∧ st.trial = k - 1 - j ∧ (k = j + 1 ∨ (st.trial : Int) ≤ st.N)

theorem step_after (lib : Lib P3 P2 Pose E) (hs : ∀ k l, (lib.shuffle k l).Perm l) (scene : List P3)
    (image : List P2) (hl : scene.length = image.length) (hn : 4 ≤ image.length) (it : Nat)
    (init cur : Pose) (k : Nat) (st : St Pose) (h : After lib scene image it init cur k st)
    (hgo : (st.trial : Int) < st.N) :
    ∃ st', step lib scene image st = .ok st' ∧ After lib scene image it init cur (k + 1) st' := by
  have hc := h.count
  unfold step
  simp only []
  rw [hc, h.vec, sample_ok scene image hl hn _ (order_perm lib hs _ k), Outcome.bind_ok]
  have hcur : lib.p3p st.cur ((List.take 4 (order lib image.length k)).filterMap fun i => (scene.zip image)[i]?) =
      model lib scene image cur k := h.hcur
  rw [hcur, countInliers_ok lib scene image hl, Outcome.bind_ok]
  refine ⟨_, rfl, ?_⟩
  unfold keepBest
  simp only []
  split_ifs with hb
  · -- an improvement
    refine ⟨rfl, rfl, ?_, rfl, ?_, ?_⟩
    · rfl
    · intro i hi
      simp only []
      rcases Nat.lt_succ_iff_lt_or_eq.1 hi with hi | rfl
      · exact (h.le i hi).trans hb.le
      · exact le_rfl
    · right
      refine ⟨k, Nat.lt_succ_self k, rfl, rfl, lt_of_le_of_lt (Nat.zero_le _) hb, ?_, rfl, by simp, Or.inl rfl⟩
      intro i hi
      exact lt_of_le_of_lt (h.le i hi) hb
  · refine ⟨rfl, rfl, ?_, h.nb, ?_, ?_⟩
    · rfl
    · intro i hi
      simp only []
      rcases Nat.lt_succ_iff_lt_or_eq.1 hi with hi | rfl
      · exact h.le i hi
      · exact not_lt.1 hb
    · rcases h.best with ⟨h1, h2, h3, h4⟩ | ⟨j, hj, h1, h2, h3, h4, h5, h6, h7⟩
      · left; exact ⟨h1, h2, h3, by simp [h4]⟩
      · right
        refine ⟨j, by omega, h1, h2, h3, h4, h5, by simp only []; omega, Or.inr ?_⟩
        simp only []
        push_cast
        omega

theorem loop_after (lib : Lib P3 P2 Pose E) (hs : ∀ k l, (lib.shuffle k l).Perm l) (scene : List P3)
    (image : List P2) (hl : scene.length = image.length) (hn : 4 ≤ image.length) (it : Nat)
    (init cur : Pose) : ∀ (n k : Nat) (st : St Pose), After lib scene image it init cur k st →
      ∃ m st', loop lib scene image n st = .ok st' ∧ After lib scene image it init cur m st' ∧
        k ≤ m ∧ m ≤ k + n ∧ (m = k + n ∨ st'.N ≤ st'.trial)
  | 0, k, st, h => ⟨k, st, rfl, h, le_rfl, by omega, Or.inl rfl⟩
  | n + 1, k, st, h => by
    unfold loop
    by_cases hgo : (st.trial : Int) < st.N
    · rw [if_pos hgo]
      obtain ⟨st1, h1, h2⟩ := step_after lib hs scene image hl hn it init cur k st h hgo
      rw [h1, Outcome.bind_ok]
      obtain ⟨m, st', h3, h4, h5, h6, h7⟩ :=
        loop_after lib hs scene image hl hn it init cur n (k + 1) st1 h2
      exact ⟨m, st', h3, h4, by omega, by omega, by rcases h7 with h7 | h7; · left; omega
                                                    · right; exact h7⟩
    · rw [if_neg hgo]
      exact ⟨k, st, rfl, h, le_rfl, by omega, Or.inr (not_lt.1 hgo)⟩

theorem After.start (lib : Lib P3 P2 Pose E) (scene : List P3) (image : List P2) (it : Nat)
    (init cur : Pose) : After lib scene image it init cur 0
      { N := it, trial := 0, count := 0, vec := List.range image.length, cur := cur, best := init, inl := [],
        bestNb := 0 } :=
  ⟨rfl, rfl, rfl, rfl, by simp, Or.inl ⟨rfl, rfl, rfl, rfl⟩⟩

end Verif.Lemmas.Ransac
