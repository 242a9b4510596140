import Verif.Lemmas.FinishRun

/-! The objects of a run that ends are numbered from 0, and each has an observation. -/
namespace Verif.Lemmas.ObjectNumbers
open Verif Verif.Structure Verif.Objects Verif.Groups Verif.GroupPose Verif.NonOverlap Verif.Pipeline
open Verif.Spec.Groups Verif.Spec.Structure Verif.Spec.NonOverlap Verif.Spec.Pipeline Verif.Lemmas.Pipeline
open Verif.Props.NonOverlap Verif.Props.Pipeline Verif.Lemmas.FinishRun

variable {V G Pt P Path : Type}

/-- The objects are numbered from 0, and each of them was seen. -/
structure Numbered (st : State G Pt P) : Prop where
  keys : ∃ k, OMap.keys st.objs = List.range k
  seen : ∀ i ∈ OMap.keys st.objs, ∃ o ∈ st.oo, o.obj = i

variable [Group G] [SMul G Pt] [DecidableEq P] (nCam nBoard : Nat) (l : List (Insertion P Path))
  (hl : ∀ a ∈ l, a.obs.cam < nCam ∧ a.obs.board < nBoard) (s : Store P Path)
  (hs : Store.run nCam nBoard l = .ok s) (obs : List (BoardObs P))
  (hobs : Spec.Objects.SameViews s.obs obs) (bpts : List (List Pt)) (hb : bpts.length = nBoard)
  (n : Numerics V G)

omit [DecidableEq P] in
theorem refine_numbered (k : Nat) {st st' : State G Pt P} (h : Consistent bpts (OMap.keys s.frames) obs st) (hN : Numbered st)
    (hst : refineAll n k bpts st = .ok st') : Numbered st' := by
  obtain ⟨st1, r1, r2, r3, r4, r5, r6⟩ := refineAll_ok n k st h
  rw [hst] at r1
  cases r1
  exact ⟨by rw [r5]; exact hN.keys, by rw [r5, r4]; exact hN.seen⟩

include hl hs hobs in
theorem join_numbered (k : Nat) {st st' : State G Pt P} (h : Consistent bpts (OMap.keys s.frames) obs st)
    (hst : joinObjects n k bpts s obs st = .ok st') : Numbered st' := by
  obtain ⟨st1, p1, p2, p3, _, _, cs, m4, m5, m3, m6⟩ := joinObjects_ok nCam nBoard l hl s hs obs hobs bpts n k st h
  rw [hst] at p1
  cases p1
  refine ⟨⟨_, m3⟩, fun i hi => ?_⟩
  rw [m3, List.mem_range, ← m5] at hi
  obtain ⟨o, ho, hbo⟩ := m6 i cs[i] (List.getElem?_eq_getElem hi)
  obtain ⟨j, hj⟩ := List.exists_mem_of_ne_nil _ (m4.nonempty _ (List.getElem_mem hi))
  have hj' : j ∈ observedObjects st.objs st.oo := m4.perm.subset (List.mem_flatten.2 ⟨_, List.getElem_mem hi, hj⟩)
  obtain ⟨_, hx⟩ := List.mem_filter.1 hj'
  obtain ⟨x, hx, hxj⟩ := List.any_eq_true.1 hx
  obtain ⟨oj, hoj, bo, hbo', e1, e2, e3, e4⟩ := (h.sees x.obj x.cam x.frame).1 ⟨x, hx, rfl, rfl, rfl⟩
  have hxj' : x.obj = j := by simpa using hxj
  rw [hxj'] at hoj
  obtain ⟨y, hy, hyi, _⟩ := (p2.sees i bo.cam bo.frame).2 ⟨o, ho, bo, hbo', rfl, rfl, (hbo _).2 ⟨j, hj, oj, hoj, e3⟩, e4⟩
  exact ⟨y, hy, hyi⟩

include hl hs hobs in
theorem afterMerge_numbered (st st' : State G Pt P) (h : Consistent bpts (OMap.keys s.frames) obs st)
    (pp : PairPoses G) (hpp : nonOverlapping n st = .ok pp) (hst : afterMerge n bpts s obs pp st = .ok st') : Numbered st' := by
  have hfr := frames_sorted nCam nBoard l hl s hs
  unfold afterMerge mergeGroups1 at hst
  obtain ⟨st2, q1, hst⟩ := Outcome.bind_eq_ok.1 hst
  obtain ⟨gs, q2, q1⟩ := Outcome.bind_eq_ok.1 q1
  obtain ⟨t, q3, q1⟩ := Outcome.bind_eq_ok.1 q1
  simp only [Outcome.pure_eq, Outcome.ok.injEq] at q1
  subst q1
  rcases C23_merge st.oo (OMap.keys s.frames) hfr st.t h.groups h.groupObs h.lists st.objs n.ofVec _ n.he []
    List.Pairwise.nil pp hpp (n.choose 3) with ⟨m, hm, hM⟩ | ⟨hthrow, _⟩
  swap
  · rw [q2] at hthrow; cases hthrow
  rw [q2] at hm
  simp only [Outcome.ok.injEq] at hm
  subst hm
  obtain ⟨t', k1, k2, k3, k4, k5, k6⟩ := regroup_ok (Pt := Pt) st.oo (OMap.keys s.frames)
    (hfr.imp Nat.ne_of_lt) { st.t with groups := gs } hM.collection (by
      intro i g hg
      rw [(hM.bare i g hg).2]
      exact List.Pairwise.nil)
  rw [q3] at k1
  simp only [Outcome.ok.injEq] at k1
  subst k1
  have hC : Consistent bpts (OMap.keys s.frames) obs { st with t := t } := ⟨h.objs, h.sees, k2, k3, k4⟩
  unfold mergeStage at hst
  obtain ⟨st3, j1, j2⟩ := Outcome.bind_eq_ok.1 hst
  obtain ⟨st4, j3, j4, _⟩ := joinObjects_ok nCam nBoard l hl s hs obs hobs bpts n 4 _ hC
  rw [j1] at j3
  cases j3
  exact refine_numbered s obs bpts n 4 j4 (join_numbered nCam nBoard l hl s hs obs hobs bpts n 4 hC j1) j2

include hl hs hobs hb in
/-- The objects of a run that ends are numbered from 0, and each of them was seen. -/
theorem run_numbered (fix : Int) (r : State G Pt P × OMap (Nat × Nat) (OMap Nat V))
    (hr : Finish.run n fix bpts s obs = .ok r) : Numbered r.1 := by
  unfold Finish.run at hr
  obtain ⟨st, h1, hr⟩ := Outcome.bind_eq_ok.1 hr
  obtain ⟨pp, h2, hr⟩ := Outcome.bind_eq_ok.1 hr
  obtain ⟨st1, h3, hr⟩ := Outcome.bind_eq_ok.1 hr
  obtain ⟨st2, h4, hr⟩ := Outcome.bind_eq_ok.1 hr
  obtain ⟨a1, a2, a3, a4⟩ := overlapping_joins nCam nBoard l hl s hs obs hobs bpts hb n st h1
  obtain ⟨b1, b2, b3, b4, b5, b6⟩ := afterMerge_joins nCam nBoard l hl s hs obs hobs bpts n st st1 a1 a2 a3 _ a4
    pp h2 h3
  have hN := afterMerge_numbered nCam nBoard l hl s hs obs hobs bpts n st st1 a1 pp h2 h3
  have hE := mergeGroups2_ends nCam nBoard l hl s hs obs hobs bpts n st st1 st2 a1 pp h2 b1 b2 b3 b4 b5
    _ b6 h4
  have hN2 : Numbered st2 := by
    unfold mergeGroups2 at h4
    obtain ⟨gs, _, h4⟩ := Outcome.bind_eq_ok.1 h4
    obtain ⟨t, _, h4⟩ := Outcome.bind_eq_ok.1 h4
    simp only [Outcome.pure_eq, Outcome.ok.injEq] at h4
    subst h4
    exact ⟨hN.keys, hN.seen⟩
  unfold Finish.finalStage at hr
  obtain ⟨st3, h5, hr⟩ := Outcome.bind_eq_ok.1 hr
  have hN3 := refine_numbered s obs bpts n 5 hE.consistent hN2 h5
  have hE3 := refineAll_ends s obs bpts n 5 st2 st3 hE h5
  unfold Finish.lastRefine at hr
  split at hr
  · obtain ⟨st4, h6, hr⟩ := Outcome.bind_eq_ok.1 hr
    simp only [Outcome.pure_eq, Outcome.ok.injEq] at hr
    subst hr
    exact refine_numbered s obs bpts n 6 hE3.consistent hN3 h6
  · simp only [Outcome.ok.injEq] at hr
    subst hr
    exact hN3

end Verif.Lemmas.ObjectNumbers
