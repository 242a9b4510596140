import Verif.Lemmas.FinishRun
import Verif.Spec.Joined

/-! The boards of the objects through the merges of objects. -/
namespace Verif.Lemmas.Joined
open Verif Verif.Structure Verif.Objects Verif.Groups Verif.GroupPose Verif.NonOverlap Verif.Pipeline
open Verif.Spec.Groups Verif.Spec.Structure Verif.Spec.NonOverlap Verif.Spec.Pipeline Verif.Lemmas.Pipeline
open Verif.Spec.Joined (InObject)
open Verif.Props.NonOverlap Verif.Props.Pipeline Verif.Lemmas.FinishRun Relation

variable {V G Pt P Path : Type}

/-- Boards with corners in one frame, in images of cameras of one group. -/
def InGroup (gs : OMap Nat (CamGroup G)) (obs : List (BoardObs P)) (a b : Nat) : Prop :=
  ∃ x ∈ obs, ∃ y ∈ obs, x.board = a ∧ y.board = b ∧ x.frame = y.frame ∧ x.pts ≠ [] ∧ y.pts ≠ [] ∧
    ∃ i g, OMap.get? gs i = some g ∧ x.cam ∈ OMap.keys g.cameras ∧ y.cam ∈ OMap.keys g.cameras

/-- One step of the merge of objects. -/
def Step (st : State G Pt P) (obs : List (BoardObs P)) (a b : Nat) : Prop :=
  Spec.Joined.SameObject st.objs a b ∨ InGroup st.t.groups obs a b

theorem sameObject_congr {objs objs' : OMap Nat (Object G Pt)} (hk : OMap.keys objs' = OMap.keys objs)
    (h : ∀ i o', OMap.get? objs' i = some o' → ∃ o, OMap.get? objs i = some o ∧ Lemmas.Pipeline.SameObject o o') (a b : Nat) :
    Spec.Joined.SameObject objs' a b ↔ Spec.Joined.SameObject objs a b := by
  constructor
  · rintro ⟨i, o', ho', ha, hb⟩
    obtain ⟨o, ho, e⟩ := h i o' ho'
    rw [e.boards] at ha hb
    exact ⟨i, o, ho, ha, hb⟩
  · rintro ⟨i, o, ho, ha, hb⟩
    have hi : i ∈ OMap.keys objs' := by rw [hk]; exact OMap.mem_keys.2 ⟨o, ho⟩
    obtain ⟨o', ho'⟩ := OMap.mem_keys.1 hi
    obtain ⟨o2, ho2, e⟩ := h i o' ho'
    rw [ho] at ho2
    simp only [Option.some.injEq] at ho2
    subst ho2
    exact ⟨i, o', ho', by rw [e.boards]; exact ha, by rw [e.boards]; exact hb⟩

theorem inObject_iff {objs : OMap Nat (Object G Pt)} {b : Nat} : InObject objs b ↔ Spec.Joined.SameObject objs b b :=
  ⟨fun ⟨i, o, h, hb⟩ => ⟨i, o, h, hb, hb⟩, fun ⟨i, o, h, hb, _⟩ => ⟨i, o, h, hb⟩⟩

section
variable [Group G] [SMul G Pt] [DecidableEq P] (nCam nBoard : Nat) (l : List (Insertion P Path))
  (hl : ∀ a ∈ l, a.obs.cam < nCam ∧ a.obs.board < nBoard) (s : Store P Path)
  (hs : Store.run nCam nBoard l = .ok s) (obs : List (BoardObs P))
  (hobs : Spec.Objects.SameViews s.obs obs) (bpts : List (List Pt)) (hb : bpts.length = nBoard)
  (n : Numerics V G)

include hl hs hobs in
/-- The merge of objects keeps the boards of objects with a corner left, and its objects are the classes of boards linked by
old objects and by views of one group in one frame. -/
theorem mergeStage_boards (k : Nat) (st st' : State G Pt P) (h : Consistent bpts (OMap.keys s.frames) obs st)
    (hB : BoardsIn obs st.objs) (hst : mergeStage n k bpts s obs st = .ok st') :
    (∀ b, InObject st'.objs b ↔ ∃ x ∈ obs, x.pts ≠ [] ∧ Spec.Joined.SameObject st.objs b x.board) ∧
    (∀ a b, Spec.Joined.SameObject st'.objs a b ↔ InObject st'.objs a ∧ ReflTransGen (Step st obs) a b) ∧
    groupCams st'.t.groups = groupCams st.t.groups ∧ Consistent bpts (OMap.keys s.frames) obs st' := by
  obtain ⟨st1, m1, m2, m3, cs, c1, c2, c3, c4⟩ := mergeStage_ok nCam nBoard l hl s hs obs hobs bpts n k st h
  rw [hst] at m1
  simp only [Outcome.ok.injEq] at m1
  subst m1
  -- an object of the result is a class
  have hcls : ∀ i o, OMap.get? st'.objs i = some o → ∃ c, c ∈ cs ∧ ∀ b, b ∈ OMap.keys o.boards ↔
      ∃ j ∈ c, ∃ oj, OMap.get? st.objs j = some oj ∧ b ∈ OMap.keys oj.boards := by
    intro i o ho
    have hi : i ∈ OMap.keys st'.objs := OMap.mem_keys.2 ⟨o, ho⟩
    rw [c3, List.mem_range, ← c2] at hi
    obtain ⟨o', ho', e⟩ := c4 i cs[i] (List.getElem?_eq_getElem hi)
    rw [ho] at ho'
    simp only [Option.some.injEq] at ho'
    subst ho'
    exact ⟨cs[i], List.getElem_mem hi, e⟩
  have hof : ∀ c ∈ cs, ∃ i o, OMap.get? st'.objs i = some o ∧ ∀ b, b ∈ OMap.keys o.boards ↔
      ∃ j ∈ c, ∃ oj, OMap.get? st.objs j = some oj ∧ b ∈ OMap.keys oj.boards := by
    intro c hc
    obtain ⟨i, hi⟩ := List.getElem?_of_mem hc
    obtain ⟨o, ho, e⟩ := c4 i c hi
    exact ⟨i, o, ho, e⟩
  have hmem : ∀ c ∈ cs, ∀ j ∈ c, j ∈ observedObjects st.objs st.oo := fun c hc j hj =>
    c1.perm.subset (List.mem_flatten.2 ⟨c, hc, hj⟩)
  -- the object seen by a corner
  have hoo : ∀ x ∈ obs, x.pts ≠ [] → ∀ j oj, OMap.get? st.objs j = some oj → x.board ∈ OMap.keys oj.boards →
      ∃ q ∈ st.oo, q.obj = j ∧ q.cam = x.cam ∧ q.frame = x.frame := fun x hx hp j oj hoj hxb =>
    (h.sees j x.cam x.frame).2 ⟨oj, hoj, x, hx, rfl, rfl, hxb, hp⟩
  have hin : ∀ b, InObject st'.objs b ↔ ∃ x ∈ obs, x.pts ≠ [] ∧ Spec.Joined.SameObject st.objs b x.board := by
    intro b
    constructor
    · rintro ⟨i, o, ho, hbo⟩
      obtain ⟨c, hc, e⟩ := hcls i o ho
      obtain ⟨j, hj, oj, hoj, hbj⟩ := (e b).1 hbo
      obtain ⟨_, q, hq, hqj⟩ := Lemmas.GroupPose.mem_observedObjects.1 (hmem c hc j hj)
      obtain ⟨oj', hoj', x, hx, _, _, hxb, hp⟩ := (h.sees j q.cam q.frame).1 ⟨q, hq, hqj, rfl, rfl⟩
      rw [hoj] at hoj'
      simp only [Option.some.injEq] at hoj'
      subst hoj'
      exact ⟨x, hx, hp, j, oj, hoj, hbj, hxb⟩
    · rintro ⟨x, hx, hp, j, oj, hoj, hbj, hxb⟩
      obtain ⟨q, hq, hqj, _⟩ := hoo x hx hp j oj hoj hxb
      have hjo := Lemmas.GroupPose.mem_observedObjects.2 ⟨OMap.mem_keys.2 ⟨oj, hoj⟩, q, hq, hqj⟩
      obtain ⟨c, hc, hjc⟩ := List.mem_flatten.1 (c1.perm.symm.subset hjo)
      obtain ⟨i, o, ho, e⟩ := hof c hc
      exact ⟨i, o, ho, (e b).2 ⟨j, hjc, oj, hoj, hbj⟩⟩
  have hpath : ∀ j k', ReflTransGen (SeenTogether st.t.groups st.oo) j k' → ∀ a b oj ok, OMap.get? st.objs j = some oj →
      OMap.get? st.objs k' = some ok → a ∈ OMap.keys oj.boards → b ∈ OMap.keys ok.boards →
      ReflTransGen (Step st obs) a b := by
    intro j k' hjk
    induction hjk using ReflTransGen.head_induction_on with
    | refl =>
      intro a b oj ok hoj hok haj hbk
      rw [hok] at hoj
      simp only [Option.some.injEq] at hoj
      subst hoj
      exact ReflTransGen.single (Or.inl ⟨k', ok, hok, haj, hbk⟩)
    | @head j1 j2 hstep hrest ih =>
      intro a b oj ok hoj hok haj hbk
      obtain ⟨_, i0, g, q1, q2, hg, hq1, hq2, hf, hc1, hc2, e1, e2⟩ := hstep
      obtain ⟨o1, ho1, x, hx, x1, x2, hxb, hxp⟩ := (h.sees j1 q1.cam q1.frame).1 ⟨q1, hq1, e1, rfl, rfl⟩
      obtain ⟨o2, ho2, y, hy, y1, y2, hyb, hyp⟩ := (h.sees j2 q2.cam q2.frame).1 ⟨q2, hq2, e2, rfl, rfl⟩
      rw [hoj] at ho1
      simp only [Option.some.injEq] at ho1
      subst ho1
      exact ReflTransGen.head (Or.inl ⟨j1, oj, hoj, haj, hxb⟩) (ReflTransGen.head (b := y.board) (Or.inr
        ⟨x, hx, y, hy, rfl, rfl, by rw [x2, y2, hf], hxp, hyp, i0, g, hg, by rw [x1]; exact hc1, by rw [y1]; exact hc2⟩)
        (ih y.board b o2 ok ho2 hok hyb hbk))
  refine ⟨hin, ?_, m3, m2⟩
  intro a b
  constructor
  · rintro ⟨i, o, ho, ha, hbo⟩
    refine ⟨⟨i, o, ho, ha⟩, ?_⟩
    obtain ⟨c, hc, e⟩ := hcls i o ho
    obtain ⟨j, hj, oj, hoj, haj⟩ := (e a).1 ha
    obtain ⟨k', hk, ok, hok, hbk⟩ := (e b).1 hbo
    exact hpath j k' ((c1.linked c hc j hj k').1 hk) a b oj ok hoj hok haj hbk
  · rintro ⟨⟨i, o, ho, ha⟩, hab⟩
    refine ⟨i, o, ho, ha, ?_⟩
    obtain ⟨c, hc, e⟩ := hcls i o ho
    induction hab with
    | refl => exact ha
    | tail _ hstep ih =>
      rename_i b1 b2 _
      obtain ⟨j, hj, oj, hoj, hbj⟩ := (e b1).1 ih
      refine (e b2).2 ?_
      rcases hstep with ⟨j', oj', hoj', h1, h2⟩ | ⟨x, hx, y, hy, rfl, rfl, hf, hxp, hyp, i0, g, hg, hc1, hc2⟩
      · have := h.objs.disjoint j j' oj oj' hoj hoj' b1 hbj h1
        subst this
        exact ⟨j, hj, oj', hoj', h2⟩
      · obtain ⟨k', ok, hok, hyk⟩ := hB y hy hyp
        refine ⟨k', ?_, ok, hok, hyk⟩
        by_cases hjk : j = k'
        · rw [← hjk]; exact hj
        obtain ⟨q1, hq1, e1, e2, e3⟩ := hoo x hx hxp j oj hoj hbj
        obtain ⟨q2, hq2, f1, f2, f3⟩ := hoo y hy hyp k' ok hok hyk
        exact (c1.linked c hc j hj k').2 (ReflTransGen.single ⟨hjk, i0, g, q1, q2, hg, hq1, hq2, by rw [e3, f3, hf],
          by rw [e2]; exact hc1, by rw [f2]; exact hc2, e1, f1⟩)

end

end Verif.Lemmas.Joined
