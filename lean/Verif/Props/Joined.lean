import Verif.Lemmas.Joined
import Verif.Props.Finish

/-!
C100: which boards end in one object; C101: more images never separate what fewer images joined.
-/
namespace Verif.Props.Joined
open Verif Verif.Structure Verif.Objects Verif.Groups Verif.GroupPose Verif.NonOverlap Verif.Pipeline
open Verif.Spec.Groups Verif.Spec.Structure Verif.Spec.NonOverlap Verif.Spec.Pipeline Verif.Lemmas.Pipeline
open Verif.Spec.Joined hiding SameObject
open Verif.Spec.Objects (CoSeen observedBoards)
open Verif.Props.NonOverlap Verif.Props.Pipeline Verif.Lemmas.FinishRun Verif.Lemmas.Joined Relation

variable {V G Pt P Path : Type}

/-- CoSeen is symmetric. -/
theorem coSeen_symm {l : List (Insertion P Path)} {a b : Nat} (h : CoSeen l a b) : CoSeen l b a := by
  obtain ⟨hne, x, hx, y, hy, h1, h2, h3, h4⟩ := h
  exact ⟨hne.symm, y, hy, x, hx, h1.symm, h2.symm, h4, h3⟩

theorem coSeen_star_symm {l : List (Insertion P Path)} {a b : Nat} (h : ReflTransGen (CoSeen l) a b) :
    ReflTransGen (CoSeen l) b a := by
  induction h with
  | refl => exact ReflTransGen.refl
  | tail _ hs ih => exact ReflTransGen.head (coSeen_symm hs) ih

/-- Steps of one relation are paths of the other. -/
theorem star_le {r q : Nat → Nat → Prop} (h : ∀ a b, r a b → ReflTransGen q a b) {a b : Nat}
    (hab : ReflTransGen r a b) : ReflTransGen q a b := by
  induction hab with
  | refl => exact ReflTransGen.refl
  | tail _ hs ih => exact ih.trans (h _ _ hs)

section
variable [Group G] [SMul G Pt] [DecidableEq P] (nCam nBoard : Nat) (l : List (Insertion P Path))
  (hl : ∀ a ∈ l, a.obs.cam < nCam ∧ a.obs.board < nBoard) (s : Store P Path)
  (hs : Store.run nCam nBoard l = .ok s) (obs : List (BoardObs P))
  (hobs : Spec.Objects.SameViews s.obs obs) (bpts : List (List Pt)) (hb : bpts.length = nBoard)
  (n : Numerics V G) (fix : Int)

include hl hs hobs hb in
/-- C100: after the joint calibration of cameras with common views, a board belongs to an object iff it, or a board linked to
it by images showing two boards, has a corner left; two boards belong to one object iff they are linked by images showing both
and by frames in which linked cameras see both. -/
theorem C100_overlapping (st : State G Pt P) (hst : overlapping n bpts s obs = .ok st) :
    (∀ b, InObject st.objs b ↔ Usable l obs b) ∧
    ∀ a b, Spec.Joined.SameObject st.objs a b ↔ Usable l obs a ∧ ReflTransGen (BoardLink l obs) a b := by
  obtain ⟨r, h1, h2, _, h4, objs, h5, h6, h7, h8⟩ :=
    calibrateObjects_ok nCam nBoard l hl s hs obs hobs bpts hb n
  obtain ⟨st1, g1, g2, g3, _, g5, g6⟩ := calibrateGroups_ok nCam nBoard l hl s hs obs hobs bpts n objs r.1 r.2
    h5 h6 h2 h7 h8
  rw [bothSee_eq nCam nBoard l hl s hs obs hobs r.1 objs h2.sorted h4 h7 h8] at g3
  unfold overlapping at hst
  rw [h1, Outcome.bind_ok, g1, Outcome.bind_ok] at hst
  -- objects before the merge
  have hsame : ∀ a b, Spec.Joined.SameObject st1.objs a b ↔ a ∈ observedBoards nBoard l ∧ ReflTransGen (CoSeen l) a b := by
    intro a b
    rw [sameObject_congr g5 g6]
    constructor
    · rintro ⟨i, o, ho, ha, hbo⟩
      have hc : OMap.keys o.boards ∈ r.1.map fun e => OMap.keys e.2.boards :=
        List.mem_map.2 ⟨(i, o), (OMap.get?_eq_some h2.sorted).1 ho, rfl⟩
      exact ⟨h4.perm.subset (List.mem_flatten.2 ⟨_, hc, ha⟩), (h4.linked _ hc a ha b).1 hbo⟩
    · rintro ⟨ha, hab⟩
      obtain ⟨c, hc, hac⟩ := List.mem_flatten.1 (h4.perm.symm.subset ha)
      have hbc := (h4.linked c hc a hac b).2 hab
      obtain ⟨⟨i, o⟩, ho, rfl⟩ := List.mem_map.1 hc
      exact ⟨i, o, (OMap.get?_eq_some h2.sorted).2 ho, hac, hbc⟩
  have hseen : ∀ x ∈ obs, x.board ∈ observedBoards nBoard l ∧ x.cam ∈ observingCams nCam l :=
    fun x hx => stored nCam nBoard l hl s hs obs hobs x hx
  have hB : BoardsIn obs st1.objs := fun x hx _ => inObject_iff.2 ((hsame _ _).2 ⟨(hseen x hx).1, ReflTransGen.refl⟩)
  -- groups before the merge
  have hgrp : ∀ a b, InGroup st1.t.groups obs a b ↔ InLinkedViews l obs a b := by
    intro a b
    constructor
    · rintro ⟨x, hx, y, hy, e1, e2, hf, hp, hq, i, g, hg, hc1, hc2⟩
      refine ⟨x, hx, y, hy, e1, e2, hf, hp, hq, (g3.linked _ (List.mem_map.2 ⟨(i, OMap.keys g.cameras), List.mem_map.2
        ⟨(i, g), (OMap.get?_eq_some g2.groups.sorted).1 hg, rfl⟩, rfl⟩) _ hc1 _).1 hc2⟩
    · rintro ⟨x, hx, y, hy, e1, e2, hf, hp, hq, hlink⟩
      obtain ⟨c, hc, hxc⟩ := List.mem_flatten.1 (g3.perm.symm.subset (hseen x hx).2)
      have hyc := (g3.linked c hc _ hxc _).2 hlink
      obtain ⟨e, he, rfl⟩ := List.mem_map.1 hc
      obtain ⟨⟨i, g⟩, hg, rfl⟩ := List.mem_map.1 he
      exact ⟨x, hx, y, hy, e1, e2, hf, hp, hq, i, g, (OMap.get?_eq_some g2.groups.sorted).2 hg, hxc, hyc⟩
  have hstep : ∀ a b, ReflTransGen (Step st1 obs) a b ↔ ReflTransGen (BoardLink l obs) a b := by
    intro a b
    constructor
    · refine star_le fun a b h => ?_
      rcases h with h | h
      · exact star_le (fun _ _ h => ReflTransGen.single (Or.inl h)) ((hsame a b).1 h).2
      · exact ReflTransGen.single (Or.inr ((hgrp a b).1 h))
    · refine star_le fun a b h => ReflTransGen.single ?_
      rcases h with h | h
      · refine Or.inl ((hsame a b).2 ⟨?_, ReflTransGen.single h⟩)
        obtain ⟨_, x, hx, _, _, _, _, rfl, _⟩ := h
        unfold observedBoards
        rw [List.mem_filter, List.mem_range, List.any_eq_true]
        exact ⟨(hl x hx).2, x, hx, by simp⟩
      · exact Or.inr ((hgrp a b).2 h)
  obtain ⟨m1, m2, _, _⟩ := mergeStage_boards nCam nBoard l hl s hs obs hobs bpts n 2 st1 st g2 hB hst
  have hin : ∀ b, InObject st.objs b ↔ Usable l obs b := by
    intro b
    rw [m1]
    constructor
    · rintro ⟨x, hx, hp, h⟩
      exact ⟨x, hx, hp, ((hsame _ _).1 h).2⟩
    · rintro ⟨x, hx, hp, h⟩
      obtain ⟨i, o, ho, k1, k2⟩ := (hsame x.board b).2 ⟨(hseen x hx).1, coSeen_star_symm h⟩
      exact ⟨x, hx, hp, i, o, ho, k2, k1⟩
  refine ⟨hin, fun a b => ?_⟩
  rw [m2, hin, hstep]

omit [DecidableEq P] in
theorem refineAll_boards (k : Nat) (st st' : State G Pt P) (h : Spec.Objects.Collection bpts st.objs)
    (hst : refineAll n k bpts st = .ok st') : Spec.Objects.Collection bpts st'.objs ∧
      ∀ a b, Spec.Joined.SameObject st'.objs a b ↔ Spec.Joined.SameObject st.objs a b := by
  obtain ⟨objs', h1, h2, h3, h4⟩ := refineObjects_ok (n.board k) st.objs h
  unfold refineAll at hst
  rw [h1, Outcome.bind_ok] at hst
  simp only [Outcome.pure_eq, Outcome.ok.injEq] at hst
  subst hst
  exact ⟨h2, sameObject_congr h3 h4⟩

omit [DecidableEq P] in
theorem finalStage_boards (st : State G Pt P) (h : Spec.Objects.Collection bpts st.objs)
    (r : State G Pt P × OMap (Nat × Nat) (OMap Nat V)) (hr : Finish.finalStage n fix bpts st = .ok r) :
    Spec.Objects.Collection bpts r.1.objs ∧
      ∀ a b, Spec.Joined.SameObject r.1.objs a b ↔ Spec.Joined.SameObject st.objs a b := by
  unfold Finish.finalStage Finish.lastRefine at hr
  obtain ⟨st1, h1, hr⟩ := Outcome.bind_eq_ok.1 hr
  obtain ⟨c1, e1⟩ := refineAll_boards bpts n 5 st st1 h h1
  split at hr
  · obtain ⟨st2, h2, hr⟩ := Outcome.bind_eq_ok.1 hr
    obtain ⟨c2, e2⟩ := refineAll_boards bpts n 6 st1 st2 c1 h2
    simp only [Outcome.pure_eq, Outcome.ok.injEq] at hr
    subst hr
    exact ⟨c2, fun a b => (e2 a b).trans (e1 a b)⟩
  · simp only [Outcome.pure_eq, Outcome.ok.injEq] at hr
    subst hr
    exact ⟨c1, e1⟩

include hl hs hobs in
theorem afterMerge_boards (st st' : State G Pt P) (h : Consistent bpts (OMap.keys s.frames) obs st)
    (hB : BoardsIn obs st.objs) (pp : PairPoses G) (hpp : nonOverlapping n st = .ok pp)
    (hst : afterMerge n bpts s obs pp st = .ok st') :
    Spec.Objects.Collection bpts st'.objs ∧ ∃ gs,
      (∀ b, InObject st'.objs b ↔ ∃ x ∈ obs, x.pts ≠ [] ∧ Spec.Joined.SameObject st.objs b x.board) ∧
      ∀ a b, Spec.Joined.SameObject st'.objs a b ↔ InObject st'.objs a ∧
        ReflTransGen (fun a b => Spec.Joined.SameObject st.objs a b ∨ InGroup (G := G) gs obs a b) a b := by
  have hfr := frames_sorted nCam nBoard l hl s hs
  unfold afterMerge mergeGroups1 at hst
  obtain ⟨st2, q1, hst⟩ := Outcome.bind_eq_ok.1 hst
  obtain ⟨gs, q2, q1⟩ := Outcome.bind_eq_ok.1 q1
  obtain ⟨t, q3, q1⟩ := Outcome.bind_eq_ok.1 q1
  simp only [Outcome.pure_eq, Outcome.ok.injEq] at q1
  subst q1
  rcases C23_merge st.oo (OMap.keys s.frames) hfr st.t h.groups h.groupObs h.lists st.objs n.ofVec _ n.he []
    List.Pairwise.nil pp hpp (n.choose 3) with ⟨m, hm, hM⟩ | ⟨hthrow, _⟩
  swap
  · rw [q2] at hthrow; cases hthrow
  rw [q2] at hm
  simp only [Outcome.ok.injEq] at hm
  subst hm
  obtain ⟨t', k1, k2, k3, k4, k5, k6⟩ := regroup_ok (Pt := Pt) st.oo (OMap.keys s.frames)
    (hfr.imp Nat.ne_of_lt) { st.t with groups := gs } hM.collection (by
      intro i g hg
      rw [(hM.bare i g hg).2]
      exact List.Pairwise.nil)
  rw [q3] at k1
  simp only [Outcome.ok.injEq] at k1
  subst k1
  obtain ⟨m1, m2, _, m4⟩ := mergeStage_boards nCam nBoard l hl s hs obs hobs bpts n 4 { st with t := t } st'
    ⟨h.objs, h.sees, k2, k3, k4⟩ hB hst
  exact ⟨m4.objs, t.groups, m1, m2⟩

include hl hs hobs hb in
/-- C100: at the end of a run a board belongs to an object iff it, or a board linked to it by images showing two boards, has a
corner left, and then to one object; boards linked by images showing both and by frames in which linked cameras see both belong
to one object; boards of one object are linked by images showing both and by frames in which both are seen, by any cameras. -/
theorem C100_run (r : State G Pt P × OMap (Nat × Nat) (OMap Nat V)) (hr : Finish.run n fix bpts s obs = .ok r) :
    (∀ b, InObject r.1.objs b ↔ Usable l obs b) ∧
    (∀ i j o o' b, OMap.get? r.1.objs i = some o → OMap.get? r.1.objs j = some o' → b ∈ OMap.keys o.boards →
      b ∈ OMap.keys o'.boards → i = j) ∧
    (∀ a b, Usable l obs a → ReflTransGen (BoardLink l obs) a b → Spec.Joined.SameObject r.1.objs a b) ∧
    ∀ a b, Spec.Joined.SameObject r.1.objs a b → ReflTransGen (FrameLink l obs) a b := by
  unfold Finish.run at hr
  obtain ⟨st, r1, hr⟩ := Outcome.bind_eq_ok.1 hr
  obtain ⟨pp, r2, hr⟩ := Outcome.bind_eq_ok.1 hr
  obtain ⟨st1, r3, hr⟩ := Outcome.bind_eq_ok.1 hr
  obtain ⟨st2, r4, hr⟩ := Outcome.bind_eq_ok.1 hr
  obtain ⟨a1, a2, _⟩ := overlapping_joins nCam nBoard l hl s hs obs hobs bpts hb n st r1
  obtain ⟨u1, u2⟩ := C100_overlapping nCam nBoard l hl s hs obs hobs bpts hb n st r1
  obtain ⟨c1, gs, m1, m2⟩ := afterMerge_boards nCam nBoard l hl s hs obs hobs bpts n st st1 a1 a2.boards pp r2 r3
  have e2 : st2.objs = st1.objs := by
    unfold mergeGroups2 at r4
    obtain ⟨gs, q1, r4⟩ := Outcome.bind_eq_ok.1 r4
    obtain ⟨t, q2, r4⟩ := Outcome.bind_eq_ok.1 r4
    simp only [Outcome.pure_eq, Outcome.ok.injEq] at r4
    rw [← r4]
  obtain ⟨c2, e3⟩ := finalStage_boards bpts n fix st2 (by rw [e2]; exact c1) r hr
  rw [e2] at e3
  have hin : ∀ b, InObject st1.objs b ↔ Usable l obs b := by
    intro b
    rw [m1]
    constructor
    · rintro ⟨x, hx, hp, h⟩
      exact ((u2 _ _).1 h).1
    · intro h
      obtain ⟨x, hx, hp, hbx⟩ := h
      exact ⟨x, hx, hp, (u2 _ _).2 ⟨⟨x, hx, hp, hbx⟩, star_le (fun _ _ h => ReflTransGen.single (Or.inl h)) hbx⟩⟩
  refine ⟨fun b => ?_, fun i j o o' b ho ho' h1 h2 => c2.disjoint i j o o' ho ho' b h1 h2, fun a b ha hab => ?_,
    fun a b hab => ?_⟩
  · rw [inObject_iff, e3, ← inObject_iff, hin]
  · rw [e3, m2, hin]
    refine ⟨ha, ReflTransGen.single (Or.inl ((u2 a b).2 ⟨ha, hab⟩))⟩
  · rw [e3, m2] at hab
    refine star_le (fun a b h => ?_) hab.2
    rcases h with h | ⟨x, hx, y, hy, e1, e2, hf, hp, hq, _⟩
    · refine star_le (fun a b h => ReflTransGen.single ?_) ((u2 a b).1 h).2
      rcases h with h | ⟨x, hx, y, hy, e1, e2, hf, hp, hq, _⟩
      · exact Or.inl h
      · exact Or.inr ⟨x, hx, y, hy, e1, e2, hf, hp, hq⟩
    · exact ReflTransGen.single (Or.inr ⟨x, hx, y, hy, e1, e2, hf, hp, hq⟩)

include hl hs hobs hb in
/-- C100: if any two cameras with detections are linked by common views and some corner is left, the run ends, and two boards
belong to one object iff they are linked by images showing both and by frames in which both are seen, by any cameras. -/
theorem C100_linked (hlink : ∀ a ∈ observingCams nCam l, ∀ b ∈ observingCams nCam l,
      ReflTransGen (CamsLinked l obs) a b) (hsome : ∃ bo ∈ obs, bo.pts ≠ []) :
    ∃ r, Finish.run n fix bpts s obs = .ok r ∧ ∀ a b, Spec.Joined.SameObject r.1.objs a b ↔
      Usable l obs a ∧ ReflTransGen (FrameLink l obs) a b := by
  obtain ⟨r, hr, _⟩ := Props.Finish.C78_one_group nCam nBoard l hl s hs obs hobs bpts hb n fix hlink hsome
  obtain ⟨h1, _, h3, h4⟩ := C100_run nCam nBoard l hl s hs obs hobs bpts hb n fix r hr
  refine ⟨r, hr, fun a b => ⟨fun h => ⟨(h1 a).1 ?_, h4 a b h⟩, fun ⟨ha, hab⟩ => h3 a b ha ?_⟩⟩
  · obtain ⟨i, o, ho, k1, _⟩ := h
    exact ⟨i, o, ho, k1⟩
  · refine star_le (fun a b h => ReflTransGen.single ?_) hab
    rcases h with h | ⟨x, hx, y, hy, e1, e2, hf, hp, hq⟩
    · exact Or.inl h
    · exact Or.inr ⟨x, hx, y, hy, e1, e2, hf, hp, hq, hlink _ (stored nCam nBoard l hl s hs obs hobs x hx).2 _
        (stored nCam nBoard l hl s hs obs hobs y hy).2⟩

end

/-! ### More images -/

section
variable {l l' : List (Insertion P Path)} {obs obs' : List (BoardObs P)} (h : More l l' obs obs')
include h

theorem coSeen_more {a b : Nat} (hab : CoSeen l a b) : CoSeen l' a b := by
  obtain ⟨hne, x, hx, y, hy, h1, h2, h3, h4⟩ := hab
  obtain ⟨x', hx', a1, a2, a3⟩ := h.seen x hx
  obtain ⟨y', hy', b1, b2, b3⟩ := h.seen y hy
  exact ⟨hne, x', hx', y', hy', by rw [a1, b1, h1], by rw [a2, b2, h2], by rw [a3, h3], by rw [b3, h4]⟩

theorem coSeen_star_more {a b : Nat} (hab : ReflTransGen (CoSeen l) a b) : ReflTransGen (CoSeen l') a b :=
  star_le (fun _ _ hs => ReflTransGen.single (coSeen_more h hs)) hab

theorem camsLinked_more {a b : Nat} (hab : CamsLinked l obs a b) : CamsLinked l' obs' a b := by
  obtain ⟨hne, x, hx, y, hy, h1, h2, h3, hp, hq, h4⟩ := hab
  obtain ⟨x', hx', a1, a2, a3, a4⟩ := h.left x hx hp
  obtain ⟨y', hy', b1, b2, b3, b4⟩ := h.left y hy hq
  exact ⟨hne, x', hx', y', hy', by rw [a1, h1], by rw [b1, h2], by rw [a2, b2, h3], a4, b4,
    by rw [a3, b3]; exact coSeen_star_more h h4⟩

theorem camsLinked_star_more {a b : Nat} (hab : ReflTransGen (CamsLinked l obs) a b) :
    ReflTransGen (CamsLinked l' obs') a b :=
  star_le (fun _ _ hs => ReflTransGen.single (camsLinked_more h hs)) hab

theorem boardLink_more {a b : Nat} (hab : ReflTransGen (BoardLink l obs) a b) : ReflTransGen (BoardLink l' obs') a b := by
  refine star_le (fun a b hs => ReflTransGen.single ?_) hab
  rcases hs with hs | ⟨x, hx, y, hy, h1, h2, h3, hp, hq, h4⟩
  · exact Or.inl (coSeen_more h hs)
  · obtain ⟨x', hx', a1, a2, a3, a4⟩ := h.left x hx hp
    obtain ⟨y', hy', b1, b2, b3, b4⟩ := h.left y hy hq
    exact Or.inr ⟨x', hx', y', hy', by rw [a3, h1], by rw [b3, h2], by rw [a2, b2, h3], a4, b4,
      by rw [a1, b1]; exact camsLinked_star_more h h4⟩

theorem usable_more {b : Nat} (hb : Usable l obs b) : Usable l' obs' b := by
  obtain ⟨x, hx, hp, hbx⟩ := hb
  obtain ⟨x', hx', a1, a2, a3, a4⟩ := h.left x hx hp
  exact ⟨x', hx', a4, by rw [a3]; exact coSeen_star_more h hbx⟩

theorem observing_more {nCam c : Nat} (hc : c ∈ observingCams nCam l) : c ∈ observingCams nCam l' := by
  unfold observingCams at hc ⊢
  rw [List.mem_filter, List.mem_range, List.any_eq_true] at hc ⊢
  obtain ⟨h1, x, hx, e⟩ := hc
  obtain ⟨x', hx', a1, _⟩ := h.seen x hx
  exact ⟨h1, x', hx', by rw [a1]; exact e⟩

end

/-- The cameras belong to one group. -/
def SameGroup (gs : OMap Nat (CamGroup G)) (a b : Nat) : Prop :=
  ∃ i g, OMap.get? gs i = some g ∧ a ∈ OMap.keys g.cameras ∧ b ∈ OMap.keys g.cameras

section
variable [Group G] [SMul G Pt] [DecidableEq P] (nCam nBoard : Nat) (l : List (Insertion P Path))
  (hl : ∀ a ∈ l, a.obs.cam < nCam ∧ a.obs.board < nBoard) (s : Store P Path)
  (hs : Store.run nCam nBoard l = .ok s) (obs : List (BoardObs P))
  (hobs : Spec.Objects.SameViews s.obs obs) (bpts : List (List Pt)) (hb : bpts.length = nBoard)
  (n : Numerics V G) (fix : Int)
  (l' : List (Insertion P Path))
  (hl' : ∀ a ∈ l', a.obs.cam < nCam ∧ a.obs.board < nBoard) (s' : Store P Path)
  (hs' : Store.run nCam nBoard l' = .ok s') (obs' : List (BoardObs P))
  (hobs' : Spec.Objects.SameViews s'.obs obs') (n' : Numerics V G) (fix' : Int)
  (hmore : More l l' obs obs')

include hl hs hobs hb in
theorem sameGroup_iff (st : State G Pt P) (hst : overlapping n bpts s obs = .ok st) (a b : Nat) :
    SameGroup st.t.groups a b ↔ a ∈ observingCams nCam l ∧ ReflTransGen (CamsLinked l obs) a b := by
  obtain ⟨st0, a1, a2, a3⟩ := C52_overlapping nCam nBoard l hl s hs obs hobs bpts hb n
  rw [hst] at a1
  simp only [Outcome.ok.injEq] at a1
  subst a1
  constructor
  · rintro ⟨i, g, hg, h1, h2⟩
    have hc : OMap.keys g.cameras ∈ (groupCams st.t.groups).map (·.2) :=
      List.mem_map.2 ⟨(i, OMap.keys g.cameras), List.mem_map.2
        ⟨(i, g), (OMap.get?_eq_some a2.groups.sorted).1 hg, rfl⟩, rfl⟩
    exact ⟨a3.perm.subset (List.mem_flatten.2 ⟨_, hc, h1⟩), (a3.linked _ hc _ h1 _).1 h2⟩
  · rintro ⟨h1, h2⟩
    obtain ⟨c, hc, hac⟩ := List.mem_flatten.1 (a3.perm.symm.subset h1)
    have hbc := (a3.linked c hc _ hac _).2 h2
    obtain ⟨e, he, rfl⟩ := List.mem_map.1 hc
    obtain ⟨⟨i, g⟩, hg, rfl⟩ := List.mem_map.1 he
    exact ⟨i, g, (OMap.get?_eq_some a2.groups.sorted).2 hg, hac, hbc⟩

include hl hs hobs hb hl' hs' hobs' hmore in
/-- C101: cameras of one group, and boards of one object, after the joint calibration of cameras with common views, are so
with more images too, whatever the numerical results of the two runs. -/
theorem C101_together (st st' : State G Pt P) (hst : overlapping n bpts s obs = .ok st)
    (hst' : overlapping n' bpts s' obs' = .ok st') :
    (∀ a b, SameGroup st.t.groups a b → SameGroup st'.t.groups a b) ∧
    ∀ a b, Spec.Joined.SameObject st.objs a b → Spec.Joined.SameObject st'.objs a b := by
  constructor
  · intro a b hab
    rw [sameGroup_iff nCam nBoard l hl s hs obs hobs bpts hb n st hst] at hab
    rw [sameGroup_iff nCam nBoard l' hl' s' hs' obs' hobs' bpts hb n' st' hst']
    exact ⟨observing_more hmore hab.1, camsLinked_star_more hmore hab.2⟩
  · intro a b hab
    rw [(C100_overlapping nCam nBoard l hl s hs obs hobs bpts hb n st hst).2] at hab
    rw [(C100_overlapping nCam nBoard l' hl' s' hs' obs' hobs' bpts hb n' st' hst').2]
    exact ⟨usable_more hmore hab.1, boardLink_more hmore hab.2⟩

include hl hs hobs hb hl' hs' hobs' hmore in
/-- C101: boards that end in one object in a run on images with linked cameras are in one object at the end of every run on more
images that ends. -/
theorem C101_objects (hlink : ∀ a ∈ observingCams nCam l, ∀ b ∈ observingCams nCam l, ReflTransGen (CamsLinked l obs) a b)
    (r r' : State G Pt P × OMap (Nat × Nat) (OMap Nat V)) (hr : Finish.run n fix bpts s obs = .ok r)
    (hr' : Finish.run n' fix' bpts s' obs' = .ok r') (a b : Nat) (hab : Spec.Joined.SameObject r.1.objs a b) :
    Spec.Joined.SameObject r'.1.objs a b := by
  obtain ⟨h1, _, _, h4⟩ := C100_run nCam nBoard l hl s hs obs hobs bpts hb n fix r hr
  obtain ⟨_, _, k3, _⟩ := C100_run nCam nBoard l' hl' s' hs' obs' hobs' bpts hb n' fix' r' hr'
  have ha : Usable l obs a := (h1 a).1 (by obtain ⟨i, o, ho, k1, _⟩ := hab; exact ⟨i, o, ho, k1⟩)
  refine k3 a b (usable_more hmore ha) (boardLink_more hmore (star_le (fun a b h => ReflTransGen.single ?_) (h4 a b hab)))
  rcases h with h | ⟨x, hx, y, hy, e1, e2, hf, hp, hq⟩
  · exact Or.inl h
  · exact Or.inr ⟨x, hx, y, hy, e1, e2, hf, hp, hq, hlink _ (stored nCam nBoard l hl s hs obs hobs x hx).2 _
      (stored nCam nBoard l hl s hs obs hobs y hy).2⟩

include hl' hs' hobs' hb hmore in
/-- C101: if the cameras with detections are linked by common views, some corner is left, and more images bring no detection of
another camera, then the run on more images ends with one group of the same cameras. -/
theorem C101_one_group (hlink : ∀ a ∈ observingCams nCam l, ∀ b ∈ observingCams nCam l,
      ReflTransGen (CamsLinked l obs) a b) (hsome : ∃ bo ∈ obs, bo.pts ≠ [])
    (hcams : ∀ c ∈ observingCams nCam l', c ∈ observingCams nCam l) :
    ∃ r, Finish.run n' fix' bpts s' obs' = .ok r ∧ ∃ g, OMap.keys r.1.t.groups = [0] ∧
      OMap.get? r.1.t.groups 0 = some g ∧ ∀ c, c ∈ OMap.keys g.cameras ↔ c ∈ observingCams nCam l := by
  obtain ⟨x, hx, hp⟩ := hsome
  obtain ⟨x', hx', _, _, _, hp'⟩ := hmore.left x hx hp
  obtain ⟨r, h1, g, h2, h3, h4⟩ := Props.Finish.C78_one_group nCam nBoard l' hl' s' hs' obs' hobs' bpts hb n' fix'
    (fun a ha b hb => camsLinked_star_more hmore (hlink a (hcams a ha) b (hcams b hb))) ⟨x', hx', hp'⟩
  exact ⟨r, h1, g, h2, h3, fun c => (h4 c).trans ⟨hcams c, observing_more hmore⟩⟩

include hl hs hobs hb hl' hs' hobs' hmore in
/-- C101: more images that make no new board usable do not raise the number of objects. -/
theorem C101_fewer (st st' : State G Pt P) (hst : overlapping n bpts s obs = .ok st)
    (hst' : overlapping n' bpts s' obs' = .ok st') (hno : ∀ b, Usable l' obs' b → Usable l obs b) :
    st'.objs.length ≤ st.objs.length := by
  classical
  obtain ⟨u1, u2⟩ := C100_overlapping nCam nBoard l hl s hs obs hobs bpts hb n st hst
  obtain ⟨v1, v2⟩ := C100_overlapping nCam nBoard l' hl' s' hs' obs' hobs' bpts hb n' st' hst'
  have c' := (overlapping_joins nCam nBoard l' hl' s' hs' obs' hobs' bpts hb n' st' hst').1.objs
  have ht := (C101_together nCam nBoard l hl s hs obs hobs bpts hb n l' hl' s' hs' obs' hobs' n' hmore st st' hst hst').2
  have hex : ∀ i ∈ OMap.keys st'.objs, ∃ j ∈ OMap.keys st.objs, ∃ o' o, OMap.get? st'.objs i = some o' ∧
      OMap.get? st.objs j = some o ∧ o'.refBoard ∈ OMap.keys o.boards := by
    intro i hi
    obtain ⟨o', ho'⟩ := OMap.mem_keys.1 hi
    obtain ⟨j, o, ho, hm⟩ := (u1 o'.refBoard).2 (hno _ ((v1 _).1 ⟨i, o', ho', c'.ref_mem i o' ho'⟩))
    exact ⟨j, OMap.mem_keys.2 ⟨o, ho⟩, o', o, ho', ho, hm⟩
  let f : Nat → Nat := fun i => if hi : i ∈ OMap.keys st'.objs then (hex i hi).choose else 0
  have hf : ∀ i ∈ OMap.keys st'.objs, f i ∈ OMap.keys st.objs ∧ ∃ o' o, OMap.get? st'.objs i = some o' ∧
      OMap.get? st.objs (f i) = some o ∧ o'.refBoard ∈ OMap.keys o.boards := by
    intro i hi
    have : f i = (hex i hi).choose := dif_pos hi
    rw [this]
    exact (hex i hi).choose_spec
  have hnd : ((OMap.keys st'.objs).map f).Nodup := by
    refine (List.nodup_map_iff_inj_on (OMap.keys_nodup c'.sorted)).2 fun i hi j hj e => ?_
    obtain ⟨_, oi, o1, a1, a2, a3⟩ := hf i hi
    obtain ⟨_, oj, o2, b1, b2, b3⟩ := hf j hj
    rw [e, b2] at a2
    simp only [Option.some.injEq] at a2
    subst a2
    obtain ⟨k, o, ho, k1, k2⟩ := ht oi.refBoard oj.refBoard ⟨_, _, b2, a3, b3⟩
    exact (c'.disjoint i k oi o a1 ho _ (c'.ref_mem i oi a1) k1).trans
      (c'.disjoint j k oj o b1 ho _ (c'.ref_mem j oj b1) k2).symm
  have hsub : (OMap.keys st'.objs).map f ⊆ OMap.keys st.objs := by
    intro x hx
    obtain ⟨i, hi, rfl⟩ := List.mem_map.1 hx
    exact (hf i hi).1
  have := (List.subperm_of_subset hnd hsub).length_le
  simpa [OMap.keys] using this

end

/-! ### Concrete cases -/

/-- Cameras 0 and 1 see board 0 in frame 0; camera 0 sees board 1 alone, in frame 1. -/
def few : List (Insertion Nat Nat) := [det 0 0 0, det 1 0 0, det 0 1 1]

/-- In another frame camera 1 sees board 0 and camera 0 board 1. -/
def many : List (Insertion Nat Nat) := few ++ [det 1 2 0, det 0 2 1]

/-- The few images give one group and two objects; the many images one object, though no image shows both boards. -/
theorem C101_joined :
    (match Finish.run num 0 ([[2], [2]] : List (List (Fin 3))) (storeOf 2 2 few) (storeOf 2 2 few).obs with
      | .ok r => (groupCams r.1.t.groups, r.1.objs.map fun e => OMap.keys e.2.boards)
      | _ => ([], [])) = ([(0, [0, 1])], [[0], [1]]) ∧
    (match Finish.run num 0 ([[2], [2]] : List (List (Fin 3))) (storeOf 2 2 many) (storeOf 2 2 many).obs with
      | .ok r => (groupCams r.1.t.groups, r.1.objs.map fun e => OMap.keys e.2.boards)
      | _ => ([], [])) = ([(0, [0, 1])], [[0, 1]]) := by decide +kernel

/-- The hypotheses of C100 and C101 are met: the cameras of the few images are linked, all corners are left, the many images
are more. -/
theorem few_hypotheses :
    (∀ a ∈ few, a.obs.cam < 2 ∧ a.obs.board < 2) ∧ (∀ a ∈ many, a.obs.cam < 2 ∧ a.obs.board < 2) ∧
    Store.run 2 2 few = .ok (storeOf 2 2 few) ∧ Store.run 2 2 many = .ok (storeOf 2 2 many) ∧
    Spec.Objects.SameViews (storeOf 2 2 few).obs (storeOf 2 2 few).obs ∧
    Spec.Objects.SameViews (storeOf 2 2 many).obs (storeOf 2 2 many).obs ∧
    More few many (storeOf 2 2 few).obs (storeOf 2 2 many).obs ∧
    (∀ a ∈ observingCams 2 few, ∀ b ∈ observingCams 2 few, ReflTransGen (CamsLinked few (storeOf 2 2 few).obs) a b) ∧
    (∃ bo ∈ (storeOf 2 2 few).obs, bo.pts ≠ []) ∧
    (∀ c ∈ observingCams 2 many, c ∈ observingCams 2 few) := by
  have h01 : ∀ a b : Nat, a ≠ b → a < 2 → b < 2 → CamsLinked few (storeOf 2 2 few).obs a b := by
    intro a b hne ha hb
    refine ⟨hne, ⟨a, 0, 0, [7], [0]⟩, ?_, ⟨b, 0, 0, [7], [0]⟩, ?_, rfl, rfl, rfl, by simp, by simp, ReflTransGen.refl⟩
    · have : a = 0 ∨ a = 1 := by omega
      rcases this with rfl | rfl <;> decide +kernel
    · have : b = 0 ∨ b = 1 := by omega
      rcases this with rfl | rfl <;> decide +kernel
  refine ⟨by decide +kernel, by decide +kernel, by rfl, by rfl, ⟨rfl, by decide +kernel⟩, ⟨rfl, by decide +kernel⟩,
    ⟨fun a ha => ⟨a, List.mem_append_left _ ha, rfl, rfl, rfl⟩, ?_⟩, ?_, ⟨⟨0, 0, 0, [7], [0]⟩, by decide +kernel, by simp⟩,
    by decide +kernel⟩
  · intro x hx hp
    have : (storeOf 2 2 few).obs ⊆ (storeOf 2 2 many).obs := by decide +kernel
    exact ⟨x, this hx, rfl, rfl, rfl, hp⟩
  · intro a ha b hb
    have hr : observingCams 2 few = [0, 1] := by decide +kernel
    rw [hr] at ha hb
    by_cases e : a = b
    · rw [e]
    · exact ReflTransGen.single (h01 a b e (by simp at ha; omega) (by simp at hb; omega))

/-- So the run on the many images ends with one group of both cameras. -/
example : ∃ r, Finish.run num 0 ([[2], [2]] : List (List (Fin 3))) (storeOf 2 2 many) (storeOf 2 2 many).obs = .ok r ∧
    ∃ g, OMap.keys r.1.t.groups = [0] ∧ OMap.get? r.1.t.groups 0 = some g ∧
      ∀ c, c ∈ OMap.keys g.cameras ↔ c ∈ observingCams 2 few := by
  obtain ⟨_, h2, _, h4, _, h6, h7, h8, h9, h10⟩ := few_hypotheses
  exact C101_one_group 2 2 few _ _ rfl many h2 _ h4 _ h6 num 0 h7 h8 h9 h10

end Verif.Props.Joined
