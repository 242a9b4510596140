import Verif.Lemmas.RigsPairs

/-! The rigs become one group, their targets one object. -/
namespace Verif.Lemmas.Rigs
open Verif Verif.Objects Verif.Groups Verif.NonOverlap Verif.Pipeline Verif.Spec.Pipeline
open Verif.Spec.Exact Verif.Spec.Structure Verif.Lemmas.Pipeline Verif.Lemmas.Program Verif.Lemmas.Rooted
open Verif.Spec.Rigs Verif.Spec.Objects Verif.Spec.Groups Verif.Spec.NonOverlap
open Verif.Props.NonOverlap Verif.Props.Exact
open Relation

variable {V G Pt P Path : Type}

section
variable [Group G] [MulAction G Pt] [DecidableEq P] (nCam nBoard : Nat) (l : List (Insertion P Path))
  (hl : ∀ a ∈ l, a.obs.cam < nCam ∧ a.obs.board < nBoard) (s : Store P Path)
  (hs : Store.run nCam nBoard l = .ok s) (hpts : ∀ a ∈ l, a.obs.pts ≠ [])
  (hobs : SameViews s.obs s.obs) (bpts : List (List Pt)) (hb : bpts.length = nBoard) (n : Numerics V G)
  {fc fb : Nat → Nat} {c0 b0 : Nat} {cs bs : List Nat} (hT : Rigs nCam nBoard l fc fb (c0 :: cs) (b0 :: bs))
  {w : World G} (hJ : Around w l fc c0 cs)

theorem first_le {x : Nat} {xs : List Nat} (h : (x :: xs).Pairwise (· < ·)) {i y : Nat} (hy : (x :: xs)[i]? = some y) : x ≤ y := by
  rcases List.mem_cons.1 (List.mem_of_getElem? hy) with rfl | hm
  · exact le_refl _
  · exact ((List.pairwise_cons.1 h).1 y hm).le

include hl hs hobs hb hT hpts hJ in
/-- After the first merge of groups: one group with all cameras. -/
theorem groups_joined (st : State G Pt P) (hst : overlapping n bpts s s.obs = .ok st)
    (pp : PairPoses G) (hpp : nonOverlapping n st = .ok pp)
    (st3 : State G Pt P) (h3 : afterMerge n bpts s s.obs pp st = .ok st3) :
    CamRoot c0 st3.t.groups ∧ ∃ i g, OMap.get? st3.t.groups i = some g ∧
      ∀ j gj, OMap.get? st.t.groups j = some gj → ∀ c ∈ OMap.keys gj.cameras, c ∈ OMap.keys g.cameras := by
  obtain ⟨hA, -, -⟩ := overlapping_apart nCam nBoard l hl s hs hobs bpts hb n hT st hst
  have hC := hA.consistent
  have hB := table nCam nBoard l hl s hs hpts hobs bpts hb n hT st hst
  have hrec := fun {j : Nat} => recorded nCam nBoard l hl s hs hpts hobs bpts hb n hT hJ st hst pp hpp (j := j)
  rcases Props.Pipeline.C52_merge nCam nBoard l hl s hs s.obs hobs bpts n st hC pp hpp with ⟨st3', ccs, q1, q2, q3, q4, q5⟩ | ⟨hbad, _⟩
  swap
  · rw [h3] at hbad; cases hbad
  rw [h3] at q1
  cases q1
  obtain ⟨g0, hg0, r0⟩ := hB.group 0 c0 rfl
  have hlink : ∀ j ∈ OMap.keys st.t.groups, ReflTransGen (Joined pp.pose) j 0 ∧ ReflTransGen (Joined pp.pose) 0 j := by
    intro j hj
    by_cases h0 : j = 0
    · rw [h0]; exact ⟨ReflTransGen.refl, ReflTransGen.refl⟩
    · exact ⟨ReflTransGen.single (Or.inl (hrec hj h0).2), ReflTransGen.single (Or.inl (hrec hj h0).1)⟩
  have hin : ∀ c ∈ ccs, ∀ j ∈ OMap.keys st.t.groups, j ∈ c := by
    intro c hc j hj
    obtain ⟨k, hk⟩ := List.exists_mem_of_ne_nil _ (q3.nonempty c hc)
    have hko : k ∈ observingGroups st.t.groups := q3.perm.subset (List.mem_flatten.2 ⟨c, hc, hk⟩)
    exact (q3.linked c hc k hk j).2 ((hlink k (List.mem_filter.1 hko).1).1.trans (hlink j hj).2)
  have hall : ∀ i (hi : i < ccs.length) g, OMap.get? st3.t.groups i = some g →
      ∀ j gj, OMap.get? st.t.groups j = some gj → ∀ c ∈ OMap.keys gj.cameras, c ∈ OMap.keys g.cameras := by
    intro i hi g hg j gj hgj c hc
    obtain ⟨g', hg', hq⟩ := q5 i ccs[i] (List.getElem?_eq_getElem hi)
    rw [hg] at hg'
    cases hg'
    exact (hq c).2 ⟨j, hin _ (List.getElem_mem hi) j (OMap.mem_keys.2 ⟨gj, hgj⟩), gj, hgj, hc⟩
  constructor
  · refine CamRoot.of q2.groups.sorted fun i g hg => ?_
    have hi : i ∈ OMap.keys st3.t.groups := OMap.mem_keys.2 ⟨g, hg⟩
    rw [q4, List.mem_range] at hi
    refine ⟨hall i hi g hg 0 g0 hg0 c0 (r0 ▸ hC.groups.ref_mem 0 g0 hg0), fun c hc => ?_⟩
    obtain ⟨g', hg', hq⟩ := q5 i ccs[i] (List.getElem?_eq_getElem hi)
    rw [hg] at hg'
    cases hg'
    obtain ⟨j, _, gj, hgj, hcj⟩ := (hq c).1 hc
    exact (first_le hT.cams_lt (hB.groups j gj hgj)).trans (hC.groups.ref_least j gj hgj c hcj)
  · obtain ⟨a, ha, e⟩ := hT.seeing c0 (by simp)
    obtain ⟨_, x, hx, _, hxc⟩ := seen_by nCam nBoard l hl s hs hpts hobs bpts hb n hT st hst hg0 ⟨a, ha, rfl, by rw [e, r0]⟩
    have h0 : 0 ∈ observingGroups st.t.groups := by
      unfold observingGroups
      rw [List.mem_filter]
      refine ⟨OMap.mem_keys.2 ⟨g0, hg0⟩, ?_⟩
      rw [hg0]
      simpa using Lemmas.FinishRun.listed nCam nBoard l hl s hs s.obs hobs bpts hC hg0 hx hxc
    obtain ⟨c, hc, _⟩ := List.mem_flatten.1 (q3.perm.symm.subset h0)
    obtain ⟨i, hi, rfl⟩ := List.getElem_of_mem hc
    obtain ⟨g, hg, _⟩ := q5 i ccs[i] (List.getElem?_eq_getElem hi)
    exact ⟨i, g, hg, hall i hi g hg⟩

include hl hs hobs hb hT hpts in
/-- Every object is seen by a group. -/
theorem object_seen (st : State G Pt P) (hst : overlapping n bpts s s.obs = .ok st) {k : Nat} {o : Object G Pt}
    (ho : OMap.get? st.objs k = some o) :
    ∃ z ∈ st.oo, z.obj = k ∧ ∃ i g, OMap.get? st.t.groups i = some g ∧ z.cam ∈ OMap.keys g.cameras := by
  obtain ⟨hA, -, -⟩ := overlapping_apart nCam nBoard l hl s hs hobs bpts hb n hT st hst
  obtain ⟨_, j1, j2, j3⟩ := Lemmas.FinishRun.overlapping_joins nCam nBoard l hl s hs s.obs hobs bpts hb n st hst
  have hC := hA.consistent
  have hB := table nCam nBoard l hl s hs hpts hobs bpts hb n hT st hst
  obtain ⟨a, ha, e⟩ := hT.seen _ (List.mem_of_getElem? (hB.objects k o ho))
  have hm : a.obs ∈ s.obs := by rw [(store_desc nCam nBoard l hl s hs).obs]; exact List.mem_map_of_mem ha
  obtain ⟨z, hz, z1, z2⟩ := (Lemmas.FinishRun.views hC j1.boards a.obs.cam a.obs.frame).2 ⟨_, hm, rfl, rfl, hpts a ha⟩
  obtain ⟨a', ha', a1, a2, o', ho', a3⟩ := detected nCam nBoard l hl s hs bpts hC hz
  obtain ⟨i, g, hg, hc⟩ := j2 _ hm (hpts a ha)
  refine ⟨z, hz, ?_, i, g, hg, by rw [z1]; exact hc⟩
  have e1 := hA.boards.ref hC.objs ho' a3
  rw [(hT.own a' ha' a ha).1 (by rw [a1, z1]), e] at e1
  exact hC.objs.disjoint _ _ o' o ho' ho o'.refBoard (hC.objs.ref_mem _ o' ho') (e1 ▸ hC.objs.ref_mem _ o ho)

include hl hs hobs hb hT hpts hJ in
/-- The first group and every other group see their objects at once. -/
theorem seen_at_once (st : State G Pt P) (hst : overlapping n bpts s s.obs = .ok st) {z : ObjObs P} (hz : z ∈ st.oo)
    {i : Nat} {g g0 : CamGroup G} (hg : OMap.get? st.t.groups i = some g) (hc : z.cam ∈ OMap.keys g.cameras)
    (hg0 : OMap.get? st.t.groups 0 = some g0) {x0 : ObjObs P} (hx0 : x0 ∈ st.oo) (hc0 : x0.cam ∈ OMap.keys g0.cameras) :
    z.obj = x0.obj ∨ z.obj ≠ x0.obj ∧ ∃ x ∈ st.oo, ∃ y ∈ st.oo, x.frame = y.frame ∧ x.cam ∈ OMap.keys g0.cameras ∧
      y.cam ∈ OMap.keys g.cameras ∧ x.obj = x0.obj ∧ y.obj = z.obj := by
  obtain ⟨hA, -, -⟩ := overlapping_apart nCam nBoard l hl s hs hobs bpts hb n hT st hst
  have hC := hA.consistent
  have hB := table nCam nBoard l hl s hs hpts hobs bpts hb n hT st hst
  have same : ∀ {k : Nat} {g : CamGroup G} {x y : ObjObs P}, OMap.get? st.t.groups k = some g → x ∈ st.oo → y ∈ st.oo →
      x.cam ∈ OMap.keys g.cameras → y.cam ∈ OMap.keys g.cameras → x.obj = y.obj := by
    intro k g x y hg hx hy cx cy
    refine one_object nCam nBoard l hl s hs bpts hT hA hx hy ?_
    rw [← hA.cams.ref hC.groups hg cx, ← hA.cams.ref hC.groups hg cy]
  by_cases h : z.obj = x0.obj
  · exact Or.inl h
  refine Or.inr ⟨h, ?_⟩
  have hi : i ≠ 0 := by
    rintro rfl
    rw [hg] at hg0
    cases hg0
    exact h (same hg hz hx0 hc hc0)
  have e0 : c0 = g0.refCam := Option.some.inj (hB.groups 0 g0 hg0)
  obtain ⟨fs, k1, k2, k3, k4⟩ := hJ.hub _ (get_tail hi (hB.groups i g hg))
  obtain ⟨f, hf⟩ := List.exists_mem_of_length_pos (l := fs) (by omega)
  obtain ⟨f1, f2⟩ := k1 f hf
  rw [e0] at f1
  obtain ⟨_, x, hx, x1, x2⟩ := seen_by nCam nBoard l hl s hs hpts hobs bpts hb n hT st hst hg0 f1
  obtain ⟨_, y, hy, y1, y2⟩ := seen_by nCam nBoard l hl s hs hpts hobs bpts hb n hT st hst hg f2
  exact ⟨x, hx, y, hy, by rw [x1, y1], x2, y2, same hg0 hx hx0 x2 hc0, same hg hy hz y2 hc⟩

include hl hs hobs hb hT hpts hJ in
/-- The merge of groups, and then of objects before its refinement. -/
theorem merged (st : State G Pt P) (hst : overlapping n bpts s s.obs = .ok st)
    (pp : PairPoses G) (hpp : nonOverlapping n st = .ok pp) (st1 : State G Pt P) (h1 : mergeGroups1 n s pp st = .ok st1)
    (st2 : State G Pt P) (h2 : joinObjects n 4 bpts s s.obs st1 = .ok st2) :
    Consistent bpts (OMap.keys s.frames) s.obs st2 ∧ BoardRoot b0 (observedBoards nBoard l) st2.objs ∧ CamRoot c0 st2.t.groups := by
  obtain ⟨hA, -, -⟩ := overlapping_apart nCam nBoard l hl s hs hobs bpts hb n hT st hst
  have hC := hA.consistent
  have hB := table nCam nBoard l hl s hs hpts hobs bpts hb n hT st hst
  have hI1 := Props.Program.groups nCam nBoard l hl s hs s.obs bpts n st st1
    (inv_of nCam nBoard l hl s hs s.obs hobs bpts hb n st hst) pp hpp h1
  have hobj : st1.objs = st.objs ∧ st1.oo = st.oo := by
    unfold mergeGroups1 at h1
    obtain ⟨gs, q1, q2⟩ := Outcome.bind_eq_ok.1 h1
    obtain ⟨t, q3, q4⟩ := Outcome.bind_eq_ok.1 q2
    simp only [Outcome.pure_eq, Outcome.ok.injEq] at q4
    rw [← q4]
    exact ⟨rfl, rfl⟩
  obtain ⟨st2', p1, p2, p3, _, _, ccs, m4, m5, m3, m6⟩ := joinObjects_ok nCam nBoard l hl s hs s.obs hobs bpts n 4 st1 hI1.consistent
  rw [h2] at p1
  cases p1
  obtain ⟨st3, r1, r2, r3, _⟩ := refineAll_ok (frames := OMap.keys s.frames) (obs := s.obs) n 4 st2 p2
  have hafter : afterMerge n bpts s s.obs pp st = .ok st3 := by
    unfold afterMerge Pipeline.mergeStage
    rw [h1, Outcome.bind_ok, h2, Outcome.bind_ok, r1]
  obtain ⟨hroot, ig, g, hg, hall⟩ := groups_joined nCam nBoard l hl s hs hpts hobs bpts hb n hT hJ st hst pp hpp st3 hafter
  refine ⟨p2, ?_, by unfold CamRoot at hroot ⊢; rw [r3] at hroot; exact hroot⟩
  -- the joint group before the merge of objects
  obtain ⟨i1, g1, hg1, hcam1⟩ : ∃ i1 g1, OMap.get? st1.t.groups i1 = some g1 ∧ OMap.keys g1.cameras = OMap.keys g.cameras := by
    have hm : (ig, OMap.keys g.cameras) ∈ groupCams st1.t.groups := by
      rw [← p3, ← r3]
      exact List.mem_map.2 ⟨(ig, g), (OMap.get?_eq_some r2.groups.sorted).1 hg, rfl⟩
    obtain ⟨⟨i, g'⟩, h, e⟩ := List.mem_map.1 hm
    exact ⟨i, g', (OMap.get?_eq_some hI1.consistent.groups.sorted).2 h, (Prod.mk.inj e).2⟩
  -- all objects are seen by it together with the one of the first rig
  obtain ⟨g0, hg0, r0⟩ := hB.group 0 c0 rfl
  obtain ⟨a0, ha0, e0⟩ := hT.seeing c0 (by simp)
  obtain ⟨_, x0, hx0, _, hxc0⟩ := seen_by nCam nBoard l hl s hs hpts hobs bpts hb n hT st hst hg0 ⟨a0, ha0, rfl, by rw [e0, r0]⟩
  have htog : ∀ k o, OMap.get? st.objs k = some o → k = x0.obj ∨
      SeenTogether st1.t.groups st1.oo k x0.obj ∧ SeenTogether st1.t.groups st1.oo x0.obj k := by
    intro k o ho
    obtain ⟨z, hz, rfl, i, gz, hgz, hcz⟩ := object_seen nCam nBoard l hl s hs hpts hobs bpts hb n hT st hst ho
    rcases seen_at_once nCam nBoard l hl s hs hpts hobs bpts hb n hT hJ st hst hz hgz hcz hg0 hx0 hxc0 with h | ⟨h, x, hx, y, hy, hf, cx, cy, ex, ey⟩
    · exact Or.inl h
    have hxg : x.cam ∈ OMap.keys g1.cameras := by rw [hcam1]; exact hall 0 g0 hg0 _ cx
    have hyg : y.cam ∈ OMap.keys g1.cameras := by rw [hcam1]; exact hall i gz hgz _ cy
    rw [hobj.2]
    exact Or.inr ⟨⟨h, i1, g1, y, x, hg1, hy, hx, hf.symm, hyg, hxg, ey, ex⟩,
      ⟨fun e => h e.symm, i1, g1, x, y, hg1, hx, hy, hf, hxg, hyg, ex, ey⟩⟩
  intro i o ho
  have hi : i ∈ OMap.keys st2.objs := OMap.mem_keys.2 ⟨o, ho⟩
  rw [m3, List.mem_range, ← m5] at hi
  obtain ⟨o', ho', hbo⟩ := m6 i ccs[i] (List.getElem?_eq_getElem hi)
  rw [ho] at ho'
  cases ho'
  have hc := List.getElem_mem hi
  rw [hobj.1] at hbo
  obtain ⟨o0, ho0, e0⟩ := hB.object 0 b0 rfl
  have h0 : 0 ∈ ccs[i] := by
    obtain ⟨j, hj⟩ := List.exists_mem_of_ne_nil _ (m4.nonempty _ hc)
    have : j ∈ observedObjects st1.objs st1.oo := m4.perm.subset (List.mem_flatten.2 ⟨_, hc, hj⟩)
    obtain ⟨oj, hoj⟩ := OMap.mem_keys.1 (List.mem_filter.1 this).1
    rw [hobj.1] at hoj
    refine (m4.linked _ hc j hj 0).2 (ReflTransGen.trans (b := x0.obj) ?_ ?_)
    · rcases htog j oj hoj with rfl | h
      · exact ReflTransGen.refl
      · exact ReflTransGen.single h.1
    · rcases htog 0 o0 ho0 with h | h
      · rw [← h]
      · exact ReflTransGen.single h.2
  refine ⟨(hbo b0).2 ⟨0, h0, o0, ho0, e0 ▸ hC.objs.ref_mem 0 o0 ho0⟩, fun b hb' => ?_⟩
  obtain ⟨j, _, oj, hoj, hbj⟩ := (hbo b).1 hb'
  exact ⟨(first_le hT.boards_lt (hB.objects j oj hoj)).trans (hC.objs.ref_least j oj hoj b hbj), (hA.boards j oj hoj b hbj).1⟩

include hl hs hobs hb hT hpts hJ in
/-- After the second merge of groups, with the pairs found before the first. -/
theorem second (st : State G Pt P) (hst : overlapping n bpts s s.obs = .ok st)
    (pp : PairPoses G) (hpp : nonOverlapping n st = .ok pp) (st3 : State G Pt P) (h3 : afterMerge n bpts s s.obs pp st = .ok st3)
    (st4 : State G Pt P) (h4 : mergeGroups2 n s pp st3 = .ok st4) :
    Consistent bpts (OMap.keys s.frames) s.obs st4 ∧ BoardRoot b0 (observedBoards nBoard l) st4.objs ∧ CamRoot c0 st4.t.groups := by
  obtain ⟨hroot, -⟩ := groups_joined nCam nBoard l hl s hs hpts hobs bpts hb n hT hJ st hst pp hpp st3 h3
  have hrec := symmetric nCam nBoard l hl s hs hpts hobs bpts hb n hT st hst pp hpp
  obtain ⟨c1', c2, c3, c4⟩ := Lemmas.FinishRun.overlapping_joins nCam nBoard l hl s hs s.obs hobs bpts hb n st hst
  obtain ⟨d1, d2, d3, d4, d5, d6⟩ := Lemmas.FinishRun.afterMerge_joins nCam nBoard l hl s hs s.obs hobs bpts n st st3 c1' c2 c3 _ c4
    pp hpp h3
  have hE := Lemmas.FinishRun.mergeGroups2_ends nCam nBoard l hl s hs s.obs hobs bpts n st st3 st4 c1' pp hpp d1 d2 d3 d4 d5
      _ d6 h4
  refine ⟨hE.consistent, ?_, ?_⟩
  · rw [(Props.Program.groups2 s n st3 st4 pp h4).1]
    unfold afterMerge Pipeline.mergeStage at h3
    obtain ⟨st1, e1, e2⟩ := Outcome.bind_eq_ok.1 h3
    obtain ⟨st2, e3, e4⟩ := Outcome.bind_eq_ok.1 e2
    obtain ⟨a1, a2, a3⟩ := merged nCam nBoard l hl s hs hpts hobs bpts hb n hT hJ st hst pp hpp st1 e1 st2 e3
    exact (refine_root s.obs bpts n 4 a1 e4 a2).2.1
  · unfold mergeGroups2 at h4
    obtain ⟨m, hm, h4⟩ := Outcome.bind_eq_ok.1 h4
    obtain ⟨t, ht, h4⟩ := Outcome.bind_eq_ok.1 h4
    simp only [Outcome.pure_eq, Outcome.ok.injEq] at h4
    obtain ⟨k, hk⟩ := d4
    obtain ⟨e1, e2, e3, e4, e5, e6⟩ := Lemmas.Finish.merged_collection d1.groups pp (fun a b h => (hrec a b h).1) (n.choose 5) k hk (by
        intro i g hg
        obtain ⟨o, ho, hc⟩ := d5 i g hg
        exact Lemmas.FinishRun.listed nCam nBoard l hl s hs s.obs hobs bpts d1 hg ho hc) m hm
    obtain ⟨t', k1, k2, k3, k4, k5, _⟩ := regroup_ok (Pt := Pt) st3.oo (OMap.keys s.frames)
      ((frames_sorted nCam nBoard l hl s hs).imp Nat.ne_of_lt) { st3.t with groups := m } e1 (by
        intro i g hg
        rw [(e2 i g hg).2]
        exact List.Pairwise.nil)
    rw [ht] at k1
    cases k1
    subst h4
    have : CamRoot c0 m := by
      refine CamRoot.of e1.sorted fun i g hg => ⟨?_, fun c hc => ?_⟩
      · obtain ⟨j, gj, hgj, hq⟩ := e4 i g hg
        exact hq c0 (hroot.get d1.groups.sorted hgj).1
      · obtain ⟨j, gj, hgj, hq⟩ := e6 i g c hg hc
        exact (hroot.get d1.groups.sorted hgj).2 c hq
    unfold CamRoot at this ⊢
    show ∀ e ∈ groupCams t.groups, _
    rw [k5]
    exact this

include hl hs hobs hb hT hpts hJ in
/-- At the end of the workflow. -/
theorem workflow_joined (st : State G Pt P) (h : workflow n bpts s s.obs = .ok st) :
    Consistent bpts (OMap.keys s.frames) s.obs st ∧ BoardRoot b0 (observedBoards nBoard l) st.objs ∧ CamRoot c0 st.t.groups := by
  unfold workflow at h
  obtain ⟨st1, h1, h⟩ := Outcome.bind_eq_ok.1 h
  obtain ⟨pp, h2, h⟩ := Outcome.bind_eq_ok.1 h
  obtain ⟨st3, h3, h⟩ := Outcome.bind_eq_ok.1 h
  obtain ⟨st4, h4, h⟩ := Outcome.bind_eq_ok.1 h
  obtain ⟨a1, a2, a3⟩ := second nCam nBoard l hl s hs hpts hobs bpts hb n hT hJ st1 h1 pp h2 st3 h3 st4 h4
  obtain ⟨q1, q2, q3⟩ := refine_root s.obs bpts n 5 a1 h a2
  refine ⟨q1, q2, ?_⟩
  unfold CamRoot
  rw [q3]
  exact a3

include hl hs hobs hb hT hpts hJ in
/-- At the end of the run. -/
theorem run_joined (fix : Int) (r : State G Pt P × OMap (Nat × Nat) (OMap Nat V)) (h : Finish.run n fix bpts s s.obs = .ok r) :
    Consistent bpts (OMap.keys s.frames) s.obs r.1 ∧ BoardRoot b0 (observedBoards nBoard l) r.1.objs ∧ CamRoot c0 r.1.t.groups := by
  have hw : ∃ st, workflow n bpts s s.obs = .ok st := by
    unfold Finish.run at h
    obtain ⟨st, h1, h⟩ := Outcome.bind_eq_ok.1 h
    obtain ⟨pp, h2, h⟩ := Outcome.bind_eq_ok.1 h
    obtain ⟨st1, h3, h⟩ := Outcome.bind_eq_ok.1 h
    obtain ⟨st2, h4, h⟩ := Outcome.bind_eq_ok.1 h
    unfold Finish.finalStage at h
    obtain ⟨st5, h5, h⟩ := Outcome.bind_eq_ok.1 h
    refine ⟨st5, ?_⟩
    unfold workflow
    rw [h1, Outcome.bind_ok, h2, Outcome.bind_ok, h3, Outcome.bind_ok, h4, Outcome.bind_ok, h5]
  obtain ⟨st, hst⟩ := hw
  obtain ⟨a1, a2, a3⟩ := workflow_joined nCam nBoard l hl s hs hpts hobs bpts hb n hT hJ st hst
  obtain ⟨op, hop⟩ := Props.ExactReport.run_eq n fix bpts s s.obs st hst
  rw [h] at hop
  have hop := hop.symm
  unfold Finish.lastRefine at hop
  split at hop
  · obtain ⟨st6, h6, hop⟩ := Outcome.bind_eq_ok.1 hop
    simp only [Outcome.pure_eq, Outcome.ok.injEq] at hop
    rw [← hop]
    obtain ⟨q1, q2, q3⟩ := refine_root s.obs bpts n 6 a1 h6 a2
    refine ⟨q1, q2, ?_⟩
    unfold CamRoot
    show ∀ e ∈ groupCams st6.t.groups, _
    rw [q3]
    exact a3
  · simp only [Outcome.ok.injEq] at hop
    rw [← hop]
    exact ⟨a1, a2, a3⟩

end
end Verif.Lemmas.Rigs
