import Verif.Props.Pixels

/-! All objects have the same least board, all groups the same least camera. -/
namespace Verif.Lemmas.Rooted
open Verif Verif.Objects Verif.Groups Verif.NonOverlap Verif.Pipeline Verif.Spec.Pipeline
open Verif.Spec.Exact Verif.Spec.Structure Verif.Lemmas.Pipeline Verif.Lemmas.Program

variable {V G Pt P Path : Type}

/-- Every object has board `b0`, which is its least, and only boards of `B`. -/
def BoardRoot (b0 : Nat) (B : List Nat) (objs : OMap Nat (Object G Pt)) : Prop :=
  ∀ i o, OMap.get? objs i = some o → b0 ∈ OMap.keys o.boards ∧ ∀ b ∈ OMap.keys o.boards, b0 ≤ b ∧ b ∈ B

/-- Every group has camera `c0`, which is its least. -/
def CamRoot (c0 : Nat) (gs : OMap Nat (CamGroup G)) : Prop :=
  ∀ e ∈ groupCams gs, c0 ∈ e.2 ∧ ∀ c ∈ e.2, c0 ≤ c

theorem BoardRoot.ref [Group G] [SMul G Pt] {bpts : List (List Pt)} {b0 : Nat} {objs : OMap Nat (Object G Pt)}
    (h : BoardRoot b0 B objs) (hC : Spec.Objects.Collection bpts objs) {i : Nat} {o : Object G Pt}
    (ho : OMap.get? objs i = some o) : o.refBoard = b0 :=
  le_antisymm (hC.ref_least i o ho _ (h i o ho).1) ((h i o ho).2 _ (hC.ref_mem i o ho)).1

theorem CamRoot.of {c0 : Nat} {gs : OMap Nat (CamGroup G)} (hs : OMap.Sorted gs)
    (h : ∀ i g, OMap.get? gs i = some g → c0 ∈ OMap.keys g.cameras ∧ ∀ c ∈ OMap.keys g.cameras, c0 ≤ c) : CamRoot c0 gs := by
  intro e he
  obtain ⟨x, hx, rfl⟩ := List.mem_map.1 he
  exact h x.1 x.2 ((OMap.get?_eq_some hs).2 hx)

theorem CamRoot.get {c0 : Nat} {gs : OMap Nat (CamGroup G)} (hs : OMap.Sorted gs) (h : CamRoot c0 gs)
    {i : Nat} {g : CamGroup G} (hg : OMap.get? gs i = some g) :
    c0 ∈ OMap.keys g.cameras ∧ ∀ c ∈ OMap.keys g.cameras, c0 ≤ c :=
  h (i, OMap.keys g.cameras) (List.mem_map.2 ⟨(i, g), (OMap.get?_eq_some hs).1 hg, rfl⟩)

theorem CamRoot.ref [Group G] {c0 : Nat} {gs : OMap Nat (CamGroup G)} (h : CamRoot c0 gs) (hC : Spec.Groups.Collection gs)
    {i : Nat} {g : CamGroup G} (hg : OMap.get? gs i = some g) : g.refCam = c0 :=
  le_antisymm (hC.ref_least i g hg _ (h.get hC.sorted hg).1) ((h.get hC.sorted hg).2 _ (hC.ref_mem i g hg))

theorem BoardRoot.same {b0 : Nat} {objs objs' : OMap Nat (Object G Pt)} (h : BoardRoot b0 B objs) (hs : SameAll objs objs') :
    BoardRoot b0 B objs' := by
  intro i o' ho'
  obtain ⟨o, ho, hso⟩ := hs.2 i o' ho'
  rw [hso.boards]
  exact h i o ho

/-- At most one group. -/
theorem CamRoot.unique [Group G] {c0 : Nat} {gs : OMap Nat (CamGroup G)} (h : CamRoot c0 gs) (hC : Spec.Groups.Collection gs)
    {i j : Nat} {g g' : CamGroup G} (hg : OMap.get? gs i = some g) (hg' : OMap.get? gs j = some g') : i = j :=
  hC.disjoint i j g g' hg hg' c0 (h.get hC.sorted hg).1 (h.get hC.sorted hg').1

section
variable [Group G] [SMul G Pt] {bpts : List (List Pt)} {w : World G} {b0 c0 : Nat} {n : Numerics V G}
  (hboard : ∀ k i b, n.board k i b = (w.board b0)⁻¹ * w.board b)
  (hcam : ∀ k i c, n.cam k i c = w.cam c * (w.cam c0)⁻¹)

include hboard in
theorem boards_true (k : Nat) {objs objs' : OMap Nat (Object G Pt)} (hC : Spec.Objects.Collection bpts objs)
    (hr : BoardRoot b0 B objs) (h : refineObjects bpts (n.board k) objs = .ok objs') : BoardsTrue w objs' := by
  obtain ⟨m, h1, h2, h3, h4⟩ := foldlM_values (fun i o => refineObject bpts (n.board k i) o)
    (fun i o o' => SameObject o o' ∧ ∀ b ∈ OMap.keys o.poses, b ≠ o.refBoard → OMap.get? o'.poses b = some (n.board k i b))
    objs hC.sorted (by
      intro e he
      obtain ⟨o', k1, k2, k3, k4, k5⟩ := refineObject_ok (n.board k e.1) e.2
        (hC.good e.1 e.2 ((OMap.get?_eq_some hC.sorted).2 he))
      exact ⟨o', k1, k3, k5⟩)
  have h1' : refineObjects bpts (n.board k) objs = .ok m := h1
  rw [h1'] at h
  cases h
  intro i o' b ho' hb
  obtain ⟨o, ho, hso, hp⟩ := h4 i o' ho'
  have href := hr.ref hC ho
  rw [hso.ref]
  by_cases hbr : b = o.refBoard
  · rw [hbr, hso.refPose, hC.ref_pose i o ho, inv_mul_cancel]
  · rw [hp b ?_ hbr, hboard, href]
    rw [hso.boards] at hb
    rw [(hC.good i o ho).posed.keys]
    exact hb

include hcam in
theorem cams_true (k : Nat) {gs : OMap Nat (CamGroup G)} (hC : Spec.Groups.Collection gs) (hr : CamRoot c0 gs) :
    CamerasTrue w (refineGroups (n.cam k) gs) := by
  intro i g' c hg' hc
  rw [get?_refineGroups] at hg'
  obtain ⟨g, hg, rfl⟩ := Option.map_eq_some_iff.1 hg'
  have href := hr.ref hC hg
  obtain ⟨_, h2, h3, _, _, _, h7⟩ := refineGroup_same (n.cam k) i g
  rw [h2]
  rw [h3] at hc
  by_cases hcr : c = g.refCam
  · rw [hcr, h7, hC.ref_pose i g hg, mul_inv_cancel]
  · have hk : c ∈ OMap.keys g.poses := by rw [hC.poses i g hg]; exact hc
    obtain ⟨x, hx⟩ := OMap.mem_keys.1 hk
    show OMap.get? (g.poses.map fun p => (p.1, (fun c y => if c = g.refCam then y else n.cam k i c) p.1 p.2)) c = _
    rw [get?_mapVal (fun c y => if c = g.refCam then y else n.cam k i c), hx, Option.map_some, if_neg hcr, hcam, href]

include hboard hcam in
theorem keeps (k : Nat) {frames : List Nat} {obs : List (BoardObs P)} {st : State G Pt P} (hC : Consistent bpts frames obs st)
    (hr : BoardRoot b0 B st.objs) (hg : CamRoot c0 st.t.groups) : Keeps w n k bpts st := by
  intro _ st' h
  unfold refineAll at h
  obtain ⟨objs', h1, h2⟩ := Outcome.bind_eq_ok.1 h
  simp only [Outcome.pure_eq, Outcome.ok.injEq] at h2
  subst h2
  exact ⟨boards_true hboard k hC.objs hr h1, cams_true hcam k hC.groups hg⟩

end

section
variable [Group G] [MulAction G Pt] [DecidableEq P] (nCam nBoard : Nat) (l : List (Insertion P Path))
  (hl : ∀ a ∈ l, a.obs.cam < nCam ∧ a.obs.board < nBoard) (s : Store P Path)
  (hs : Store.run nCam nBoard l = .ok s) (obs : List (BoardObs P))
  (hobs : Spec.Objects.SameViews s.obs obs) (bpts : List (List Pt)) (hb : bpts.length = nBoard) (n : Numerics V G)
  {b0 c0 : Nat}
  (hbl : ∀ b ∈ Spec.Objects.observedBoards nBoard l, b0 ≤ b)
  (hboards : ∀ b ∈ Spec.Objects.observedBoards nBoard l, Relation.ReflTransGen (Spec.Objects.CoSeen l) b b0)
  (hcl : ∀ c ∈ Spec.Groups.observingCams nCam l, c0 ≤ c)
  (hcams : ∀ c ∈ Spec.Groups.observingCams nCam l, Relation.ReflTransGen (CamsLinked l obs) c c0)

include hbl hboards in
omit [Group G] [MulAction G Pt] [DecidableEq P] in
theorem boards_root {objs : OMap Nat (Object G Pt)} (hs : OMap.Sorted objs)
    (hp : IsPartition (Spec.Objects.CoSeen l) (Spec.Objects.observedBoards nBoard l) (objs.map fun e => OMap.keys e.2.boards)) :
    BoardRoot b0 (Spec.Objects.observedBoards nBoard l) objs := by
  intro i o ho
  have hm : OMap.keys o.boards ∈ objs.map fun e => OMap.keys e.2.boards :=
    List.mem_map.2 ⟨(i, o), (OMap.get?_eq_some hs).1 ho, rfl⟩
  have hin : ∀ b ∈ OMap.keys o.boards, b ∈ Spec.Objects.observedBoards nBoard l := fun b hb =>
    hp.perm.subset (List.mem_flatten.2 ⟨_, hm, hb⟩)
  refine ⟨?_, fun b hb => ⟨hbl b (hin b hb), hin b hb⟩⟩
  obtain ⟨b, hb⟩ := List.exists_mem_of_ne_nil _ (hp.nonempty _ hm)
  exact (hp.linked _ hm b hb b0).2 (hboards b (hin b hb))

include hcl hcams in
omit [Group G] [MulAction G Pt] [DecidableEq P] in
theorem cams_root {gs : OMap Nat (CamGroup G)}
    (hp : IsPartition (CamsLinked l obs) (Spec.Groups.observingCams nCam l) ((groupCams gs).map (·.2))) : CamRoot c0 gs := by
  intro e he
  have hm : e.2 ∈ (groupCams gs).map (·.2) := List.mem_map_of_mem he
  have hin : ∀ c ∈ e.2, c ∈ Spec.Groups.observingCams nCam l := fun c hc =>
    hp.perm.subset (List.mem_flatten.2 ⟨_, hm, hc⟩)
  refine ⟨?_, fun c hc => hcl c (hin c hc)⟩
  obtain ⟨c, hc⟩ := List.exists_mem_of_ne_nil _ (hp.nonempty _ hm)
  exact (hp.linked _ hm c hc c0).2 (hcams c (hin c hc))

include hl hs hobs in
theorem join_root (k : Nat) {st st' : State G Pt P} (h : Consistent bpts (OMap.keys s.frames) obs st)
    (hj : joinObjects n k bpts s obs st = .ok st') (hr : BoardRoot b0 B st.objs) :
    Consistent bpts (OMap.keys s.frames) obs st' ∧ BoardRoot b0 B st'.objs ∧ groupCams st'.t.groups = groupCams st.t.groups := by
  obtain ⟨st1, p1, p2, p3, _, _, cs, m4, m5, m3, m6⟩ := joinObjects_ok nCam nBoard l hl s hs obs hobs bpts n k st h
  rw [hj] at p1
  cases p1
  refine ⟨p2, ?_, p3⟩
  intro i o ho
  have hi : i ∈ OMap.keys st'.objs := OMap.mem_keys.2 ⟨o, ho⟩
  rw [m3, List.mem_range, ← m5] at hi
  obtain ⟨o1, ho1, hbo⟩ := m6 i cs[i] (List.getElem?_eq_getElem hi)
  rw [ho] at ho1
  cases ho1
  obtain ⟨j, hj, oj, hoj, hbj⟩ := (hbo _).1 (p2.objs.ref_mem i o ho)
  refine ⟨(hbo b0).2 ⟨j, hj, oj, hoj, (hr j oj hoj).1⟩, fun b hb => ?_⟩
  obtain ⟨j', _, oj', hoj', hbj'⟩ := (hbo b).1 hb
  exact (hr j' oj' hoj').2 b hbj'

omit [DecidableEq P] in
theorem refine_root (k : Nat) {st st' : State G Pt P} {frames : List Nat} (h : Consistent bpts frames obs st)
    (hj : refineAll n k bpts st = .ok st') (hr : BoardRoot b0 B st.objs) :
    Consistent bpts frames obs st' ∧ BoardRoot b0 B st'.objs ∧ groupCams st'.t.groups = groupCams st.t.groups := by
  obtain ⟨st1, r1, r2, r3, r4, r5, r6⟩ := refineAll_ok (frames := frames) (obs := obs) n k st h
  rw [hj] at r1
  cases r1
  exact ⟨r2, hr.same ⟨r5, r6⟩, r3⟩

include hl hs hobs hb hbl hboards hcl hcams in
/-- The tables before the first refinement of the groups, and after it. -/
theorem place_root (r : OMap Nat (Object G Pt) × List (ObjObs P)) (hr : Pipeline.calibrateObjects n bpts s obs = .ok r)
    (st : State G Pt P) (hst : placeGroups n s r.1 r.2 = .ok st) :
    Consistent bpts (OMap.keys s.frames) obs st ∧ BoardRoot b0 (Spec.Objects.observedBoards nBoard l) st.objs ∧ CamRoot c0 st.t.groups := by
  obtain ⟨r', h1, h2, _, h4, objs, h5, h6, h7, h8⟩ := calibrateObjects_ok nCam nBoard l hl s hs obs hobs bpts hb n
  rw [hr] at h1
  cases h1
  obtain ⟨st1, g1, g2, g3, g4, g5, _⟩ := placeGroups_ok nCam nBoard l hl s hs obs hobs bpts n objs r.1 r.2 h5 h6 h2 h7 h8
  rw [hst] at g1
  cases g1
  refine ⟨g2, ?_, ?_⟩
  · rw [g5]
    exact boards_root nBoard l hbl hboards h2.sorted h4
  · rw [Props.Pipeline.bothSee_eq nCam nBoard l hl s hs obs hobs r.1 objs h2.sorted h4 h7 h8] at g3
    exact cams_root nCam l obs hcl hcams g3

include hl hs hobs hb hbl hboards hcl hcams in
theorem groups_root (r : OMap Nat (Object G Pt) × List (ObjObs P)) (hr : Pipeline.calibrateObjects n bpts s obs = .ok r)
    (st : State G Pt P) (hst : calibrateGroups n bpts s r.1 r.2 = .ok st) :
    Consistent bpts (OMap.keys s.frames) obs st ∧ BoardRoot b0 (Spec.Objects.observedBoards nBoard l) st.objs ∧ CamRoot c0 st.t.groups := by
  unfold calibrateGroups at hst
  obtain ⟨st0, h1, h2⟩ := Outcome.bind_eq_ok.1 hst
  obtain ⟨a1, a2, a3⟩ := place_root nCam nBoard l hl s hs obs hobs bpts hb n hbl hboards hcl hcams r hr st0 h1
  obtain ⟨b1, b2, b3⟩ := refine_root obs bpts n 1 a1 h2 a2
  refine ⟨b1, b2, ?_⟩
  unfold CamRoot
  rw [b3]
  exact a3

include hl hs hobs hb hbl hboards hcl hcams in
/-- The tables before the refinement that ends the merge of objects. -/
theorem joined_root (r : OMap Nat (Object G Pt) × List (ObjObs P)) (hr : Pipeline.calibrateObjects n bpts s obs = .ok r)
    (st : State G Pt P) (hst : calibrateGroups n bpts s r.1 r.2 = .ok st) (st' : State G Pt P)
    (hst' : joinObjects n 2 bpts s obs st = .ok st') :
    Consistent bpts (OMap.keys s.frames) obs st' ∧ BoardRoot b0 (Spec.Objects.observedBoards nBoard l) st'.objs ∧ CamRoot c0 st'.t.groups := by
  obtain ⟨a1, a2, a3⟩ := groups_root nCam nBoard l hl s hs obs hobs bpts hb n hbl hboards hcl hcams r hr st hst
  obtain ⟨b1, b2, b3⟩ := join_root nCam nBoard l hl s hs obs hobs bpts n 2 a1 hst' a2
  refine ⟨b1, b2, ?_⟩
  unfold CamRoot
  rw [b3]
  exact a3

include hl hs hobs hb hbl hboards hcl hcams in
theorem overlapping_root (st : State G Pt P) (hst : overlapping n bpts s obs = .ok st) :
    Consistent bpts (OMap.keys s.frames) obs st ∧ BoardRoot b0 (Spec.Objects.observedBoards nBoard l) st.objs ∧ CamRoot c0 st.t.groups := by
  unfold overlapping at hst
  obtain ⟨r, h1, h2⟩ := Outcome.bind_eq_ok.1 hst
  obtain ⟨st0, h3, h4⟩ := Outcome.bind_eq_ok.1 h2
  unfold Pipeline.mergeStage at h4
  obtain ⟨st1, h5, h6⟩ := Outcome.bind_eq_ok.1 h4
  obtain ⟨a1, a2, a3⟩ := joined_root nCam nBoard l hl s hs obs hobs bpts hb n hbl hboards hcl hcams r h1 st0 h3 st1 h5
  obtain ⟨b1, b2, b3⟩ := refine_root obs bpts n 2 a1 h6 a2
  refine ⟨b1, b2, ?_⟩
  unfold CamRoot
  rw [b3]
  exact a3

include hl hs hobs in
/-- With at most one group there is nothing to find between groups. -/
theorem none_found (st : State G Pt P) (h : Consistent bpts (OMap.keys s.frames) obs st) (hr : CamRoot c0 st.t.groups)
    (pp : PairPoses G) (hpp : nonOverlapping n st = .ok pp) : pp.pose = [] := by
  cases hg : st.t.groups with
  | nil =>
    unfold nonOverlapping findPoses at hpp
    rw [hg] at hpp
    cases hpp
    rfl
  | cons e gs =>
    have hget : OMap.get? st.t.groups e.1 = some e.2 :=
      (OMap.get?_eq_some h.groups.sorted).2 (by rw [hg]; exact List.mem_cons_self)
    have hone : Props.Finish.OneGroup st.t.groups (OMap.keys e.2.cameras) := by
      refine Props.Finish.oneGroup_of h.groups.sorted hget (fun j hj => ?_) (fun c => Iff.rfl)
      obtain ⟨gj, hgj⟩ := OMap.mem_keys.1 hj
      exact hr.unique h.groups hgj hget
    obtain ⟨pp', p1, p2⟩ := Props.Finish.nonOverlapping_one n st _ hone
    rw [hpp] at p1
    cases p1
    exact p2

include hl hs hobs in
/-- The merge of groups, and then of objects before its refinement. -/
theorem merged_root (st : State G Pt P) (h : Consistent bpts (OMap.keys s.frames) obs st) (hr : BoardRoot b0 B st.objs)
    (hg : CamRoot c0 st.t.groups) (hI : Props.Program.Inv l s obs bpts st) (pp : PairPoses G) (hpp : nonOverlapping n st = .ok pp)
    (st1 : State G Pt P) (h1 : mergeGroups1 n s pp st = .ok st1) (st2 : State G Pt P)
    (h2 : joinObjects n 4 bpts s obs st1 = .ok st2) :
    Consistent bpts (OMap.keys s.frames) obs st2 ∧ BoardRoot b0 B st2.objs ∧ CamRoot c0 st2.t.groups := by
  have hI1 := Props.Program.groups nCam nBoard l hl s hs obs bpts n st st1 hI pp hpp h1
  have hobj : st1.objs = st.objs := by
    unfold mergeGroups1 at h1
    obtain ⟨gs, q1, q2⟩ := Outcome.bind_eq_ok.1 h1
    obtain ⟨t, q3, q4⟩ := Outcome.bind_eq_ok.1 q2
    simp only [Outcome.pure_eq, Outcome.ok.injEq] at q4
    rw [← q4]
  obtain ⟨a1, a2, a3⟩ := join_root nCam nBoard l hl s hs obs hobs bpts n 4 hI1.consistent h2 (by rw [hobj]; exact hr)
  refine ⟨a1, a2, ?_⟩
  obtain ⟨st3, r1, r2, r3, _⟩ := refineAll_ok (frames := OMap.keys s.frames) (obs := obs) n 4 st2 a1
  have hafter : afterMerge n bpts s obs pp st = .ok st3 := by
    unfold afterMerge Pipeline.mergeStage
    rw [h1, Outcome.bind_ok, h2, Outcome.bind_ok, r1]
  rcases Props.Pipeline.C52_merge nCam nBoard l hl s hs obs hobs bpts n st h pp hpp with ⟨st3', cs, b1, b2, b3, b4, b5⟩ | ⟨hb, _⟩
  swap
  · rw [hafter] at hb; cases hb
  rw [hafter] at b1
  cases b1
  have : CamRoot c0 st3.t.groups := by
    refine CamRoot.of b2.groups.sorted fun i g hgi => ?_
    have hi : i ∈ OMap.keys st3.t.groups := OMap.mem_keys.2 ⟨g, hgi⟩
    rw [b4, List.mem_range] at hi
    obtain ⟨g', hg', hq⟩ := b5 i cs[i] (List.getElem?_eq_getElem hi)
    rw [hgi] at hg'
    cases hg'
    obtain ⟨j, hj, gj, hgj, _⟩ := (hq _).1 (b2.groups.ref_mem i g hgi)
    refine ⟨(hq c0).2 ⟨j, hj, gj, hgj, (hg.get h.groups.sorted hgj).1⟩, fun c hc => ?_⟩
    obtain ⟨j', _, gj', hgj', hc'⟩ := (hq c).1 hc
    exact (hg.get h.groups.sorted hgj').2 c hc'
  unfold CamRoot at this ⊢
  rw [r3] at this
  exact this

include hl hs hobs hb in
theorem inv_of (st : State G Pt P) (h : overlapping n bpts s obs = .ok st) : Props.Program.Inv l s obs bpts st := by
  have e : Program.withPoses n n.objPose = n := rfl
  exact Props.Pixels.overlapping_inv nCam nBoard l hl s hs obs hobs bpts hb n n.objPose st (by rw [e]; exact h)

include hcams in
omit [Group G] [MulAction G Pt] [DecidableEq P] in
theorem all_linked : ∀ a ∈ Spec.Groups.observingCams nCam l, ∀ b ∈ Spec.Groups.observingCams nCam l,
    Relation.ReflTransGen (CamsLinked l obs) a b := by
  have : Std.Symm (CamsLinked l obs) := by
    constructor
    rintro a b ⟨h1, x, hx, y, hy, e1, e2, e3, e4, e5, e6⟩
    have : Std.Symm (Spec.Objects.CoSeen l) := ⟨fun x y hxy => by
      obtain ⟨q1, q2⟩ := hxy
      exact ⟨q1.symm, by obtain ⟨a, ha, b, hb, z⟩ := q2; exact ⟨b, hb, a, ha, by tauto⟩⟩⟩
    exact ⟨h1.symm, y, hy, x, hx, e2, e1, e3.symm, e5, e4, Relation.ReflTransGen.stdSymm.symm _ _ e6⟩
  intro a ha b hb
  exact (hcams a ha).trans (Relation.ReflTransGen.stdSymm.symm _ _ (hcams b hb))

include hl hs hobs hb hbl hboards hcl hcams in
/-- After the second merge of groups. -/
theorem second_root (hsome : ∃ bo ∈ obs, bo.pts ≠ []) (hc0 : c0 ∈ Spec.Groups.observingCams nCam l) (st : State G Pt P) (hst : overlapping n bpts s obs = .ok st)
    (pp : PairPoses G) (hpp : nonOverlapping n st = .ok pp) (st3 : State G Pt P) (h3 : afterMerge n bpts s obs pp st = .ok st3)
    (st4 : State G Pt P) (h4 : mergeGroups2 n s pp st3 = .ok st4) :
    Consistent bpts (OMap.keys s.frames) obs st4 ∧ BoardRoot b0 (Spec.Objects.observedBoards nBoard l) st4.objs ∧ CamRoot c0 st4.t.groups := by
  obtain ⟨a1, a2, a3⟩ := overlapping_root nCam nBoard l hl s hs obs hobs bpts hb n hbl hboards hcl hcams st hst
  have hE : ∃ C, Lemmas.FinishRun.Ends C s obs bpts st4 := by
    obtain ⟨c1, c2, c3, c4⟩ := Lemmas.FinishRun.overlapping_joins nCam nBoard l hl s hs obs hobs bpts hb n st hst
    obtain ⟨d1, d2, d3, d4, d5, d6⟩ := Lemmas.FinishRun.afterMerge_joins nCam nBoard l hl s hs obs hobs bpts n st st3 c1 c2 c3 _ c4
      pp hpp h3
    exact ⟨_, Lemmas.FinishRun.mergeGroups2_ends nCam nBoard l hl s hs obs hobs bpts n st st3 st4 c1 pp hpp d1 d2 d3 d4 d5
      _ d6 h4⟩
  obtain ⟨C, hE⟩ := hE
  obtain ⟨st5, r1, r2, r3, _⟩ := refineAll_ok (frames := OMap.keys s.frames) (obs := obs) n 5 st4 hE.consistent
  refine ⟨hE.consistent, ?_, ?_⟩
  · rw [(Props.Program.groups2 s n st3 st4 pp h4).1]
    unfold afterMerge Pipeline.mergeStage at h3
    obtain ⟨st1, e1, e2⟩ := Outcome.bind_eq_ok.1 h3
    obtain ⟨st2, e3, e4⟩ := Outcome.bind_eq_ok.1 e2
    obtain ⟨b1, b2, b3⟩ := merged_root nCam nBoard l hl s hs obs hobs bpts n st a1 a2 a3
      (inv_of nCam nBoard l hl s hs obs hobs bpts hb n st hst) pp hpp st1 e1 st2 e3
    exact (refine_root obs bpts n 4 b1 e4 b2).2.1
  · have hsym : ∀ a ∈ Spec.Groups.observingCams nCam l, ∀ b ∈ Spec.Groups.observingCams nCam l,
        Relation.ReflTransGen (CamsLinked l obs) a b := all_linked nCam l obs hcams
    obtain ⟨r, hr, g, g1, g2, g3⟩ := Props.Finish.C78_one_group nCam nBoard l hl s hs obs hobs bpts hb n 1 hsym hsome
    have hr1 : r.1 = st5 := by
      unfold Finish.run at hr
      rw [hst, Outcome.bind_ok, hpp, Outcome.bind_ok, h3, Outcome.bind_ok, h4, Outcome.bind_ok] at hr
      unfold Finish.finalStage at hr
      rw [r1, Outcome.bind_ok] at hr
      unfold Finish.lastRefine at hr
      rw [if_neg (by decide)] at hr
      cases hr
      rfl
    have : CamRoot c0 st5.t.groups := by
      rw [hr1] at g1 g2
      refine CamRoot.of r2.groups.sorted fun i g' hg' => ?_
      have hi : i ∈ OMap.keys st5.t.groups := OMap.mem_keys.2 ⟨g', hg'⟩
      rw [g1, List.mem_singleton] at hi
      subst hi
      rw [g2] at hg'
      cases hg'
      exact ⟨(g3 c0).2 hc0, fun c hc => hcl c ((g3 c).1 hc)⟩
    unfold CamRoot at this ⊢
    rw [r3] at this
    exact this

include hl hs hobs hb hbl hboards hcl hcams in
/-- At the end of the workflow. -/
theorem workflow_root (hsome : ∃ bo ∈ obs, bo.pts ≠ []) (hc0 : c0 ∈ Spec.Groups.observingCams nCam l)
    (st : State G Pt P) (h : workflow n bpts s obs = .ok st) :
    Consistent bpts (OMap.keys s.frames) obs st ∧ BoardRoot b0 (Spec.Objects.observedBoards nBoard l) st.objs ∧ CamRoot c0 st.t.groups := by
  unfold workflow at h
  obtain ⟨st1, h1, h⟩ := Outcome.bind_eq_ok.1 h
  obtain ⟨pp, h2, h⟩ := Outcome.bind_eq_ok.1 h
  obtain ⟨st3, h3, h⟩ := Outcome.bind_eq_ok.1 h
  obtain ⟨st4, h4, h⟩ := Outcome.bind_eq_ok.1 h
  obtain ⟨a1, a2, a3⟩ := second_root nCam nBoard l hl s hs obs hobs bpts hb n hbl hboards hcl hcams hsome hc0 st1 h1 pp h2 st3 h3
    st4 h4
  obtain ⟨b1, b2, b3⟩ := refine_root obs bpts n 5 a1 h a2
  refine ⟨b1, b2, ?_⟩
  unfold CamRoot
  rw [b3]
  exact a3

include hl hs hobs hb hbl hboards hcl hcams in
/-- At the end of the run. -/
theorem run_root (hsome : ∃ bo ∈ obs, bo.pts ≠ []) (hc0 : c0 ∈ Spec.Groups.observingCams nCam l) (fix : Int)
    (r : State G Pt P × OMap (Nat × Nat) (OMap Nat V)) (h : Finish.run n fix bpts s obs = .ok r) :
    Consistent bpts (OMap.keys s.frames) obs r.1 ∧ BoardRoot b0 (Spec.Objects.observedBoards nBoard l) r.1.objs ∧ CamRoot c0 r.1.t.groups := by
  have hw : ∃ st, workflow n bpts s obs = .ok st := by
    unfold Finish.run at h
    obtain ⟨st, h1, h⟩ := Outcome.bind_eq_ok.1 h
    obtain ⟨pp, h2, h⟩ := Outcome.bind_eq_ok.1 h
    obtain ⟨st1, h3, h⟩ := Outcome.bind_eq_ok.1 h
    obtain ⟨st2, h4, h⟩ := Outcome.bind_eq_ok.1 h
    unfold Finish.finalStage at h
    obtain ⟨st5, h5, h⟩ := Outcome.bind_eq_ok.1 h
    refine ⟨st5, ?_⟩
    unfold workflow
    rw [h1, Outcome.bind_ok, h2, Outcome.bind_ok, h3, Outcome.bind_ok, h4, Outcome.bind_ok, h5]
  obtain ⟨st, hst⟩ := hw
  obtain ⟨a1, a2, a3⟩ := workflow_root nCam nBoard l hl s hs obs hobs bpts hb n hbl hboards hcl hcams hsome hc0 st hst
  obtain ⟨op, hop⟩ := Props.ExactReport.run_eq n fix bpts s obs st hst
  rw [h] at hop
  have hop := hop.symm
  unfold Finish.lastRefine at hop
  split at hop
  · obtain ⟨st6, h6, hop⟩ := Outcome.bind_eq_ok.1 hop
    simp only [Outcome.pure_eq, Outcome.ok.injEq] at hop
    rw [← hop]
    obtain ⟨b1, b2, b3⟩ := refine_root obs bpts n 6 a1 h6 a2
    refine ⟨b1, b2, ?_⟩
    unfold CamRoot
    show ∀ e ∈ groupCams st6.t.groups, _
    rw [b3]
    exact a3
  · simp only [Outcome.ok.injEq] at hop
    rw [← hop]
    exact ⟨a1, a2, a3⟩

end
end Verif.Lemmas.Rooted
