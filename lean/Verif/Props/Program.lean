import Verif.Lemmas.Program
import Verif.Props.Finish
import Verif.Props.ReproErr

/-! C83: the whole calibration with its pose estimations. -/
namespace Verif.Props.Program
open Verif Verif.Objects Verif.Groups Verif.NonOverlap Verif.Pipeline Verif.Ransac Verif.Spec.Program Verif.Spec.Objects
open Verif.Spec.Structure Verif.Spec.Pipeline Verif.Lemmas.Pipeline Verif.Lemmas.FinishRun Verif.Props.Outliers
open Verif.Lemmas.Program Verif.Program Verif.Props.NonOverlap Verif.Props.Pipeline
open Relation (ReflTransGen)

variable {V G Pt P Path : Type}

/-- The poses of the object observations that each stage works with are those estimated for the tables it works on. -/
structure Estimates [Group G] [SMul G Pt] (e : Estimator Pt P G) (n : Numerics V G) (bpts : List (List Pt))
    (s : Store P Path) (obs : List (BoardObs P)) (poses : Nat → Nat → G) : Prop where
  pose1 : ∀ objs oo, buildObjects s n.boardPose n.avg bpts (n.choose 0) = .ok objs →
    initAllObjectObs { s with obs := obs } objs [] = .ok oo →
    ∃ ps, estimateAllObjects (e.search 0) e.garbage objs oo = .ok ps ∧ ∀ i (h : i < (e.refined ps).length), poses 1 i = (e.refined ps)[i]
  pose2 : ∀ r st, Pipeline.calibrateObjects n bpts s obs = .ok r →
    calibrateGroups (withPoses n poses) bpts s r.1 r.2 = .ok st →
    ∃ ps, estimateAllObjects (e.search 1) e.garbage st.objs st.oo = .ok ps ∧ ∀ i (h : i < ps.length), poses 2 i = ps[i]
  pose3 : ∀ r st st1, Pipeline.calibrateObjects n bpts s obs = .ok r →
    calibrateGroups (withPoses n poses) bpts s r.1 r.2 = .ok st →
    joinObjects (withPoses n poses) 2 bpts s obs st = .ok st1 →
    ∃ ps, estimateAllObjects (e.search 2) e.garbage st1.objs st1.oo = .ok ps ∧ ∀ i (h : i < ps.length), poses 3 i = ps[i]
  pose4 : ∀ st pp st1, Pipeline.overlapping (withPoses n poses) bpts s obs = .ok st →
    nonOverlapping (withPoses n poses) st = .ok pp → mergeGroups1 n s pp st = .ok st1 →
    ∃ ps, estimateAllObjects (e.search 3) e.garbage st1.objs st1.oo = .ok ps ∧ ∀ i (h : i < ps.length), poses 4 i = ps[i]
  pose5 : ∀ st pp st1 st2, Pipeline.overlapping (withPoses n poses) bpts s obs = .ok st →
    nonOverlapping (withPoses n poses) st = .ok pp → afterMerge (withPoses n poses) bpts s obs pp st = .ok st1 →
    mergeGroups2 n s pp st1 = .ok st2 →
    ∃ ps, estimateAllObjects (e.search 5) e.garbage st2.objs st2.oo = .ok ps ∧ ∀ i (h : i < ps.length), poses 5 i = ps[i]

theorem poseAt_lt [One G] (ps : List G) (i : Nat) (h : i < ps.length) : poseAt ps i = ps[i] := by
  simp [poseAt, h]

/-- Poses per stage. -/
def table (p1 p2 p3 p4 p5 : Nat → G) : Nat → Nat → G
  | 1 => p1
  | 2 => p2
  | 3 => p3
  | 4 => p4
  | _ => p5

/-- What holds between the stages. -/
structure Inv [Group G] [SMul G Pt] (l : List (Insertion P Path)) (s : Store P Path) (obs : List (BoardObs P))
    (bpts : List (List Pt)) (st : State G Pt P) : Prop where
  consistent : Consistent bpts (OMap.keys s.frames) obs st
  boards : BoardsIn obs st.objs
  made : Made st.objs obs st.oo
  closed : Closed l st.objs

section
variable [Group G] [SMul G Pt] [DecidableEq P] (nCam nBoard : Nat) (l : List (Insertion P Path))
  (hl : ∀ a ∈ l, a.obs.cam < nCam ∧ a.obs.board < nBoard) (s : Store P Path)
  (hs : Store.run nCam nBoard l = .ok s) (obs : List (BoardObs P))
  (hobs : Spec.Objects.SameViews s.obs obs) (bpts : List (List Pt)) (hb : bpts.length = nBoard)
  (hids : ∀ bo ∈ obs, ∀ k ∈ bo.ids, k < cornerCount bpts bo.board)
  (e : Estimator Pt P G) (hS : ∀ k, Sound (e.search k)) (hF : ∀ k, Fails (e.search k))
  (n : Numerics V G)

include hl hs hobs hb in
omit [DecidableEq P] in
/-- The first stage up to its pose estimation, and the tables it hands on. -/
theorem first : ∃ objs oo objs', buildObjects s n.boardPose n.avg bpts (n.choose 0) = .ok objs ∧
    initAllObjectObs { s with obs := obs } objs [] = .ok oo ∧ refineObjects bpts (n.board 0) objs = .ok objs' ∧
    Spec.Objects.Collection bpts objs ∧ Made objs obs oo ∧ Closed l objs ∧
    IsPartition (CoSeen l) (observedBoards nBoard l) (objs.map fun e => OMap.keys e.2.boards) ∧
    (∀ q, ∃ st, calibrateGroups (withPoses n q) bpts s objs' oo = .ok st ∧ Inv l s obs bpts st) := by
  obtain ⟨objs, h1, hp⟩ := Props.Objects.C11_partition nCam nBoard l hl s hs n.boardPose n.avg bpts hb
    (n.choose 0)
  have hC := Props.Objects.C24_initial nCam nBoard l hl s hs n.boardPose n.avg bpts hb (n.choose 0) objs h1
  have h2 := Props.Objects.C16_observations nCam nBoard l hl s hs obs hobs bpts objs hC
  obtain ⟨objs', h3, h4, h5, h6⟩ := refineObjects_ok (n.board 0) objs hC
  have hM : Made objs obs (once obs (OMap.keys s.camObs) objs) := made_once hC obs _
  have hcl := closed_partition hC hp
  refine ⟨objs, _, objs', h1, h2, h3, hC, hM, hcl, hp, fun q => ?_⟩
  obtain ⟨st, g1, g2, _, g4, g5, g6⟩ := calibrateGroups_ok nCam nBoard l hl s hs obs hobs bpts (withPoses n q) objs objs'
    _ hC h2 h4 h5 h6
  have hsame : SameAll objs objs' := ⟨h5, h6⟩
  have hsame' : SameAll objs' st.objs := ⟨g5, g6⟩
  refine ⟨st, g1, g2, ?_, ?_, closed_same hsame' (closed_same hsame hcl)⟩
  · intro bo hbo _
    obtain ⟨c, hc, hbc⟩ := List.mem_flatten.1
      (hp.perm.symm.subset (stored nCam nBoard l hl s hs obs hobs bo hbo).1)
    obtain ⟨⟨i, o⟩, ho, rfl⟩ := List.mem_map.1 hc
    have hi : i ∈ OMap.keys objs' := by rw [h5]; exact List.mem_map.2 ⟨(i, o), ho, rfl⟩
    obtain ⟨o1, ho1⟩ := OMap.mem_keys.1 hi
    obtain ⟨o2, ho2, hso⟩ := h6 i o1 ho1
    rw [(OMap.get?_eq_some hC.sorted).2 ho] at ho2
    simp only [Option.some.injEq] at ho2
    subst ho2
    rw [← g5] at hi
    obtain ⟨o3, ho3⟩ := OMap.mem_keys.1 hi
    obtain ⟨o4, ho4, hso'⟩ := g6 i o3 ho3
    rw [ho1] at ho4
    simp only [Option.some.injEq] at ho4
    subst ho4
    exact ⟨i, o3, ho3, by rw [hso'.boards, hso.boards]; exact hbc⟩
  · rw [g4]
    exact made_same hsame' (made_same hsame hM)

include hids hobs hS hF in
omit [DecidableEq P] in
theorem estimates (hT : ¬ Thin l obs) (k : Nat) {objs : OMap Nat (Object G Pt)} {oos : List (ObjObs P)}
    (hC : Spec.Objects.Collection bpts objs) (hM : Made objs obs oos) (hcl : Closed l objs) :
    ∃ ps, estimateAllObjects (e.search k) e.garbage objs oos = .ok ps :=
  estimate_ok hC hobs.aligned hids hM hcl hT (e.search k) (hS k) (hF k) e.garbage

include hl hs hobs in
theorem join (k : Nat) (st : State G Pt P) (h : Inv l s obs bpts st) :
    ∃ st1, joinObjects n k bpts s obs st = .ok st1 ∧ Inv l s obs bpts st1 := by
  obtain ⟨st1, p1, p2, _, _, _, cs, _, m5, m3, m6⟩ :=
    joinObjects_ok nCam nBoard l hl s hs obs hobs bpts n k st h.consistent
  have hJ := joinObjects_joins nCam nBoard l hl s hs obs hobs bpts n k st st1 h.consistent h.boards p1
  refine ⟨st1, p1, p2, hJ.boards, ?_, closed_union h.closed cs (by rw [m3, m5]) m6⟩
  rw [hJ.shape]
  exact made_replicate _ (made_once p2.objs obs _)

omit [DecidableEq P] in
theorem refine (k : Nat) (st : State G Pt P) (h : Inv l s obs bpts st) :
    ∃ st1, refineAll n k bpts st = .ok st1 ∧ Inv l s obs bpts st1 := by
  obtain ⟨st1, r1, r2, _, r4, r5, r6⟩ := refineAll_ok (frames := OMap.keys s.frames) (obs := obs) n k st h.consistent
  have hsame : SameAll st.objs st1.objs := ⟨r5, r6⟩
  refine ⟨st1, r1, r2, ?_, ?_, closed_same hsame h.closed⟩
  · intro bo hbo hp
    obtain ⟨i, o, ho, hm⟩ := h.boards bo hbo hp
    have hi : i ∈ OMap.keys st1.objs := by rw [r5]; exact OMap.mem_keys.2 ⟨o, ho⟩
    obtain ⟨o', ho'⟩ := OMap.mem_keys.1 hi
    obtain ⟨o2, ho2, hso⟩ := r6 i o' ho'
    rw [ho] at ho2
    simp only [Option.some.injEq] at ho2
    subst ho2
    exact ⟨i, o', ho', by rw [hso.boards]; exact hm⟩
  · rw [r4]; exact made_same hsame h.made

include hl hs hobs hids hS hF in
/-- A merge of objects. -/
theorem merge (hT : ¬ Thin l obs) (k j : Nat) (st : State G Pt P) (h : Inv l s obs bpts st) :
    ∃ ps st1 qs st2, estimateAllObjects (e.search j) e.garbage st.objs st.oo = .ok ps ∧
      joinObjects (withPoses n fun _ => poseAt ps) k bpts s obs st = .ok st1 ∧
      estimateAllObjects (e.search (j + 1)) e.garbage st1.objs st1.oo = .ok qs ∧
      refineAll n k bpts st1 = .ok st2 ∧ Inv l s obs bpts st2 ∧
      Program.mergeStage e n k j bpts s obs st = .ok (st2, poseAt qs) := by
  obtain ⟨ps, h1⟩ := estimates l s obs hobs bpts hids e hS hF hT j h.consistent.objs h.made h.closed
  obtain ⟨st1, h2, h3⟩ := join nCam nBoard l hl s hs obs hobs bpts (withPoses n fun _ => poseAt ps) k st h
  obtain ⟨qs, h4⟩ := estimates l s obs hobs bpts hids e hS hF hT (j + 1) h3.consistent.objs h3.made h3.closed
  obtain ⟨st2, h5, h6⟩ := refine l s obs bpts n k st1 h3
  refine ⟨ps, st1, qs, st2, h1, h2, h4, h5, h6, ?_⟩
  unfold Program.mergeStage
  rw [h1, Outcome.bind_ok, h2, Outcome.bind_ok, h4, Outcome.bind_ok, h5]
  rfl

include hl hs in
omit [DecidableEq P] in
/-- The first merge of camera groups. -/
theorem groups (st st1 : State G Pt P) (h : Inv l s obs bpts st) (pp : PairPoses G)
    (hpp : nonOverlapping n st = .ok pp) (hst : mergeGroups1 n s pp st = .ok st1) : Inv l s obs bpts st1 := by
  have hfr := frames_sorted nCam nBoard l hl s hs
  have hc := h.consistent
  unfold mergeGroups1 at hst
  obtain ⟨gs, q2, q1⟩ := Outcome.bind_eq_ok.1 hst
  obtain ⟨t, q3, q1⟩ := Outcome.bind_eq_ok.1 q1
  simp only [Outcome.pure_eq, Outcome.ok.injEq] at q1
  subst q1
  rcases C23_merge st.oo (OMap.keys s.frames) hfr st.t hc.groups hc.groupObs hc.lists st.objs n.ofVec _ n.he []
    List.Pairwise.nil pp hpp (n.choose 3) with ⟨m, hm, hM⟩ | ⟨hthrow, _⟩
  swap
  · rw [q2] at hthrow; cases hthrow
  rw [q2] at hm
  simp only [Outcome.ok.injEq] at hm
  subst hm
  obtain ⟨t', k1, k2, k3, k4, k5, k6⟩ := regroup_ok (Pt := Pt) st.oo (OMap.keys s.frames)
    (hfr.imp Nat.ne_of_lt) { st.t with groups := gs } hM.collection (by
      intro i g hg
      rw [(hM.bare i g hg).2]
      exact List.Pairwise.nil)
  rw [q3] at k1
  simp only [Outcome.ok.injEq] at k1
  subst k1
  exact ⟨⟨hc.objs, hc.sees, k2, k3, k4⟩, h.boards, h.made, h.closed⟩

omit [DecidableEq P] in
/-- The second merge of camera groups leaves objects and observations alone. -/
theorem groups2 (st st1 : State G Pt P) (pp : PairPoses G) (hst : mergeGroups2 n s pp st = .ok st1) :
    st1.objs = st.objs ∧ st1.oo = st.oo := by
  unfold mergeGroups2 at hst
  obtain ⟨gs, q2, q1⟩ := Outcome.bind_eq_ok.1 hst
  obtain ⟨t, q3, q1⟩ := Outcome.bind_eq_ok.1 q1
  simp only [Outcome.pure_eq, Outcome.ok.injEq] at q1
  subst q1
  exact ⟨rfl, rfl⟩

include hl hs hobs hb hids hS hF in
/-- C83: if in some frame a camera has, after outlier removal, one to three points of a set of linked boards, the
calibration reads out of range, whatever the numerical parts do. -/
theorem C83_thin (hT : Thin l obs) (fix : Int) : Program.run e n fix bpts s obs = .ub := by
  obtain ⟨objs, oo, objs', h1, h2, h3, hC, hM, hcl, hp, -⟩ := first nCam nBoard l hl s hs obs hobs bpts hb n
  obtain ⟨b, c, f, t1, t2⟩ := hT
  have hub := (C55_workflow (e.search 0) (hS 0) (hF 0) e.garbage nCam nBoard l hl s hs obs hobs bpts hids objs hC oo h2).1 (by
    obtain ⟨bo, hbo, b1, b2, b3, b4⟩ := mem_linked t1
    obtain ⟨cl, hc, hbc⟩ := List.mem_flatten.1
      (hp.perm.symm.subset (stored nCam nBoard l hl s hs obs hobs bo hbo).1)
    obtain ⟨⟨i, o⟩, ho, rfl⟩ := List.mem_map.1 hc
    have : Std.Symm (CoSeen l) := ⟨fun x y hxy => by
      obtain ⟨h0, a, ha, a', ha', q1, q2, q3, q4⟩ := hxy
      exact ⟨h0.symm, a', ha', a, ha, q1.symm, q2.symm, q4, q3⟩⟩
    have hsym : ReflTransGen (CoSeen l) bo.board b := Relation.ReflTransGen.symmetric.symm _ _ b3
    have hbo2 : ∀ b', b' ∈ OMap.keys o.boards ↔ ReflTransGen (CoSeen l) b b' := fun b' =>
      (hp.linked _ hc bo.board hbc b').trans ⟨fun h => b3.trans h, fun h => hsym.trans h⟩
    have heq : pointsLeft o obs c f = linkedPoints l obs b c f :=
      le_antisymm (le_linked fun b' hb' => (hbo2 b').1 hb') (linked_le fun b' hb' => (hbo2 b').2 hb')
    exact ⟨i, o, c, f, (OMap.get?_eq_some hC.sorted).2 ho, by omega, by omega⟩)
  unfold Program.run Program.overlapping Program.calibrateObjects
  rw [h1, Outcome.bind_ok, h2, Outcome.bind_ok, hub]
  rfl

/-- The part of a run after the search for overlapping groups, with given poses. -/
def rest (n : Numerics V G) (fix : Int) (bpts : List (List Pt)) (s : Store P Path) (obs : List (BoardObs P))
    (p3 p4 p5 : Nat → G) (st2 : State G Pt P) : Outcome (State G Pt P × OMap (Nat × Nat) (OMap Nat V)) :=
  (nonOverlapping (withPoses n fun _ => p3) st2).bind fun pp => (mergeGroups1 n s pp st2).bind fun st3 =>
    (Pipeline.mergeStage (withPoses n fun _ => p4) 4 bpts s obs st3).bind fun st4 => (mergeGroups2 n s pp st4).bind fun st5 =>
      Finish.finalStage (withPoses n fun _ => p5) fix bpts st5

omit [DecidableEq P] in
theorem run_rest (fix : Int) (p1 p2 p3 p4 p5 : Nat → G) (st2 : State G Pt P)
    (hov : Pipeline.overlapping (withPoses n (table p1 p2 p3 p4 p5)) bpts s obs = .ok st2) :
    Finish.run (withPoses n (table p1 p2 p3 p4 p5)) fix bpts s obs = rest n fix bpts s obs p3 p4 p5 st2 := by
  unfold Finish.run rest
  rw [hov, Outcome.bind_ok]
  have h1 : nonOverlapping (withPoses n (table p1 p2 p3 p4 p5)) st2 = nonOverlapping (withPoses n fun _ => p3) st2 := rfl
  rw [h1]
  generalize nonOverlapping (withPoses n fun _ => p3) st2 = x
  cases x with
  | ok pp =>
    rw [Outcome.bind_ok]
    show _ = Outcome.bind (mergeGroups1 n s pp st2) _
    unfold afterMerge
    have h2 : mergeGroups1 (withPoses n (table p1 p2 p3 p4 p5)) s pp st2 = mergeGroups1 n s pp st2 := rfl
    rw [h2]
    generalize mergeGroups1 n s pp st2 = y
    cases y <;> rfl
  | throw => rfl
  | ub => rfl
  | diverge => rfl

/-- The poses of the last stages are those estimated. -/
structure Late (e : Estimator Pt P G) (n : Numerics V G) (bpts : List (List Pt)) (s : Store P Path) (obs : List (BoardObs P))
    (p3 p4 p5 : Nat → G) (st2 : State G Pt P) : Prop where
  pose4 : ∀ pp st3, nonOverlapping (withPoses n fun _ => p3) st2 = .ok pp → mergeGroups1 n s pp st2 = .ok st3 →
    ∃ ps, estimateAllObjects (e.search 3) e.garbage st3.objs st3.oo = .ok ps ∧ ∀ i (h : i < ps.length), p4 i = ps[i]
  pose5 : ∀ pp st3 st4, nonOverlapping (withPoses n fun _ => p3) st2 = .ok pp →
    afterMerge (withPoses n fun _ => p4) bpts s obs pp st2 = .ok st3 → mergeGroups2 n s pp st3 = .ok st4 →
    ∃ ps, estimateAllObjects (e.search 5) e.garbage st4.objs st4.oo = .ok ps ∧ ∀ i (h : i < ps.length), p5 i = ps[i]

include hl hs hobs hb hids hS hF in
theorem head (hT : ¬ Thin l obs) : ∃ p1 p2 p3 st2, Program.overlapping e n bpts s obs = .ok (st2, p3) ∧
    Inv l s obs bpts st2 ∧
    (∀ p4 p5, Pipeline.overlapping (withPoses n (table p1 p2 p3 p4 p5)) bpts s obs = .ok st2) ∧
    ∀ p4 p5, Late e n bpts s obs p3 p4 p5 st2 → Estimates e n bpts s obs (table p1 p2 p3 p4 p5) := by
  obtain ⟨objs, oo, objs', h1, h2, h3, hC, hM, hcl, hp, hg⟩ := first nCam nBoard l hl s hs obs hobs bpts hb n
  obtain ⟨ps, h4⟩ := estimates l s obs hobs bpts hids e hS hF hT 0 hC hM hcl
  have hcal : Pipeline.calibrateObjects n bpts s obs = .ok (objs', oo) := by
    unfold Pipeline.calibrateObjects
    rw [h1, Outcome.bind_ok, h2, Outcome.bind_ok, h3]
    rfl
  have hcal' : Program.calibrateObjects e n bpts s obs = .ok (objs', oo, poseAt (e.refined ps)) := by
    unfold Program.calibrateObjects
    rw [h1, Outcome.bind_ok, h2, Outcome.bind_ok, h4, Outcome.bind_ok, h3]
    rfl
  obtain ⟨st, g1, g2⟩ := hg fun _ => poseAt (e.refined ps)
  obtain ⟨ps2, st1, ps3, st2, m1, m2, m3, m4, m5, m6⟩ := merge nCam nBoard l hl s hs obs hobs bpts hids e hS hF n hT 2 1 st g2
  have hov : Program.overlapping e n bpts s obs = .ok (st2, poseAt ps3) := by
    unfold Program.overlapping
    rw [hcal', Outcome.bind_ok, g1, Outcome.bind_ok, m6]
  have hov' : ∀ p4 p5, Pipeline.overlapping (withPoses n (table (poseAt (e.refined ps)) (poseAt ps2) (poseAt ps3) p4 p5))
      bpts s obs = .ok st2 := by
    intro p4 p5
    unfold Pipeline.overlapping
    have a1 : Pipeline.calibrateObjects (withPoses n (table (poseAt (e.refined ps)) (poseAt ps2) (poseAt ps3) p4 p5))
      bpts s obs = .ok (objs', oo) := hcal
    have a2 : calibrateGroups (withPoses n (table (poseAt (e.refined ps)) (poseAt ps2) (poseAt ps3) p4 p5))
      bpts s objs' oo = .ok st := g1
    have a3 : joinObjects (withPoses n (table (poseAt (e.refined ps)) (poseAt ps2) (poseAt ps3) p4 p5)) 2
      bpts s obs st = .ok st1 := m2
    have a4 : refineAll (withPoses n (table (poseAt (e.refined ps)) (poseAt ps2) (poseAt ps3) p4 p5)) 2
      bpts st1 = .ok st2 := m4
    unfold Pipeline.mergeStage
    rw [a1, Outcome.bind_ok, a2, Outcome.bind_ok, a3, Outcome.bind_ok, a4]
  refine ⟨_, _, _, st2, hov, m5, hov', ?_⟩
  intro p4 p5 k
  refine ⟨?_, ?_, ?_, ?_, ?_⟩
  · intro objs1 oo1 e1 e2
    rw [h1] at e1; cases e1
    rw [h2] at e2; cases e2
    exact ⟨ps, h4, poseAt_lt _⟩
  · intro r stx e1 e2
    rw [hcal] at e1; cases e1
    have : calibrateGroups (withPoses n fun _ => poseAt (e.refined ps)) bpts s objs' oo = .ok stx := e2
    rw [g1] at this; cases this
    exact ⟨ps2, m1, poseAt_lt _⟩
  · intro r stx sty e1 e2 e3
    rw [hcal] at e1; cases e1
    have : calibrateGroups (withPoses n fun _ => poseAt (e.refined ps)) bpts s objs' oo = .ok stx := e2
    rw [g1] at this; cases this
    have : joinObjects (withPoses n fun _ => poseAt ps2) 2 bpts s obs st = .ok sty := e3
    rw [m2] at this; cases this
    exact ⟨ps3, m3, poseAt_lt _⟩
  · intro stx pp sty e1 e2 e3
    rw [hov'] at e1; cases e1
    exact k.pose4 pp sty e2 e3
  · intro stx pp sty stz e1 e2 e3 e4
    rw [hov'] at e1; cases e1
    exact k.pose5 pp sty stz e2 e3 e4

omit [DecidableEq P] in
/-- Nothing is estimated after a failure. -/
theorem late_none {p3 : Nat → G} {st2 : State G Pt P}
    (h : ∀ pp st3, nonOverlapping (withPoses n fun _ => p3) st2 = .ok pp → mergeGroups1 n s pp st2 = .ok st3 → False) :
    Late e n bpts s obs p3 (fun _ => 1) (fun _ => 1) st2 := by
  refine ⟨fun pp st3 h1 h2 => (h pp st3 h1 h2).elim, fun pp st3 st4 h1 h2 _ => ?_⟩
  unfold afterMerge at h2
  obtain ⟨stx, q, _⟩ := Outcome.bind_eq_ok.1 h2
  exact (h pp stx h1 q).elim

include hl hs hobs hids hS hF in
theorem tail (hT : ¬ Thin l obs) (fix : Int) (p3 : Nat → G) (st2 : State G Pt P) (hI : Inv l s obs bpts st2) :
    ∃ p4 p5, Late e n bpts s obs p3 p4 p5 st2 ∧
      Program.merging e n fix bpts s obs st2 p3 = rest n fix bpts s obs p3 p4 p5 st2 := by
  unfold Program.merging rest
  cases hn : nonOverlapping (withPoses n fun _ => p3) st2 with
  | throw => exact ⟨_, _, late_none s obs bpts e n (fun pp st3 h => by rw [hn] at h; cases h), rfl⟩
  | ub => exact ⟨_, _, late_none s obs bpts e n (fun pp st3 h => by rw [hn] at h; cases h), rfl⟩
  | diverge => exact ⟨_, _, late_none s obs bpts e n (fun pp st3 h => by rw [hn] at h; cases h), rfl⟩
  | ok pp =>
  rw [Outcome.bind_ok]
  show ∃ p4 p5, Late e n bpts s obs p3 p4 p5 st2 ∧ Outcome.bind (mergeGroups1 n s pp st2) _ = Outcome.bind (mergeGroups1 n s pp st2) _
  have hbad : (∀ st, mergeGroups1 n s pp st2 ≠ .ok st) → Late e n bpts s obs p3 (fun _ => 1) (fun _ => 1) st2 := by
    intro hx
    refine late_none s obs bpts e n fun pp' st3 h h' => ?_
    rw [hn] at h; cases h
    exact hx _ h'
  cases hm1 : mergeGroups1 n s pp st2 with
  | throw => exact ⟨_, _, hbad (by rw [hm1]; intro _ h; cases h), rfl⟩
  | ub => exact ⟨_, _, hbad (by rw [hm1]; intro _ h; cases h), rfl⟩
  | diverge => exact ⟨_, _, hbad (by rw [hm1]; intro _ h; cases h), rfl⟩
  | ok st3 =>
  have hI3 := groups nCam nBoard l hl s hs obs bpts (withPoses n fun _ => p3) st2 st3 hI pp hn hm1
  obtain ⟨ps4, st4, qs4, st5, n1, n2, n3, n4, n5, n6⟩ :=
    merge nCam nBoard l hl s hs obs hobs bpts hids e hS hF n hT 4 3 st3 hI3
  have hst : Pipeline.mergeStage (withPoses n fun _ => poseAt ps4) 4 bpts s obs st3 = .ok st5 := by
    have n4' : refineAll (withPoses n fun _ => poseAt ps4) 4 bpts st4 = .ok st5 := n4
    unfold Pipeline.mergeStage
    rw [n2, Outcome.bind_ok, n4']
  have haf : afterMerge (withPoses n fun _ => poseAt ps4) bpts s obs pp st2 = .ok st5 := by
    have q' : mergeGroups1 (withPoses n fun _ => poseAt ps4) s pp st2 = .ok st3 := hm1
    unfold afterMerge
    rw [q', Outcome.bind_ok, hst]
  have late : ∀ p5, (∀ st6, mergeGroups2 n s pp st5 = .ok st6 →
        ∃ ps, estimateAllObjects (e.search 5) e.garbage st6.objs st6.oo = .ok ps ∧ ∀ i (h : i < ps.length), p5 i = ps[i]) →
      Late e n bpts s obs p3 (poseAt ps4) p5 st2 := by
    intro p5 hp5
    refine ⟨?_, ?_⟩
    · intro pp' st' h h'
      rw [hn] at h; cases h
      rw [hm1] at h'; cases h'
      exact ⟨ps4, n1, poseAt_lt _⟩
    · intro pp' stx sty h h' h''
      rw [hn] at h; cases h
      rw [haf] at h'; cases h'
      exact hp5 sty h''
  refine ⟨poseAt ps4, ?_⟩
  show ∃ p5, _ ∧ Outcome.bind (Program.mergeStage e n 4 3 bpts s obs st3) _ =
    Outcome.bind (Pipeline.mergeStage (withPoses n fun _ => poseAt ps4) 4 bpts s obs st3) _
  rw [n6, hst]
  show ∃ p5, _ ∧ Outcome.bind (mergeGroups2 n s pp st5) _ = Outcome.bind (mergeGroups2 n s pp st5) _
  cases hm2 : mergeGroups2 n s pp st5 with
  | throw => exact ⟨_, late (fun _ => 1) (by rw [hm2]; intro st6 h; cases h), rfl⟩
  | ub => exact ⟨_, late (fun _ => 1) (by rw [hm2]; intro st6 h; cases h), rfl⟩
  | diverge => exact ⟨_, late (fun _ => 1) (by rw [hm2]; intro st6 h; cases h), rfl⟩
  | ok st6 =>
  obtain ⟨o1, o2⟩ := groups2 s n st5 st6 pp hm2
  obtain ⟨ps5, h5⟩ := estimates l s obs hobs bpts hids e hS hF hT 5 (objs := st6.objs) (oos := st6.oo)
    (by rw [o1]; exact n5.consistent.objs) (by rw [o1, o2]; exact n5.made) (by rw [o1]; exact n5.closed)
  refine ⟨poseAt ps5, late _ ?_, ?_⟩
  · intro st' h
    rw [hm2] at h; cases h
    exact ⟨ps5, h5, poseAt_lt _⟩
  · show Program.finalStage e n fix bpts st6 = Finish.finalStage _ fix bpts st6
    unfold Program.finalStage
    rw [h5]
    rfl

include hl hs hobs hb hids hS hF in
/-- C83: otherwise no pose estimation fails, in any stage: the calibration is the workflow of C52-C54 and C76-C78 with the
estimated poses, and ends or fails exactly as that does. -/
theorem C83_run (hT : ¬ Thin l obs) (fix : Int) : ∃ poses, Estimates e n bpts s obs poses ∧
    Program.run e n fix bpts s obs = Finish.run (withPoses n poses) fix bpts s obs := by
  obtain ⟨p1, p2, p3, st2, h1, h2, h3, h4⟩ := head nCam nBoard l hl s hs obs hobs bpts hb hids e hS hF n hT
  obtain ⟨p4, p5, h5, h6⟩ := tail nCam nBoard l hl s hs obs hobs bpts hids e hS hF n hT fix p3 st2 h2
  refine ⟨table p1 p2 p3 p4 p5, h4 p4 p5 h5, ?_⟩
  rw [run_rest s obs bpts n fix p1 p2 p3 p4 p5 st2 (h3 p4 p5), ← h6]
  unfold Program.run
  rw [h1, Outcome.bind_ok]

include hl hs hobs hb hids hS hF in
/-- C83: if any two cameras with detections are linked by common views of linked boards, and a corner is left, the
calibration ends if and only if no view of linked boards is left with one to three points; then all cameras with
detections are in one group. -/
theorem C83_ends (hlink : ∀ a ∈ Spec.Groups.observingCams nCam l, ∀ b ∈ Spec.Groups.observingCams nCam l,
      ReflTransGen (CamsLinked l obs) a b) (hsome : ∃ bo ∈ obs, bo.pts ≠ []) (fix : Int) :
    (¬ Thin l obs ↔ ∃ r, Program.run e n fix bpts s obs = .ok r) ∧
    ∀ r, Program.run e n fix bpts s obs = .ok r → ∃ g, OMap.keys r.1.t.groups = [0] ∧
      OMap.get? r.1.t.groups 0 = some g ∧ ∀ c, c ∈ OMap.keys g.cameras ↔ c ∈ Spec.Groups.observingCams nCam l := by
  have key : ¬ Thin l obs → ∃ r, Program.run e n fix bpts s obs = .ok r ∧ ∃ g, OMap.keys r.1.t.groups = [0] ∧
      OMap.get? r.1.t.groups 0 = some g ∧ ∀ c, c ∈ OMap.keys g.cameras ↔ c ∈ Spec.Groups.observingCams nCam l := by
    intro hT
    obtain ⟨poses, _, h⟩ := C83_run nCam nBoard l hl s hs obs hobs bpts hb hids e hS hF n hT fix
    obtain ⟨r, hr, hg⟩ := Finish.C78_one_group nCam nBoard l hl s hs obs hobs bpts hb (withPoses n poses) fix hlink hsome
    exact ⟨r, h.trans hr, hg⟩
  refine ⟨⟨fun hT => ?_, ?_⟩, ?_⟩
  · obtain ⟨r, hr, _⟩ := key hT
    exact ⟨r, hr⟩
  · rintro ⟨r, hr⟩ hT
    rw [C83_thin nCam nBoard l hl s hs obs hobs bpts hb hids e hS hF n hT fix] at hr
    cases hr
  · intro r hr
    by_cases hT : Thin l obs
    · rw [C83_thin nCam nBoard l hl s hs obs hobs bpts hb hids e hS hF n hT fix] at hr
      cases hr
    · obtain ⟨r', hr', hg⟩ := key hT
      rw [hr] at hr'
      cases hr'
      exact hg

end

section
variable [Group G] [SMul G Pt] [DecidableEq P] {K : Type} [Field K] [LinearOrder K] (nCam nBoard : Nat)
  (l : List (Insertion P Path)) (hl : ∀ a ∈ l, a.obs.cam < nCam ∧ a.obs.board < nBoard) (s : Store P Path)
  (hs : Store.run nCam nBoard l = .ok s) (bpts : List (List Pt)) (hb : bpts.length = nBoard)
  (hdet : ∀ a ∈ l, a.obs.pts.length = a.obs.ids.length ∧ 4 ≤ a.obs.pts.length ∧
    ∀ k ∈ a.obs.ids, k < cornerCount bpts a.obs.board)
  (search : Search Pt P G) (hB : Sound search)
  (e : Estimator Pt P G) (hS : ∀ k, Sound (e.search k)) (hF : ∀ k, Fails (e.search k))
  (pr : ReproErr.Projection P G Pt K) (pix : Nat → G → Pt → P) (hp : Spec.ReproErr.Pointwise pr pix)
  (hm : ∀ c, pr.model c = 0 ∨ pr.model c = 1)
  (hthrow : ∀ c g, pr.brown c g [] = .throw) (hfish : ∀ c g, pr.kannala c g [] = .ok [] ∨ pr.kannala c g [] = .throw)
  (refine : Option (List (Estimated P G) → Outcome (List (Estimated P G) × ReproErr.Projection P G Pt K)))
  (n : Numerics V G) (fix : Int)

include hl hs hdet hb in
omit [Group G] [SMul G Pt] [DecidableEq P] in
theorem stored_ok : s.obs = l.map (·.obs) ∧ ∀ bo ∈ s.obs, bo.pts.length = bo.ids.length ∧ 4 ≤ bo.pts.length ∧
    ∃ m, bpts[bo.board]? = some m ∧ ∀ i ∈ bo.ids, i < m.length := by
  have hd := (store_desc nCam nBoard l hl s hs).obs
  refine ⟨hd, fun bo hbo => ?_⟩
  rw [hd] at hbo
  obtain ⟨a, ha, rfl⟩ := List.mem_map.1 hbo
  obtain ⟨d1, d2, d3⟩ := hdet a ha
  have hlt : a.obs.board < bpts.length := by rw [hb]; exact (hl a ha).2
  refine ⟨d1, d2, bpts[a.obs.board], List.getElem?_eq_getElem hlt, fun i hi => ?_⟩
  have := d3 i hi
  unfold cornerCount at this
  rwa [List.getElem?_eq_getElem hlt] at this

include hl hs hdet hb hB in
omit [Group G] [SMul G Pt] [DecidableEq P] in
/-- What outlier removal leaves. -/
theorem filtered : ∃ est, estimateAllBoards search e.garbage bpts s.obs = .ok est ∧
    SameViews s.obs (est.map (·.obs)) ∧
    ∀ bo ∈ est.map (·.obs), ∀ k ∈ bo.ids, k < cornerCount bpts bo.board := by
  obtain ⟨_, h1⟩ := stored_ok nCam nBoard l hl s hs bpts hb hdet
  obtain ⟨est, h2, h3⟩ := C30_all search hB e.garbage bpts s.obs h1
  refine ⟨est, h2, C30_same_views _ _ h3, ?_⟩
  intro bo hbo k hk
  obtain ⟨x, hx, rfl⟩ := List.mem_map.1 hbo
  obtain ⟨i, hi⟩ := List.mem_iff_getElem?.1 hx
  obtain ⟨hlt, rfl⟩ := List.getElem?_eq_some_iff.1 hi
  have hlt' : i < s.obs.length := by rw [h3.length_eq]; exact hlt
  have hf := h3.get hlt' hlt
  obtain ⟨j, hj, rfl⟩ := List.mem_iff_getElem.1 hk
  simp only [List.get_eq_getElem] at hf
  have hj' : j < (est[i]).obs.pts.length := by rw [hf.aligned]; exact hj
  have hz : ((est[i]).obs.pts[j], (est[i]).obs.ids[j]) ∈ (est[i]).obs.pts.zip (est[i]).obs.ids :=
    List.mem_iff_getElem.2 ⟨j, by simp; omega, by simp⟩
  have hk2 := (List.of_mem_zip (hf.sub.subset hz)).2
  obtain ⟨_, _, m, m1, m2⟩ := h1 _ (List.getElem_mem hlt')
  rw [hf.same.2.2]
  unfold cornerCount
  rw [m1]
  exact m2 _ hk2

include hl hs hdet hb hB hS hF hp hm hthrow hfish in
/-- C83: the calibration from the stored detections, each of four or more corners.  With `est` what is left of them by
outlier removal: if nothing is left of some view by a perspective camera, it throws; if all views keep a corner but some
camera keeps only one to three of a set of linked boards in a frame, it reads out of range; in all other cases it is the
workflow of C52-C54 and C76-C78 on what is left, with the poses of the views that the initialisation ends with, and
for each stage those poses of object observations that are estimated from its tables. -/
theorem C83_calibration (est : List (Estimated P G)) (hest : estimateAllBoards search e.garbage bpts s.obs = .ok est)
    (hr : ∀ f ∈ refine, Props.ReproErr.Refines pr est f) :
    ((∃ x ∈ est, x.obs.pts = [] ∧ pr.model x.obs.cam = 0) →
      Program.calibrate search refine pr e n fix bpts s = .throw) ∧
    ((∀ x ∈ est, x.obs.pts ≠ []) → Thin l (est.map (·.obs)) →
      Program.calibrate search refine pr e n fix bpts s = .ub) ∧
    ((∀ x ∈ est, x.obs.pts ≠ []) → ¬ Thin l (est.map (·.obs)) →
      ∃ x w bp op, ReproErr.initIntrinsic search e.garbage bpts s.obs refine pr = .ok (x, w) ∧
        (∀ i (h : i < x.length), bp i = x[i].pose) ∧
        Estimates e { n with boardPose := bp } bpts s (est.map (·.obs)) op ∧
        Program.calibrate search refine pr e n fix bpts s =
          Finish.run { n with boardPose := bp, objPose := op } fix bpts s (est.map (·.obs))) := by
  obtain ⟨_, h1⟩ := stored_ok nCam nBoard l hl s hs bpts hb hdet
  obtain ⟨est', h2, h3, h4⟩ := filtered nCam nBoard l hl s hs bpts hb hdet search hB e
  rw [hest] at h2
  cases h2
  obtain ⟨a, b⟩ := Props.ReproErr.C66_init search hB e.garbage bpts s.obs h1 pr pix hp (fun bo _ => hm bo.cam) hthrow hfish
    refine est hest hr
  refine ⟨fun h => ?_, fun h hT => ?_, fun h hT => ?_⟩
  · unfold Program.calibrate
    rw [a h]
    rfl
  · obtain ⟨x, w, k1, k2⟩ := b h
    unfold Program.calibrate
    rw [k1, Outcome.bind_ok, k2]
    exact C83_thin nCam nBoard l hl s hs _ h3 bpts hb h4 e hS hF _ hT fix
  · obtain ⟨x, w, k1, k2⟩ := b h
    unfold Program.calibrate
    rw [k1, Outcome.bind_ok, k2]
    obtain ⟨poses, he, h⟩ := C83_run nCam nBoard l hl s hs _ h3 bpts hb h4 e hS hF
      { n with boardPose := poseAt (x.map (·.pose)) } hT fix
    exact ⟨x, w, _, poses, rfl, fun i hi => by rw [poseAt_lt _ _ (by simpa using hi)]; simp, he, h⟩

end

/-! ### Concrete cases -/
namespace Example

/-- The points of two boards, which have five corners. -/
def bpts : List (List (Fin 5)) := [[0, 1, 2, 3, 4], [0, 1, 2, 3, 4]]

/-- Corners of board `b` seen by camera `c` in frame `f` at these pixels (pixel `k` is right for corner `k`). -/
def saw (c f b : Nat) (px : List Nat) : Insertion Nat Nat := ⟨⟨c, f, b, px, [0, 1, 2, 3, 4]⟩, 0⟩

/-- The estimations, with the searches of C30. -/
def est : Estimator (Fin 5) Nat S5 := ⟨fun _ => Outliers.search, 1, fun ps => ps⟩

/-- Other numerical results. -/
def num : Numerics S5 S5 where
  boardPose _ := 1
  objPose _ _ := Equiv.swap 3 4
  inGroup _ _ _ _ := 1
  board _ _ _ := 1
  cam _ _ _ := 1
  avg l := l.headD 1
  avgV l := l.headD 1
  toVec g := g
  ofVec g := g
  he _ := .ok 1
  choose _ _ _ _ := 0

/-- Projection with errors of 0 and 9; an empty list is an error. -/
def pr : ReproErr.Projection Nat S5 (Fin 5) ℚ where
  model _ := 0
  brown _ g ps := if ps = [] then .throw else .ok (ps.map fun a => (g • a).val)
  kannala _ g ps := if ps = [] then .throw else .ok (ps.map fun a => (g • a).val)
  dist a b := if a = b then 0 else 9

/-- The calibration of two cameras. -/
def calibrated (l : List (Insertion Nat Nat)) : Outcome (List (Nat × List Nat) × Nat) := do
  let s ← Store.run 2 2 l
  let r ← Program.calibrate Outliers.search none pr est num 1 bpts s
  pure (groupCams r.1.t.groups, r.1.oo.length)

/-- Both cameras see board 0. Camera 0 loses a corner of it in frame 0. -/
def good : List (Insertion Nat Nat) := [saw 0 0 0 [0, 1, 77, 3, 4], saw 1 0 0 [0, 1, 2, 3, 4]]

/-- C83: it ends. -/
theorem C83_good : calibrated good = .ok ([(0, [0, 1])], 2) := by decide +kernel

/-- C83: with one more frame in which camera 1 keeps three corners, all there are of the linked boards, it reads out of
range. -/
theorem C83_three : calibrated (good ++ [saw 1 1 0 [0, 1, 2, 55, 66]]) = .ub := by decide +kernel

/-- C83: if it keeps three corners of the board in an image that shows another board, it ends. -/
theorem C83_six : calibrated (good ++ [saw 1 1 0 [0, 1, 2, 55, 66], saw 1 1 1 [0, 1, 2, 3, 66]]) = .ok ([(0, [0, 1])], 3) := by
  decide +kernel

/-- C83: a view of which nothing is kept ends the calibration with an exception. -/
theorem C83_nothing : calibrated (good ++ [saw 1 1 0 [9, 9, 9, 55, 66]]) = .throw := by decide +kernel

/-- The hypotheses of C83_calibration are met. -/
example : ∃ s r, Store.run 2 2 good = .ok s ∧ estimateAllBoards Outliers.search est.garbage bpts s.obs = .ok r ∧
    (∃ x w bp op, ReproErr.initIntrinsic Outliers.search est.garbage bpts s.obs none pr = .ok (x, w) ∧
      (∀ i (h : i < x.length), bp i = x[i].pose) ∧
      Estimates est { num with boardPose := bp } bpts s (r.map (·.obs)) op ∧
      Program.calibrate Outliers.search none pr est num 1 bpts s =
        Finish.run { num with boardPose := bp, objPose := op } 1 bpts s (r.map (·.obs))) := by
  have hl : ∀ a ∈ good, a.obs.cam < 2 ∧ a.obs.board < 2 := by decide +kernel
  obtain ⟨s, hs, hd⟩ := Props.Store.C06_indexes 2 2 good hl
  have hdet : ∀ a ∈ good, a.obs.pts.length = a.obs.ids.length ∧ 4 ≤ a.obs.pts.length ∧
      ∀ k ∈ a.obs.ids, k < cornerCount bpts a.obs.board := by decide +kernel
  obtain ⟨r, hr, -, -⟩ := filtered 2 2 good hl s hs bpts rfl hdet Outliers.search search_ok.1 est
  have hobs : s.obs = good.map (·.obs) := hd.obs
  have hr' : r.map (·.obs) = [⟨0, 0, 0, [0, 1, 3, 4], [0, 1, 3, 4]⟩, ⟨1, 0, 0, [0, 1, 2, 3, 4], [0, 1, 2, 3, 4]⟩] := by
    have : (match estimateAllBoards Outliers.search est.garbage bpts (good.map (·.obs)) with
      | .ok r => r.map (·.obs) | _ => []) =
        [⟨0, 0, 0, [0, 1, 3, 4], [0, 1, 3, 4]⟩, ⟨1, 0, 0, [0, 1, 2, 3, 4], [0, 1, 2, 3, 4]⟩] := by decide +kernel
    rw [← hobs, hr] at this
    exact this
  refine ⟨s, r, hs, hr, ?_⟩
  refine (C83_calibration 2 2 good hl s hs bpts rfl hdet Outliers.search search_ok.1 est (fun _ => search_ok.1)
    (fun _ => search_ok.2) pr (fun _ g a => (g • a).val)
    ⟨fun _ _ ps h => if_neg h, fun _ _ ps h => if_neg h⟩ (fun _ => .inl rfl) (fun _ _ => rfl) (fun _ _ => .inr rfl)
    none num 1 r hr (fun _ h => nomatch h)).2.2 ?_ ?_
  · intro x hx
    have : x.obs ∈ r.map (·.obs) := List.mem_map_of_mem hx
    rw [hr'] at this
    simp only [List.mem_cons, List.not_mem_nil, or_false] at this
    rcases this with h | h <;> rw [h] <;> simp
  · rintro ⟨b, c, f, h1, h2⟩
    have h3 : ∀ bo ∈ r.map (·.obs), 4 ≤ bo.pts.length := by rw [hr']; decide
    obtain ⟨bo, hbo, k1, k2, k3, k4⟩ := mem_linked h1
    have : bo.pts.length ≤ linkedPoints good (r.map (·.obs)) b c f := by
      unfold linkedPoints
      refine List.single_le_sum (by simp) _ (List.mem_map.2 ⟨bo, ?_, rfl⟩)
      rw [List.mem_filter]
      simp only [decide_eq_true_eq]
      exact ⟨hbo, k1, k2, k3⟩
    have := h3 bo hbo
    omega

end Example

end Verif.Props.Program
