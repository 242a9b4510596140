import Verif.Lemmas.ReorderPairs
import Verif.Props.Reorder

/-! C97: the workflow on the same images in another order. -/
namespace Verif.Lemmas.ReorderRun
open Verif Verif.Objects Verif.Groups Verif.Structure Verif.GroupPose Verif.NonOverlap Verif.Pipeline Verif.Spec.Groups
open Verif.Spec.NonOverlap Verif.Spec.Reorder Verif.Spec.Schedule Verif.Spec.Store Verif.Spec.Pipeline
open Verif.Spec.Units (values result)
open Verif.Lemmas.ReorderMerge Verif.Lemmas.ReorderGroups Verif.Lemmas.ReorderPairs Verif.Lemmas.Pipeline Verif.Lemmas.FinishRun
open Verif.Props.Trust (Unordered)
open Verif.Props.Pipeline

variable {V G Pt P Path : Type}

/-! ### Outcomes -/

theorem SameOutcome.bind {A B C D : Type} {R : A → B → Prop} {S : C → D → Prop} {x : Outcome A} {y : Outcome B}
    (h : SameOutcome R x y) {f : A → Outcome C} {g : B → Outcome D} (hk : ∀ a b, x = .ok a → y = .ok b → R a b → SameOutcome S (f a) (g b)) :
    SameOutcome S (x >>= f) (y >>= g) := by
  rcases x with a | _ | _ | _ <;> rcases y with b | _ | _ | _ <;> first | exact hk a b rfl rfl h | exact h | exact h.elim

theorem SameOutcome.of_eq {A : Type} {x y : Outcome A} (h : x = y) : SameOutcome Eq x y := by
  subst h
  cases x <;> trivial

theorem SameOutcome.of_result {A B : Type} (f : A → B) {x y : Outcome A} (h : Spec.Units.result f y = Spec.Units.result f x) :
    SameOutcome (fun a b => f b = f a) x y := by
  cases x <;> cases y <;> simp_all [Spec.Units.result, SameOutcome]

theorem SameOutcome.ok {A B : Type} {R : A → B → Prop} {x : Outcome A} {y : Outcome B} {a : A} (h : SameOutcome R x y) (hx : x = .ok a) :
    ∃ b, y = .ok b ∧ R a b := by
  subst hx
  cases y with
  | ok b => exact ⟨b, rfl, h⟩
  | _ => exact h.elim

/-! ### Groups -/

theorem calibrated_bare (gs : OMap Nat (CamGroup G)) : calibrated gs = calibrated (values bare gs) := by
  unfold calibrated values
  rw [List.map_map]
  rfl

theorem bare_iff {gs gs' : OMap Nat (CamGroup G)} : calibrated gs' = calibrated gs ↔ values bare gs' = values bare gs := by
  constructor
  · intro h
    have := congrArg (List.map fun (e : Nat × Nat × Nat × OMap Nat Unit × List Nat × OMap Nat G) =>
      (e.1, ({ id := e.2.1, refCam := e.2.2.1, cameras := e.2.2.2.1, camIdx := e.2.2.2.2.1, poses := e.2.2.2.2.2 } : CamGroup G))) h
    unfold calibrated at this
    rw [List.map_map, List.map_map] at this
    exact this
  · intro h
    rw [calibrated_bare, h, ← calibrated_bare]

theorem regroup_same (oo oo' : List (ObjObs P)) (frames frames' : List Nat) {t t' : GroupTables G}
    (h : calibrated t'.groups = calibrated t.groups) :
    SameOutcome (fun a b => calibrated b.groups = calibrated a.groups) (mergeAllCameraGroupObs oo frames t)
      (mergeAllCameraGroupObs oo' frames' t') := by
  have := SameOutcome.of_result (fun t : GroupTables G => values bare t.groups)
    (x := mergeAllCameraGroupObs oo frames t) (y := mergeAllCameraGroupObs oo' frames' t')
    (by rw [regroup_bare, regroup_bare, bare_iff.1 h])
  revert this
  rcases mergeAllCameraGroupObs oo frames t with a | _ | _ | _ <;> rcases mergeAllCameraGroupObs oo' frames' t' with b | _ | _ | _ <;>
    first | exact fun h => bare_iff.2 h | exact id

/-! ### Object observations -/

theorem single_once [Group G] [SMul G Pt] (k : Nat) (obs : List (BoardObs P)) (vs : List (Nat × Nat)) {bpts : List (List Pt)} {objs : OMap Nat (Object G Pt)}
    (hC : Spec.Objects.Collection bpts objs) : Single (List.replicate k (once obs vs objs)).flatten := by
  have hm : ∀ x ∈ (List.replicate k (once obs vs objs)).flatten, ∃ i o, OMap.get? objs i = some o ∧
      x = Spec.Objects.objObs o obs x.cam x.frame := by
    intro x hx
    obtain ⟨L, hL, hx⟩ := List.mem_flatten.1 hx
    rw [(List.mem_replicate.1 hL).2] at hx
    obtain ⟨⟨i, o⟩, he, hx⟩ := List.mem_flatMap.1 hx
    unfold Spec.Objects.allObjObs at hx
    obtain ⟨⟨c, f⟩, -, rfl⟩ := List.mem_map.1 (List.mem_of_mem_filter hx)
    exact ⟨i, o, (OMap.get?_eq_some hC.sorted).2 he, rfl⟩
  intro x hx y hy hc hf ho
  obtain ⟨i, o, hi, ex⟩ := hm x hx
  obtain ⟨j, o', hj, ey⟩ := hm y hy
  have e1 : x.obj = i := by
    rw [ex]
    exact hC.id i o hi
  have e2 : y.obj = j := by
    rw [ey]
    exact hC.id j o' hj
  have : i = j := by rw [← e1, ho, e2]
  subst this
  rw [hi] at hj
  simp only [Option.some.injEq] at hj
  subst hj
  rw [ex, ey, hc, hf]

theorem replicate_same {σ : Equiv.Perm Nat} {oo oo' : List (ObjObs P)} (h : SameObjects σ oo oo') (k : Nat) :
    SameObjects σ (List.replicate k oo).flatten (List.replicate k oo').flatten := by
  induction k with
  | zero => exact List.Perm.refl _
  | succ k ih =>
    unfold SameObjects at *
    rw [List.replicate_succ, List.replicate_succ, List.flatten_cons, List.flatten_cons, List.map_append, List.map_append]
    exact h.append ih

theorem listed_of [Group G] [SMul G Pt] {bpts : List (List Pt)} {frames : List Nat} {s : Store P Path} {obs : List (BoardObs P)}
    {st : State G Pt P} (h : Consistent bpts frames obs st) (hfr : ∀ o ∈ st.oo, o.frame ∈ frames) (hJ : Joins s obs st) :
    Listed st.t.groups st.oo := by
  intro i g hg
  refine ⟨hJ.seen i g hg, ?_⟩
  rintro ⟨o, ho, hc⟩
  have hk : (i, o.frame) ∈ OMap.keys st.t.groupObs := by
    rw [mem_keys_obs h.groupObs hfr]
    exact ⟨g, hg, List.ne_nil_of_mem (a := o) (List.mem_filter.2 ⟨ho, by simp [hc]⟩)⟩
  obtain ⟨is, his⟩ := OMap.mem_keys.1 hk
  exact h.lists.objObs i g o.frame is hg his

/-! ### Stages -/

theorem refineAll_same [Group G] [SMul G Pt] {σ : Equiv.Perm Nat} {n n' : Numerics V G} (hn : SameNumerics σ n n') (k : Nat)
    (bpts : List (List Pt)) {st st' : State G Pt P} (h : SameCalibration σ st st') :
    SameOutcome (SameCalibration σ) (refineAll n k bpts st) (refineAll n' k bpts st') := by
  unfold refineAll
  refine SameOutcome.bind (SameOutcome.of_eq (by rw [h.objs, hn.board])) ?_
  rintro o o' - - rfl
  refine ⟨rfl, h.oo, ?_⟩
  rw [bare_iff, hn.cam]
  exact refine_bare _ (bare_iff.1 h.groups)

section
variable [Group G] [SMul G Pt] (nCam nBoard : Nat) (σ : Equiv.Perm Nat) (l l' : List (Insertion P Path))
  (hl : ∀ a ∈ l, a.obs.cam < nCam ∧ a.obs.board < nBoard) (hl' : ∀ a ∈ l', a.obs.cam < nCam ∧ a.obs.board < nBoard)
  (hr : Reordered σ l l') (s s' : Store P Path) (hs : Store.run nCam nBoard l = .ok s) (hs' : Store.run nCam nBoard l' = .ok s')
  (out : BoardObs P → BoardObs P) (hout : ∀ o, out (renamed σ o) = renamed σ (out o))
  (hview : ∀ o, (out o).cam = o.cam ∧ (out o).frame = o.frame ∧ (out o).board = o.board ∧ (out o).pts.length = (out o).ids.length)
  (bpts : List (List Pt)) (n n' : Numerics V G) (hn : SameNumerics σ n n')

include hview in
theorem sameViews (obs : List (BoardObs P)) : Spec.Objects.SameViews obs (obs.map out) := by
  constructor
  · rw [List.map_map]
    apply List.map_congr_left
    intro o _
    simp only [Function.comp_apply, hview o]
  · intro o ho
    obtain ⟨x, _, rfl⟩ := List.mem_map.1 ho
    exact (hview x).2.2.2

include hl hl' hr hs hs' hout hview hn in
theorem mergeStage_same (ha : Unordered n.avg) (hav : Unordered n.avgV) (hk : Repeated n.avgV) (k : Nat) (qo : ObjObs P → G)
    (hqo : ∀ o, qo (unnumbered o) = qo o ∧ qo (renamedObj σ o) = qo o) {st st' : State G Pt P}
    (h : SameCalibration σ st st') (h1 : Single st.oo) (hC : Consistent bpts (OMap.keys s.frames) (s.obs.map out) st)
    (hC' : Consistent bpts (OMap.keys s'.frames) (s'.obs.map out) st')
    (hp : n.objPose k = objPosesOf st.oo qo) (hp' : n'.objPose k = objPosesOf st'.oo qo) :
    SameOutcome (SameCalibration σ) (mergeStage n k bpts s (s.obs.map out) st) (mergeStage n' k bpts s' (s'.obs.map out) st') := by
  classical
  have d := store_desc nCam nBoard l hl s hs
  have d' := store_desc nCam nBoard l' hl' s' hs'
  have hv := sameViews out hview s.obs
  have hv' := sameViews out hview s'.obs
  have hfr : ∀ o ∈ st.oo, o.frame ∈ OMap.keys s.frames := by
    intro o ho
    obtain ⟨ob, _, hsee⟩ := (hC.sees o.obj o.cam o.frame).1 ⟨o, ho, rfl, rfl, rfl⟩
    exact sees_frame nCam nBoard l hl s hs _ hv ob o.cam o.frame hsee
  have hfr' : ∀ o ∈ st'.oo, o.frame ∈ OMap.keys s'.frames := by
    intro o ho
    obtain ⟨ob, _, hsee⟩ := (hC'.sees o.obj o.cam o.frame).1 ⟨o, ho, rfl, rfl, rfl⟩
    exact sees_frame nCam nBoard l' hl' s' hs' _ hv' ob o.cam o.frame hsee
  obtain ⟨st1, _, hc1, _, _, m1, _⟩ := joinObjects_ok nCam nBoard l hl s hs (s.obs.map out) hv bpts n k st hC
  have e := merge3D_same n.toVec n.ofVec hav hk ha (n.choose k) bpts st.objs h.oo h1 hC.groupObs hC'.groupObs hfr hfr'
    (sameGroups_of (bare_iff.1 h.groups)) qo hqo
  have a1 := Lemmas.Objects.mergeAllObjectObs_ok (s := s) (s' := { s with obs := s.obs.map out }) ⟨d, rfl, hv⟩ (size := Spec.Objects.cornerCount bpts) st1.objs
    (fun e he => (hc1.objs.good e.1 e.2 ((OMap.get?_eq_some hc1.objs.sorted).2 he)).numbering)
  have a1' := Lemmas.Objects.mergeAllObjectObs_ok (s := s') (s' := { s' with obs := s'.obs.map out }) ⟨d', rfl, hv'⟩ (size := Spec.Objects.cornerCount bpts) st1.objs
    (fun e he => (hc1.objs.good e.1 e.2 ((OMap.get?_eq_some hc1.objs.sorted).2 he)).numbering)
  unfold mergeStage
  refine SameOutcome.bind ?_ fun a b _ _ hab => refineAll_same hn k bpts hab
  unfold joinObjects
  rw [hn.toVec, hn.ofVec, hn.avgV, hn.avg, hn.choose, hp', h.objs, e, ← hp, m1, Outcome.bind_ok, Outcome.bind_ok, a1, a1', Outcome.bind_ok,
    Outcome.bind_ok]
  refine SameOutcome.bind (regroup_same _ _ _ _ ?_) ?_
  · rw [bare_iff]
    show values bare (forget _) = values bare (forget _)
    rw [forget_bare, forget_bare]
    exact bare_iff.1 h.groups
  · intro t t' _ _ hg
    refine ⟨rfl, replicate_same ?_ _, hg⟩
    dsimp only
    rw [d.obs, d'.obs, List.map_map, List.map_map]
    exact Lemmas.Reorder.allObjObs_same d d' hr out hout (fun o => ⟨(hview o).1, (hview o).2.1⟩) st1.objs

include hn in
theorem calibrateObjects_congr (s : Store P Path) (obs : List (BoardObs P)) :
    calibrateObjects n' bpts s obs = calibrateObjects { n with boardPose := n'.boardPose } bpts s obs := by
  unfold calibrateObjects
  dsimp only
  rw [hn.avg, hn.choose, hn.board]

include hl hl' hr hs hs' hout hview hn in
theorem overlapping_same (hb : bpts.length = nBoard) (ha : Unordered n.avg) (hav : Unordered n.avgV) (hk : Repeated n.avgV)
    (q : BoardObs P → G) (hq : ∀ o, q (renamed σ o) = q o) (qo : Nat → ObjObs P → G)
    (hqo : ∀ k o, qo k (unnumbered o) = qo k o ∧ qo k (renamedObj σ o) = qo k o)
    (hp : PosesBy n bpts s (s.obs.map out) q qo) (hp' : PosesBy n' bpts s' (s'.obs.map out) q qo) :
    SameOutcome (SameCalibration σ) (overlapping n bpts s (s.obs.map out)) (overlapping n' bpts s' (s'.obs.map out)) := by
  classical
  have d := store_desc nCam nBoard l hl s hs
  have d' := store_desc nCam nBoard l' hl' s' hs'
  have hv := sameViews out hview s.obs
  have hv' := sameViews out hview s'.obs
  obtain ⟨⟨ob, oo⟩, h1, h2, _, _, objs, h5, h6, h7, h8⟩ := calibrateObjects_ok nCam nBoard l hl s hs _ hv bpts hb n
  obtain ⟨r', h1', h2', _, _, objs', h5', h6', h7', h8'⟩ := calibrateObjects_ok nCam nBoard l' hl' s' hs' _ hv' bpts hb n'
  have en : n = { n with boardPose := posesOf s q } := by rw [← hp.boards]
  obtain ⟨oo', e1, hsame, f1, f2⟩ := Props.Reorder.calibrateObjects_same nCam nBoard σ l l' hl hl' hr s s' hs hs' q hq out hout hview n ha bpts hb
    ob oo (by rw [← en]; exact h1)
  rw [← hp'.boards, ← calibrateObjects_congr σ bpts n n' hn] at e1
  rw [e1] at h1'
  simp only [Outcome.ok.injEq] at h1'
  subst h1'
  dsimp only at *
  obtain ⟨p1, p2⟩ := hp.first ob oo h1
  obtain ⟨p1', p2'⟩ := hp'.first ob oo' e1
  have hg : SameOutcome (SameCalibration σ) (calibrateGroups n bpts s ob oo) (calibrateGroups n' bpts s' ob oo') := by
    unfold calibrateGroups
    refine SameOutcome.bind ?_ fun a b _ _ hab => refineAll_same hn 1 bpts hab
    unfold placeGroups
    refine SameOutcome.bind (SameOutcome.of_eq ?_) ?_
    · rw [p1, p1', hn.avg, hn.choose, Lemmas.Reorder.groups_same d d' hr f1 f2 hsame (qo 1) (hqo 1) n.avg ha]
    · rintro gs _ - - rfl
      refine SameOutcome.bind (regroup_same _ _ _ _ rfl) fun t t' _ _ ht => ?_
      exact ⟨rfl, hsame, ht⟩
  obtain ⟨st, g1, g2, _, g4, _⟩ := calibrateGroups_ok nCam nBoard l hl s hs _ hv bpts n objs ob oo h5 h6 h2 h7 h8
  obtain ⟨st', g1', g2', _, g4', _⟩ := calibrateGroups_ok nCam nBoard l' hl' s' hs' _ hv' bpts n' objs' ob oo' h5' h6' h2' h7' h8'
  rw [g1, g1'] at hg
  unfold overlapping
  rw [h1, e1, Outcome.bind_ok, Outcome.bind_ok, g1, g1', Outcome.bind_ok, Outcome.bind_ok]
  refine mergeStage_same nCam nBoard σ l l' hl hl' hr s s' hs hs' out hout hview bpts n n' hn ha hav hk 2 (qo 2) (hqo 2) hg ?_ g2 g2'
    (by rw [g4]; exact p2) (by rw [g4']; exact p2')
  have hC16 := Props.Objects.C16_observations nCam nBoard l hl s hs _ hv bpts objs h5
  rw [h6] at hC16
  simp only [Outcome.ok.injEq] at hC16
  have := single_once 1 (s.obs.map out) (OMap.keys s.camObs) h5
  rw [g4, hC16]
  simpa [once] using this

include hl hl' hr hs hs' hout hview hn in
/-- The stages up to the joined groups, followed by any last stage. -/
theorem stages_same {B B' : Type} {R : B → B' → Prop} (last : State G Pt P → Outcome B) (last' : State G Pt P → Outcome B')
    (hlast : ∀ st st', SameCalibration σ st st' → Ends (observingCams nCam l) s (s.obs.map out) bpts st →
      Ends (observingCams nCam l') s' (s'.obs.map out) bpts st' → SameOutcome R (last st) (last' st')) (hb : bpts.length = nBoard) (ha : Unordered n.avg) (hav : Unordered n.avgV) (hk : Repeated n.avgV)
    (hhe : ∀ ps ps', ps.Perm ps' → n.he ps = n.he ps')
    (q : BoardObs P → G) (hq : ∀ o, q (renamed σ o) = q o) (qo : Nat → ObjObs P → G)
    (hqo : ∀ k o, qo k (unnumbered o) = qo k o ∧ qo k (renamedObj σ o) = qo k o)
    (hp : PosesBy n bpts s (s.obs.map out) q qo) (hp' : PosesBy n' bpts s' (s'.obs.map out) q qo) :
    SameOutcome R
      (overlapping n bpts s (s.obs.map out) >>= fun st => nonOverlapping n st >>= fun pp => afterMerge n bpts s (s.obs.map out) pp st >>= fun st =>
        mergeGroups2 n s pp st >>= last)
      (overlapping n' bpts s' (s'.obs.map out) >>= fun st => nonOverlapping n' st >>= fun pp => afterMerge n' bpts s' (s'.obs.map out) pp st >>= fun st =>
        mergeGroups2 n' s' pp st >>= last') := by
  classical
  have d := store_desc nCam nBoard l hl s hs
  have d' := store_desc nCam nBoard l' hl' s' hs'
  have hv := sameViews out hview s.obs
  have hv' := sameViews out hview s'.obs
  have hfrs := frames_sorted nCam nBoard l hl s hs
  have hfrs' := frames_sorted nCam nBoard l' hl' s' hs'
  have hframe : ∀ st : State G Pt P, Consistent bpts (OMap.keys s.frames) (s.obs.map out) st → ∀ o ∈ st.oo, o.frame ∈ OMap.keys s.frames := by
    intro st hC o ho
    obtain ⟨ob, _, hsee⟩ := (hC.sees o.obj o.cam o.frame).1 ⟨o, ho, rfl, rfl, rfl⟩
    exact sees_frame nCam nBoard l hl s hs _ hv ob o.cam o.frame hsee
  have hframe' : ∀ st : State G Pt P, Consistent bpts (OMap.keys s'.frames) (s'.obs.map out) st → ∀ o ∈ st.oo, o.frame ∈ OMap.keys s'.frames := by
    intro st hC o ho
    obtain ⟨ob, _, hsee⟩ := (hC.sees o.obj o.cam o.frame).1 ⟨o, ho, rfl, rfl, rfl⟩
    exact sees_frame nCam nBoard l' hl' s' hs' _ hv' ob o.cam o.frame hsee
  refine SameOutcome.bind (overlapping_same nCam nBoard σ l l' hl hl' hr s s' hs hs' out hout hview bpts n n' hn hb ha hav hk q hq qo hqo hp hp') ?_
  intro st st' est est' hst
  obtain ⟨c1, j1, k1, f1⟩ := overlapping_joins nCam nBoard l hl s hs _ hv bpts hb n st est
  obtain ⟨c1', j1', k1', f1'⟩ := overlapping_joins nCam nBoard l' hl' s' hs' _ hv' bpts hb n' st' est'
  have hbare := bare_iff.1 hst.groups
  have hnon : nonOverlapping n' st' = nonOverlapping n st := by
    unfold nonOverlapping
    rw [hn.ofVec, hn.toVec, hn.avgV, hn.he, hst.objs]
    exact findPoses_same hst.oo (frames_perm d d' hr) hfrs hfrs' c1.groups c1'.groups c1.groupObs c1'.groupObs c1.lists c1'.lists hbare
      n.toVec n.ofVec n.avgV _ _ (hn.inGroup 2) _ _ st.objs n.he hhe []
  refine SameOutcome.bind (SameOutcome.of_eq hnon.symm) ?_
  rintro pp _ hpp hpp' rfl
  have hw := mergeWith_same hst.oo c1.groups c1'.groups hbare (listed_of c1 (hframe st c1) j1) (listed_of c1' (hframe' st' c1') j1') pp (n.choose 3)
  have hafter : SameOutcome (SameCalibration σ) (afterMerge n bpts s (s.obs.map out) pp st) (afterMerge n' bpts s' (s'.obs.map out) pp st') := by
    unfold afterMerge mergeGroups1
    rw [hn.choose, hw]
    rcases Props.NonOverlap.C23_merge st.oo (OMap.keys s.frames) hfrs st.t c1.groups c1.groupObs c1.lists st.objs n.ofVec _ n.he []
      List.Pairwise.nil pp hpp (n.choose 3) with ⟨m, hm, hM⟩ | ⟨hthrow, _⟩
    swap
    · rw [hthrow]
      trivial
    have hempty : ∀ i g, OMap.get? m i = some g → OMap.Sorted g.frames := by
      intro i g hg
      rw [(hM.bare i g hg).2]
      exact List.Pairwise.nil
    obtain ⟨t, t1, t2, t3, t4, _⟩ := regroup_ok (Pt := Pt) st.oo (OMap.keys s.frames) (hfrs.imp Nat.ne_of_lt) { st.t with groups := m } hM.collection hempty
    obtain ⟨t', t1', t2', t3', t4', _⟩ := regroup_ok (Pt := Pt) st'.oo (OMap.keys s'.frames) (hfrs'.imp Nat.ne_of_lt) { st'.t with groups := m }
      hM.collection hempty
    have hreg := regroup_same st.oo st'.oo (OMap.keys s.frames) (OMap.keys s'.frames) (t := { st.t with groups := m })
      (t' := { st'.t with groups := m }) rfl
    rw [t1, t1'] at hreg
    rw [hm, Outcome.bind_ok, Outcome.bind_ok, t1, t1', Outcome.bind_ok, Outcome.bind_ok]
    refine mergeStage_same nCam nBoard σ l l' hl hl' hr s s' hs hs' out hout hview bpts n n' hn ha hav hk 4 (qo 4) (hqo 4)
      (st := { st with t := t }) (st' := { st' with t := t' }) ⟨hst.objs, hst.oo, hreg⟩ ?_ ⟨c1.objs, c1.sees, t2, t3, t4⟩ ⟨c1'.objs, c1'.sees, t2', t3', t4'⟩
      (hp.second st est) (hp'.second st' est')
    show Single st.oo
    rw [j1.shape]
    exact single_once _ _ _ c1.objs
  refine SameOutcome.bind hafter ?_
  intro st2 st2' e2 e2' h2
  obtain ⟨c2, j2, k2, m2, o2, f2⟩ := afterMerge_joins nCam nBoard l hl s hs _ hv bpts n st st2 c1 j1 k1 _ f1 pp hpp e2
  obtain ⟨c2', j2', k2', m2', o2', f2'⟩ := afterMerge_joins nCam nBoard l' hl' s' hs' _ hv' bpts n' st' st2' c1' j1' k1' _ f1' pp hpp' e2'
  refine SameOutcome.bind ?_ fun a b ea eb hab => hlast a b hab
    (mergeGroups2_ends nCam nBoard l hl s hs _ hv bpts n st st2 a c1 pp hpp c2 j2 k2 m2 o2 _ f2 ea)
    (mergeGroups2_ends nCam nBoard l' hl' s' hs' _ hv' bpts n' st' st2' b c1' pp hpp' c2' j2' k2' m2' o2' _ f2' eb)
  unfold mergeGroups2
  rw [hn.choose, mergeWith_same h2.oo c2.groups c2'.groups (bare_iff.1 h2.groups) (listed_of c2 (hframe st2 c2) j2)
    (listed_of c2' (hframe' st2' c2') j2') pp (n.choose 5)]
  refine SameOutcome.bind (SameOutcome.of_eq rfl) ?_
  rintro gs _ - - rfl
  refine SameOutcome.bind (regroup_same _ _ _ _ rfl) fun t t' _ _ ht => ?_
  exact ⟨h2.objs, h2.oo, ht⟩

include hl hl' hr hs hs' hout hview hn in
theorem workflow_same (hb : bpts.length = nBoard) (ha : Unordered n.avg) (hav : Unordered n.avgV) (hk : Repeated n.avgV)
    (hhe : ∀ ps ps', ps.Perm ps' → n.he ps = n.he ps')
    (q : BoardObs P → G) (hq : ∀ o, q (renamed σ o) = q o) (qo : Nat → ObjObs P → G)
    (hqo : ∀ k o, qo k (unnumbered o) = qo k o ∧ qo k (renamedObj σ o) = qo k o)
    (hp : PosesBy n bpts s (s.obs.map out) q qo) (hp' : PosesBy n' bpts s' (s'.obs.map out) q qo) :
    SameOutcome (SameCalibration σ) (workflow n bpts s (s.obs.map out)) (workflow n' bpts s' (s'.obs.map out)) :=
  stages_same nCam nBoard σ l l' hl hl' hr s s' hs hs' out hout hview bpts n n' hn (refineAll n 5 bpts) (refineAll n' 5 bpts)
    (fun _ _ h _ _ => refineAll_same hn 5 bpts h) hb ha hav hk hhe q hq qo hqo hp hp'

end

end Verif.Lemmas.ReorderRun
