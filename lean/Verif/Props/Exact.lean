import Verif.Props.Pipeline
import Verif.Props.Trust
import Verif.Spec.Exact

/-!
C70: with exact data and numerics that are exact on exact data, the workflow returns the true poses (for rigs in
which the composition order of C19 does not matter).
-/
namespace Verif.Props.Exact
open Verif Verif.Structure Verif.Objects Verif.Groups Verif.GroupPose Verif.NonOverlap Verif.Pipeline
open Verif.Spec.Groups Verif.Spec.Structure Verif.Spec.NonOverlap Verif.Spec.Pipeline Verif.Spec.Exact
open Verif.Lemmas.Pipeline Verif.Props.NonOverlap Verif.Props.Pipeline
open Relation

variable {V G Pt P Path : Type}

section
variable [Group G] [SMul G Pt] [DecidableEq P] (nCam nBoard : Nat) (l : List (Insertion P Path))
  (hl : ∀ a ∈ l, a.obs.cam < nCam ∧ a.obs.board < nBoard) (s : Store P Path)
  (hs : Store.run nCam nBoard l = .ok s) (obs : List (BoardObs P))
  (hobs : Spec.Objects.SameViews s.obs obs) (bpts : List (List Pt)) (hb : bpts.length = nBoard)
  (n : Numerics V G) (w : World G) (hx : Exact w n bpts l s obs)

/-- All poses commute, or each class of cameras linked by common views either has at most two cameras or its cameras all
have corners in common with the first of them at least twice. -/
def Simple (G : Type) [Group G] (l : List (Insertion P Path)) (obs : List (BoardObs P)) : Prop :=
  (∀ x y : G, x * y = y * x) ∨
  ∀ r c, ReflTransGen (CamsLinked l obs) r c → (∀ d, ReflTransGen (CamsLinked l obs) r d → r ≤ d) → c ≠ r →
    Spec.Trust.SeenTwice l obs r c ∨ ∀ d, ReflTransGen (CamsLinked l obs) r d → d = r ∨ d = c

omit [DecidableEq P] in
include hl hs hb hx in
theorem objects_true (r : OMap Nat (Object G Pt) × List (ObjObs P)) (hr : calibrateObjects n bpts s obs = .ok r) :
    BoardsTrue w r.1 := by
  obtain ⟨objs, h1, _⟩ := Props.Objects.C11_partition nCam nBoard l hl s hs n.boardPose n.avg bpts hb
    (n.choose 0)
  have hB : BoardsTrue w objs := by
    intro i o b hio hbo
    refine Props.Objects.C13_exact nCam nBoard l hl s hs n.boardPose n.avg bpts hb (n.choose 0) hx.avg w.board ?_
      objs h1 i o hio b hbo
    intro i j a b ha hb' hc hf
    rw [hx.boardPose i a ha, hx.boardPose j b hb', hc, hf]
    group
  unfold calibrateObjects at hr
  rw [h1, Outcome.bind_ok] at hr
  obtain ⟨oo, _, hr⟩ := Outcome.bind_eq_ok.1 hr
  obtain ⟨objs', h3, hr⟩ := Outcome.bind_eq_ok.1 hr
  have : (objs', oo) = r := by simpa using hr
  rw [← this]
  exact hx.refine0 objs h1 hB objs' h3

omit [DecidableEq P] in
private theorem sameGroup {gs gs' : OMap Nat (CamGroup G)} (h : ∀ i, (OMap.get? gs' i).map (fun g => (g.refCam, g.cameras, g.poses)) =
      (OMap.get? gs i).map (fun g => (g.refCam, g.cameras, g.poses))) (hT : CamerasTrue w gs) : CamerasTrue w gs' := by
  intro i g c hg hc
  have := h i
  rw [hg] at this
  obtain ⟨g0, h0, he⟩ := Option.map_eq_some_iff.1 this.symm
  simp only [Prod.mk.injEq] at he
  rw [← he.2.2, ← he.1]
  exact hT i g0 c h0 (by rw [he.2.1]; exact hc)

omit [DecidableEq P] in
include hl hs hobs in
/-- Cameras with corners in common twice have two measurements of their relative pose. -/
theorem seenTwice_measures (r objs : OMap Nat (Object G Pt)) (hC : Spec.Objects.Collection bpts objs)
    (hr : OMap.Sorted r)
    (hp : IsPartition (Spec.Objects.CoSeen l) (Spec.Objects.observedBoards nBoard l)
      (r.map fun e => OMap.keys e.2.boards)) (hk : OMap.keys r = OMap.keys objs)
    (hso : ∀ i o', OMap.get? r i = some o' → ∃ o, OMap.get? objs i = some o ∧ SameObject o o') (oo : List (ObjObs P))
    (hoo : initAllObjectObs { s with obs := obs } objs [] = .ok oo) (pose : Nat → G) (a b : Nat)
    (h : Spec.Trust.SeenTwice l obs a b) : 2 ≤ (Spec.Trust.cameraMeasures oo pose a b).length := by
  have hiff := (Props.Objects.C16_iff nCam nBoard l hl s hs obs hobs bpts objs hC oo hoo).2
  have hd := store_desc nCam nBoard l hl s hs
  have hboards : ∀ i o, OMap.get? objs i = some o → OMap.keys o.boards ∈ r.map fun e => OMap.keys e.2.boards := by
    intro i o ho
    have : i ∈ OMap.keys r := by rw [hk]; exact OMap.mem_keys.2 ⟨o, ho⟩
    obtain ⟨o', ho'⟩ := OMap.mem_keys.1 this
    obtain ⟨o2, h2, hs2⟩ := hso i o' ho'
    rw [ho] at h2
    simp only [Option.some.injEq] at h2
    subst h2
    exact List.mem_map.2 ⟨(i, o'), (OMap.get?_eq_some hr).1 ho', by rw [hs2.boards]⟩
  have sight : ∀ x ∈ obs, ∀ y ∈ obs, x.cam = a ∧ y.cam = b ∧ x.frame = y.frame ∧ x.pts ≠ [] ∧ y.pts ≠ [] ∧
      ReflTransGen (Spec.Objects.CoSeen l) x.board y.board →
      ∃ i o, OMap.get? objs i = some o ∧ x.board ∈ OMap.keys o.boards ∧
        (∃ u ∈ oo, u.obj = i ∧ u.cam = a ∧ u.frame = x.frame) ∧ ∃ u ∈ oo, u.obj = i ∧ u.cam = b ∧ u.frame = x.frame := by
    rintro x hx y hy ⟨x1, y1, hf, x4, y4, hlink⟩
    have hkx : (x.cam, x.frame, x.board) ∈ s.obs.map fun o => (o.cam, o.frame, o.board) := by
      rw [← hobs.keys]; exact List.mem_map.2 ⟨x, hx, rfl⟩
    obtain ⟨o1, ho1, he⟩ := List.mem_map.1 hkx
    rw [hd.obs] at ho1
    obtain ⟨ins, hins, rfl⟩ := List.mem_map.1 ho1
    simp only [Prod.mk.injEq] at he
    have hmem : x.board ∈ Spec.Objects.observedBoards nBoard l := by
      unfold Spec.Objects.observedBoards
      rw [List.mem_filter, List.mem_range, List.any_eq_true]
      exact ⟨by rw [← he.2.2]; exact (hl ins hins).2, ins, hins, by simpa using he.2.2⟩
    obtain ⟨c, hc, hxc⟩ := List.mem_flatten.1 (hp.perm.symm.subset hmem)
    have hyc := (hp.linked c hc _ hxc _).2 hlink
    obtain ⟨⟨i, o'⟩, he', rfl⟩ := List.mem_map.1 hc
    obtain ⟨o, ho, hs2⟩ := hso i o' ((OMap.get?_eq_some hr).2 he')
    dsimp only at hxc hyc
    rw [hs2.boards] at hxc hyc
    exact ⟨i, o, ho, hxc, (hiff i a x.frame).2 ⟨o, ho, x, hx, x1, rfl, hxc, x4⟩,
      (hiff i b x.frame).2 ⟨o, ho, y, hy, y1, hf.symm, hyc, y4⟩⟩
  obtain ⟨x, hx, y, hy, x', hx', y', hy', h1, h2, hne⟩ := h
  obtain ⟨i, o, ho, hb1, ⟨u, hu, u1, u2, u3⟩, v, hv, v1, v2, v3⟩ := sight x hx y hy h1
  obtain ⟨i', o', ho', hb2, ⟨u', hu', u1', u2', u3'⟩, v', hv', v1', v2', v3'⟩ := sight x' hx' y' hy' h2
  refine Props.Trust.two_measures oo pose a b u v u' v' hu hv hu' hv' ⟨by rw [u3, v3], by rw [u1, v1], u2, v2⟩
    ⟨by rw [u3', v3'], by rw [u1', v1'], u2', v2'⟩ ?_
  rintro rfl
  rcases hne with hne | hne
  · exact hne (u3.symm.trans u3')
  · have : i = i' := u1.symm.trans u1'
    subst this
    rw [ho] at ho'
    simp only [Option.some.injEq] at ho'
    subst ho'
    exact hne ((hp.linked _ (hboards i o ho) _ hb1 _).1 hb2)

include hl hs hobs hb hx in
theorem place_true (hsim : Simple G l obs) (r : OMap Nat (Object G Pt) × List (ObjObs P))
    (hr : calibrateObjects n bpts s obs = .ok r) (st : State G Pt P) (hst : placeGroups n s r.1 r.2 = .ok st) :
    StateTrue w st ∧ Consistent bpts (OMap.keys s.frames) obs st := by
  have hB := objects_true nCam nBoard l hl s hs obs bpts hb n w hx r hr
  obtain ⟨r', h1, h2, _, h4, objs, h5, h6, h7, h8⟩ :=
    calibrateObjects_ok nCam nBoard l hl s hs obs hobs bpts hb n
  rw [hr] at h1
  simp only [Outcome.ok.injEq] at h1
  subst h1
  obtain ⟨st', p1, p2, _, p4, p5, gs, p6, p7⟩ := placeGroups_ok nCam nBoard l hl s hs obs hobs bpts n objs r.1 r.2
    h5 h6 h2 h7 h8
  rw [hst] at p1
  simp only [Outcome.ok.injEq] at p1
  subst p1
  refine ⟨⟨by rw [p5]; exact hB, sameGroup w p7 ?_⟩, p2⟩
  have hP := hx.pose1 r hr hB
  let Q : Nat → G := fun j => w.board (((OMap.get? r.1 j).map (·.refBoard)).getD 0)
  have hiff := (Props.Objects.C16_iff nCam nBoard l hl s hs obs hobs bpts objs h5 r.2 h6).2
  have hexact : ∀ (i : Nat) o, r.2[i]? = some o → n.objPose 1 i = w.cam o.cam * (fun f j => w.motion f * Q j) o.frame o.obj := by
    intro i o ho
    obtain ⟨o1, ho1, _⟩ := (hiff o.obj o.cam o.frame).1 ⟨o, List.mem_of_getElem? ho, rfl, rfl, rfl⟩
    have hk : o.obj ∈ OMap.keys r.1 := by rw [h7]; exact OMap.mem_keys.2 ⟨o1, ho1⟩
    obtain ⟨o2, ho2⟩ := OMap.mem_keys.1 hk
    rw [hP i o o2 ho ho2]
    simp only [Q, ho2, Option.map_some, Option.getD_some]
  intro i g c hg hc
  rcases hsim with hcomm | hsm
  · exact Props.Groups.C19_commuting nCam nBoard l hl s hs obs hobs bpts objs h5 r.2 h6 (n.objPose 1) n.avg
      (n.choose 1) hcomm hx.avg w.cam (fun f j => w.motion f * Q j) hexact gs p6 i g hg c hc
  · have hmem := (Props.Groups.C18_member nCam nBoard l hl s hs obs hobs bpts objs h5 r.2 h6 (n.objPose 1) n.avg
      (n.choose 1) gs p6).2.2 i g hg
    rw [bothSee_eq nCam nBoard l hl s hs obs hobs r.1 objs h2.sorted h4 h7 h8] at hmem
    obtain ⟨_, q2, q3, q4, _⟩ := (Props.Groups.C18_reference nCam nBoard l hl s hs obs hobs bpts objs h5 r.2 h6
      (n.objPose 1) n.avg (n.choose 1) gs p6).2.1 i g hg
    by_cases hcr : c = g.refCam
    · rw [hcr, q4, mul_inv_cancel]
    rcases hsm g.refCam c ((hmem _ q2 c).1 hc) (fun d hd => q3 d ((hmem _ q2 d).2 hd)) hcr with htw | htwo
    · refine Props.Trust.C80_exact nCam nBoard l hl s hs obs hobs bpts objs h5 r.2 h6 (n.objPose 1) n.avg
        (n.choose 1) hx.avg w.cam (fun f j => w.motion f * Q j) hexact gs p6 i g hg c hcr ?_
      exact seenTwice_measures nCam nBoard l hl s hs obs hobs bpts r.1 objs h5 h2.sorted h4 h7 h8 r.2 h6 _ _ _ htw
    · refine Props.Groups.C19_two_cameras nCam nBoard l hl s hs obs hobs bpts objs h5 r.2 h6 (n.objPose 1) n.avg
        (n.choose 1) hx.avg w.cam (fun f j => w.motion f * Q j) hexact gs p6 i g hg ?_ c hc
      have hnd : (OMap.keys g.cameras).Nodup := by
        have := p7 i
        rw [hg] at this
        obtain ⟨g0, h0, he⟩ := Option.map_eq_some_iff.1 this
        simp only [Prod.mk.injEq] at he
        rw [← he.2.1]
        exact OMap.keys_nodup (p2.groups.cameras_sorted i g0 h0)
      have hsub : OMap.keys g.cameras ⊆ [g.refCam, c] := by
        intro d hd
        rcases htwo d ((hmem _ q2 d).1 hd) with h | h <;> simp [h]
      have := (List.subperm_of_subset hnd hsub).length_le
      simpa [OMap.keys] using this

include hl hs hobs in
/-- The merge of objects keeps the true poses. -/
theorem join_true (havg : ∀ (zs : List G) x, zs ≠ [] → (∀ z ∈ zs, z = x) → n.avg zs = x)
    (havgV : ∀ (zs : List V) x, zs ≠ [] → (∀ z ∈ zs, z = x) → n.avgV zs = x)
    (hvec : ∀ g, n.ofVec (n.toVec g) = g) (k : Nat) (st : State G Pt P)
    (h : Consistent bpts (OMap.keys s.frames) obs st) (hT : StateTrue w st)
    (hP : PosesTrue w st.objs st.oo (n.objPose k)) (st' : State G Pt P)
    (hj : joinObjects n k bpts s obs st = .ok st') :
    StateTrue w st' ∧ Consistent bpts (OMap.keys s.frames) obs st' := by
  obtain ⟨st1, p1, p2, p3, p4, p5, cs, p6, p7, p8, p9⟩ :=
    joinObjects_ok nCam nBoard l hl s hs obs hobs bpts n k st h
  rw [hj] at p1
  simp only [Outcome.ok.injEq] at p1
  subst p1
  refine ⟨⟨?_, sameGroup w p4 hT.cameras⟩, p2⟩
  let Q : Nat → G := fun j => w.board (((OMap.get? st.objs j).map (·.refBoard)).getD 0)
  have hget : ∀ o ∈ st.oo, ∃ ob, OMap.get? st.objs o.obj = some ob := by
    intro o ho
    obtain ⟨ob, hob, _⟩ := (h.sees o.obj o.cam o.frame).1 ⟨o, ho, rfl, rfl, rfl⟩
    exact ⟨ob, hob⟩
  have hfr : ∀ o ∈ st.oo, o.frame ∈ OMap.keys s.frames := by
    intro o ho
    obtain ⟨ob, _, hsee⟩ := (h.sees o.obj o.cam o.frame).1 ⟨o, ho, rfl, rfl, rfl⟩
    exact sees_frame nCam nBoard l hl s hs obs hobs ob o.cam o.frame hsee
  intro i o b hio hbo
  obtain ⟨r, _, ⟨ro, hro, href⟩, hpose⟩ := Props.GroupPose.C24_workflow_exact n.ofVec st.oo (OMap.keys s.frames) st.t
    h.groupObs hfr h.objs (fun o ho => OMap.mem_keys.2 (hget o ho)) n.toVec hvec n.avgV havgV n.avg havg (n.choose k)
    (n.objPose k) w.cam w.motion Q hT.cameras (by
      intro q x hx
      obtain ⟨ob, hob⟩ := hget x (List.mem_of_getElem? hx)
      rw [hP q x ob hx hob]
      simp only [Q, hob, Option.map_some, Option.getD_some]) st'.objs p5 i o hio
  have hi : i < cs.length := by
    rw [p7]
    have : i ∈ OMap.keys st'.objs := OMap.mem_keys.2 ⟨o, hio⟩
    rw [p8] at this
    exact List.mem_range.1 this
  obtain ⟨o', ho', hbs⟩ := p9 i _ (List.getElem?_eq_getElem hi)
  rw [hio] at ho'
  simp only [Option.some.injEq] at ho'
  subst ho'
  obtain ⟨j, _, oj, hoj, hbj⟩ := (hbs b).1 hbo
  rw [hpose j oj b _ hoj hbo (hT.boards j oj b hoj hbj)]
  simp only [Q, hro, hoj, Option.map_some, Option.getD_some, href]
  congr 1
  group

omit [SMul G Pt] in
private theorem keys_groupCams (gs : OMap Nat (CamGroup G)) : OMap.keys gs = (groupCams gs).map (·.1) := by
  unfold OMap.keys groupCams; rw [List.map_map]; rfl

omit [DecidableEq P] in
include hl hs hobs hb in
private theorem place_numbered (r : OMap Nat (Object G Pt) × List (ObjObs P))
    (hr : calibrateObjects n bpts s obs = .ok r) (st : State G Pt P) (hst : placeGroups n s r.1 r.2 = .ok st) :
    Consistent bpts (OMap.keys s.frames) obs st ∧ ∃ k, OMap.keys st.t.groups = List.range k := by
  obtain ⟨r', h1, h2, _, h4, objs, h5, h6, h7, h8⟩ :=
    calibrateObjects_ok nCam nBoard l hl s hs obs hobs bpts hb n
  rw [hr] at h1
  simp only [Outcome.ok.injEq] at h1
  subst h1
  obtain ⟨st', p1, p2, _, p4, p5, gs, p6, p7⟩ := placeGroups_ok nCam nBoard l hl s hs obs hobs bpts n objs r.1 r.2
    h5 h6 h2 h7 h8
  rw [hst] at p1
  simp only [Outcome.ok.injEq] at p1
  subst p1
  have hnum := (Props.Groups.C18_reference nCam nBoard l hl s hs obs hobs bpts objs h5 r.2 h6 (n.objPose 1) n.avg
    (n.choose 1) gs p6).1
  refine ⟨p2, gs.length, ?_⟩
  rw [← hnum]
  apply OMap.sorted_keys_ext (OMap.keys_sorted p2.groups.sorted)
  · rw [hnum]; exact List.pairwise_lt_range.imp fun h => by simpa [Key.lt] using h
  · intro i
    rw [OMap.mem_keys, OMap.mem_keys]
    have := p7 i
    constructor
    · rintro ⟨g, hg⟩
      rw [hg] at this
      obtain ⟨g0, h0, _⟩ := Option.map_eq_some_iff.1 this.symm
      exact ⟨g0, h0⟩
    · rintro ⟨g, hg⟩
      rw [hg] at this
      obtain ⟨g0, h0, _⟩ := Option.map_eq_some_iff.1 this
      exact ⟨g0, h0⟩

include hl hs hobs hb in
/-- The groups are numbered from 0. -/
theorem overlapping_numbered (st : State G Pt P) (h : overlapping n bpts s obs = .ok st) :
    ∃ k, OMap.keys st.t.groups = List.range k := by
  unfold overlapping at h
  obtain ⟨r, h1, h⟩ := Outcome.bind_eq_ok.1 h
  obtain ⟨st1, h2, h⟩ := Outcome.bind_eq_ok.1 h
  unfold calibrateGroups at h2
  obtain ⟨st0, h3, h2⟩ := Outcome.bind_eq_ok.1 h2
  obtain ⟨q2, kk, q3⟩ := place_numbered nCam nBoard l hl s hs obs hobs bpts hb n r h1 st0 h3
  obtain ⟨st1', g1, g2, g3, _⟩ := refineAll_ok n 1 st0 q2
  rw [h2] at g1
  cases g1
  obtain ⟨st2, m1, m2, m3, _⟩ := mergeStage_ok nCam nBoard l hl s hs obs hobs bpts n 2 st1 g2
  rw [h] at m1
  cases m1
  exact ⟨kk, by rw [keys_groupCams, m3, g3, ← keys_groupCams, q3]⟩

include hl hs hobs hb hx in
/-- C70: from exact data, the stages up to the merge of objects succeed and give all boards and cameras their true
poses. -/
theorem C70_overlapping (hsim : Simple G l obs) :
    ∃ st, overlapping n bpts s obs = .ok st ∧ StateTrue w st ∧ Consistent bpts (OMap.keys s.frames) obs st ∧
      ∃ k, OMap.keys st.t.groups = List.range k := by
  obtain ⟨r, h1, h2, _, h4, objs, h5, h6, h7, h8⟩ :=
    calibrateObjects_ok nCam nBoard l hl s hs obs hobs bpts hb n
  obtain ⟨st0, q1, _⟩ := placeGroups_ok nCam nBoard l hl s hs obs hobs bpts n objs r.1 r.2 h5 h6 h2 h7 h8
  obtain ⟨q2, kk, q3⟩ := place_numbered nCam nBoard l hl s hs obs hobs bpts hb n r h1 st0 q1
  obtain ⟨st1, g1, g2, g3, _⟩ := refineAll_ok n 1 st0 q2
  have g0 : calibrateGroups n bpts s r.1 r.2 = .ok st1 := by
    unfold calibrateGroups
    rw [q1, Outcome.bind_ok, g1]
  obtain ⟨st1', k1, _⟩ := joinObjects_ok nCam nBoard l hl s hs obs hobs bpts n 2 st1 g2
  obtain ⟨st2, m1, m2, m3, _⟩ := mergeStage_ok nCam nBoard l hl s hs obs hobs bpts n 2 st1 g2
  have t0 := (place_true nCam nBoard l hl s hs obs hobs bpts hb n w hx hsim r h1 st0 q1).1
  have t1 : StateTrue w st1 := hx.refine1 r h1 st0 q1 t0 st1 g1
  have t1' := (join_true nCam nBoard l hl s hs obs hobs bpts n w hx.avg hx.avgV hx.vec 2 st1 g2 t1
    (hx.pose2 r h1 st1 g0 t1) st1' k1).1
  refine ⟨st2, ?_, ?_, m2, kk, ?_⟩
  · unfold overlapping
    rw [h1, Outcome.bind_ok, g0, Outcome.bind_ok, m1]
  · unfold mergeStage at m1
    rw [k1, Outcome.bind_ok] at m1
    exact hx.refine2 r h1 st1 g0 st1' k1 t1' st2 m1
  · rw [keys_groupCams, m3, g3, ← keys_groupCams, q3]

end

/-! ### Groups without common views -/

section
variable [Group G] [SMul G Pt]

private theorem refined_get (f : Nat → Nat → Nat → V) (op : OMap (Nat × Nat) (OMap Nat V)) (k : Nat × Nat) (j : Nat) :
    ((OMap.get? (refinePoses f op) k).bind fun m => OMap.get? m j) =
      ((OMap.get? op k).bind fun m => OMap.get? m j).map fun _ => f k.1 k.2 j := by
  unfold refinePoses
  rw [Props.GroupPose.get?_mapKey (fun (q : Nat × Nat) (m : OMap Nat V) =>
    (m.map fun p => (p.1, f q.1 q.2 p.1) : OMap Nat V)) op k]
  cases OMap.get? op k with
  | none => rfl
  | some m =>
    simp only [Option.map_some, Option.bind_some]
    exact get?_mapVal (fun (q : Nat) (_ : V) => f k.1 k.2 q) m j

private theorem objectPoses_some (toVec : G → V) (avg : List V → V) (oo : List (ObjObs P)) (frames : List Nat)
    (t : GroupTables G) (ht : GroupObsOf oo frames t) (pose : Nat → G) (i f : Nat) (g : CamGroup G)
    (hg : OMap.get? t.groups i = some g) (hf : f ∈ frames) (x : ObjObs P) (hx : x ∈ oo)
    (hc : x.cam ∈ OMap.keys g.cameras) (hxf : x.frame = f) :
    ∃ v, ((OMap.get? (objectPoses toVec avg t oo pose) (i, f)).bind fun m => OMap.get? m x.obj) = some v := by
  obtain ⟨k, hk⟩ := List.mem_iff_getElem?.1 hx
  have hin : k ∈ Spec.Store.positions
      (fun o : ObjObs P => o.frame == f && decide (o.cam ∈ OMap.keys g.cameras)) oo :=
    (Props.Store.positions_get _ _ _).2 ⟨x, hk, by simp [hxf, hc]⟩
  have hobs := (ht.obs i f _).2 ⟨g, hg, hf, List.ne_nil_of_mem hin, rfl⟩
  have hmap : OMap.get? (objectPoses toVec avg t oo pose) (i, f) =
      some (computeObjectsPose avg g.refCam [] (entries toVec g oo pose (Spec.Store.positions
        (fun o : ObjObs P => o.frame == f && decide (o.cam ∈ OMap.keys g.cameras)) oo))).1 := by
    unfold objectPoses
    refine (Props.GroupPose.get?_mapKey (fun (q : Nat × Nat) (is : List Nat) => match OMap.get? t.groups q.1 with
      | some g => (computeObjectsPose avg g.refCam [] (entries toVec g oo pose is)).1
      | none => []) _ _).trans ?_
    rw [hobs]
    simp only [Option.map_some, hg]
  rw [hmap, Option.bind_some]
  refine (Props.GroupPose.C26_update avg g.refCam [] List.Pairwise.nil _).2.1 _ ?_
  refine List.mem_map.2 ⟨⟨x.cam, x.obj, poseInGroup toVec g x.cam (pose k)⟩, ?_, rfl⟩
  unfold entries
  exact List.mem_filterMap.2 ⟨k, hin, by rw [hk]; rfl⟩

variable (w : World G)

/-- Any two groups share no more than three frames (of the objects chosen for them), or at least six, and the motions
in them are rich enough. -/
def RichPairs (frames : List Nat) (st : State G Pt P) : Prop :=
  ∀ i j gi gj, OMap.get? st.t.groups i = some gi → OMap.get? st.t.groups j = some gj → i ≠ j →
    3 < (jointFrames st.oo frames gi gj (chosen st.objs st.t st.oo i j)).length →
    6 ≤ (jointFrames st.oo frames gi gj (chosen st.objs st.t st.oo i j)).length ∧
    Rich w (jointFrames st.oo frames gi gj (chosen st.objs st.t st.oo i j))

/-- No two groups share four or five frames (of the objects chosen for them); and if any two share more than three, all
others that see anything share more than three with group 0, with motions rich enough. -/
structure StarPairs (frames : List Nat) (st : State G Pt P) : Prop where
  six : ∀ i j gi gj, OMap.get? st.t.groups i = some gi → OMap.get? st.t.groups j = some gj → i ≠ j →
    3 < (jointFrames st.oo frames gi gj (chosen st.objs st.t st.oo i j)).length →
    6 ≤ (jointFrames st.oo frames gi gj (chosen st.objs st.t st.oo i j)).length
  rich : ∀ j g0 gj, OMap.get? st.t.groups 0 = some g0 → OMap.get? st.t.groups j = some gj → j ≠ 0 →
    3 < (jointFrames st.oo frames g0 gj (chosen st.objs st.t st.oo 0 j)).length →
    Rich w (jointFrames st.oo frames g0 gj (chosen st.objs st.t st.oo 0 j))
  direct : ∀ i j gi gj, OMap.get? st.t.groups i = some gi → OMap.get? st.t.groups j = some gj → i ≠ j →
    3 < (jointFrames st.oo frames gi gj (chosen st.objs st.t st.oo i j)).length →
    ∀ k gk, OMap.get? st.t.groups k = some gk → k ≠ 0 → gk.objObs ≠ [] →
      ∃ g0, OMap.get? st.t.groups 0 = some g0 ∧ 3 < (jointFrames st.oo frames g0 gk (chosen st.objs st.t st.oo 0 k)).length

/-- A transform found between two groups is the true one if the motions are rich enough. -/
theorem pair_true (frames : List Nat) (hfr : frames.Pairwise (· < ·)) (obs : List (BoardObs P)) (bpts : List (List Pt))
    (n : Numerics V G) (st : State G Pt P) (h : Consistent bpts frames obs st)
    (hI : InGroupTrue w n 2 st) (hsol : Solves n.he) (pp : PairPoses G)
    (hpp : nonOverlapping n st = .ok pp) (i j : Nat) (gi gj : CamGroup G) (hi : OMap.get? st.t.groups i = some gi)
    (hj : OMap.get? st.t.groups j = some gj)
    (hrich : i ≠ j → 3 < (jointFrames st.oo frames gi gj (chosen st.objs st.t st.oo i j)).length →
      6 ≤ (jointFrames st.oo frames gi gj (chosen st.objs st.t st.oo i j)).length ∧
      Rich w (jointFrames st.oo frames gi gj (chosen st.objs st.t st.oo i j)))
    (x : G) (hx : OMap.get? pp.pose (i, j) = some x) :
    x = w.cam gj.refCam * (w.cam gi.refCam)⁻¹ := by
  unfold nonOverlapping at hpp
  generalize hop : refinePoses (n.inGroup 2) (objectPoses n.toVec n.avgV st.t st.oo (n.objPose 3)) = op at hpp
  obtain ⟨c1, c2, _⟩ := C22_recorded st.oo frames hfr st.t h.groups h.groupObs h.lists st.objs n.ofVec op n.he [] pp
    List.Pairwise.nil hpp i j
  obtain ⟨hne, g1, g2, e1, e2, hlen⟩ := c1.1 (OMap.mem_keys.2 ⟨x, hx⟩)
  rw [hi] at e1; rw [hj] at e2
  simp only [Option.some.injEq] at e1 e2
  subst e1; subst e2
  obtain ⟨y, hy, rfl, _⟩ := c2 x hx gi gj hi hj
  generalize hfs : jointFrames st.oo frames gi gj (chosen st.objs st.t st.oo i j) = fs at hy hlen
  obtain ⟨hsix, hR⟩ : 6 ≤ fs.length ∧ Rich w fs := hfs ▸ hrich hne (hfs ▸ hlen)
  generalize hab : chosen st.objs st.t st.oo i j = ab at hy hfs
  -- the objects exist
  have side : ∀ q (g : CamGroup G) a f, OMap.get? st.t.groups q = some g → f ∈ frames → 0 < seenIn st.oo g f a →
      ∃ o, OMap.get? st.objs a = some o ∧
        (((OMap.get? op (q, f)).bind fun m => OMap.get? m a).map n.ofVec).getD 1 =
          w.cam g.refCam * (w.motion f * w.board o.refBoard) := by
    intro q g a f hg hf hs
    unfold seenIn at hs
    obtain ⟨z, hz⟩ := List.exists_mem_of_length_pos hs
    simp only [List.mem_filter, Bool.and_eq_true, beq_iff_eq, decide_eq_true_eq] at hz
    obtain ⟨hz0, ⟨hz1, hz2⟩, rfl⟩ := hz
    obtain ⟨o, ho, _⟩ := (h.sees z.obj z.cam z.frame).1 ⟨z, hz0, rfl, rfl, rfl⟩
    obtain ⟨v, hv⟩ := objectPoses_some n.toVec n.avgV st.oo frames st.t h.groupObs (n.objPose 3) q f g hg hf z hz0 hz2 hz1
    refine ⟨o, ho, ?_⟩
    rw [← hop, refined_get, hv]
    simp only [Option.map_some, Option.getD_some]
    exact hI q g z.obj o f hg ho ⟨z, hz0, hz2, hz1, rfl⟩
  have hmem : ∀ f ∈ fs, f ∈ frames ∧ 0 < seenIn st.oo gi f ab.1 ∧ 0 < seenIn st.oo gj f ab.2 := by
    intro f hf
    rw [← hfs] at hf
    unfold jointFrames at hf
    simpa using hf
  have hex : ∃ f0, f0 ∈ fs := List.exists_mem_of_length_pos (by omega)
  obtain ⟨f0, hf0⟩ := hex
  obtain ⟨m0, m1, m2⟩ := hmem f0 hf0
  obtain ⟨oa, hoa, _⟩ := side i gi ab.1 f0 hi m0 m1
  obtain ⟨ob, hob, _⟩ := side j gj ab.2 f0 hj m0 m2
  have hpose : fs.map (posesAt n.ofVec op i j ab) =
      fs.map fun f => (w.cam gi.refCam * (w.motion f * w.board oa.refBoard),
        w.cam gj.refCam * (w.motion f * w.board ob.refBoard)) := by
    apply List.map_congr_left
    intro f hf
    obtain ⟨k0, k1, k2⟩ := hmem f hf
    obtain ⟨oa', hoa', e1⟩ := side i gi ab.1 f hi k0 k1
    obtain ⟨ob', hob', e2⟩ := side j gj ab.2 f hj k0 k2
    rw [hoa] at hoa'; rw [hob] at hob'
    simp only [Option.some.injEq] at hoa' hob'
    subst hoa'; subst hob'
    unfold posesAt
    rw [e1, e2]
  rw [hpose] at hy
  obtain ⟨x, hx', hex⟩ := hsol (fs.map fun f => (w.cam gi.refCam * (w.motion f * w.board oa.refBoard),
      w.cam gj.refCam * (w.motion f * w.board ob.refBoard))) (by rw [List.length_map]; exact hsix)
  obtain ⟨d, hd⟩ := hex ⟨w.cam gi.refCam * (w.cam gj.refCam)⁻¹,
    (w.board oa.refBoard)⁻¹ * w.board ob.refBoard, by
      intro p hp
      obtain ⟨f, _, rfl⟩ := List.mem_map.1 hp
      dsimp only
      group⟩
  rw [hy] at hx'
  simp only [Outcome.ok.injEq] at hx'
  subst hx'
  have := hR ((w.cam gi.refCam)⁻¹ * y * w.cam gj.refCam) (by
    have hc : ∀ f ∈ fs, (w.motion f)⁻¹ * ((w.cam gi.refCam)⁻¹ * y * w.cam gj.refCam) * w.motion f =
        w.board oa.refBoard * d * (w.board ob.refBoard)⁻¹ := by
      intro f hf
      rw [← hd _ (List.mem_map.2 ⟨f, hf, rfl⟩)]
      dsimp only
      group
    intro f hf f' hf'
    rw [hc f hf, hc f' hf'])
  have hy' : y = w.cam gi.refCam * (w.cam gj.refCam)⁻¹ := by
    have h2 := congrArg (fun z => w.cam gi.refCam * z * (w.cam gj.refCam)⁻¹) this
    simpa [mul_assoc] using h2
  rw [hy', mul_inv_rev, inv_inv]

/-- C70: the transforms found between groups are the true ones. -/
theorem C70_pairs (frames : List Nat) (hfr : frames.Pairwise (· < ·)) (obs : List (BoardObs P)) (bpts : List (List Pt))
    (n : Numerics V G) (st : State G Pt P) (h : Consistent bpts frames obs st)
    (hI : InGroupTrue w n 2 st) (hsol : Solves n.he) (hrich : RichPairs w frames st) (pp : PairPoses G)
    (hpp : nonOverlapping n st = .ok pp) (i j : Nat) (gi gj : CamGroup G) (hi : OMap.get? st.t.groups i = some gi)
    (hj : OMap.get? st.t.groups j = some gj) (x : G) (hx : OMap.get? pp.pose (i, j) = some x) :
    x = w.cam gj.refCam * (w.cam gi.refCam)⁻¹ :=
  pair_true w frames hfr obs bpts n st h hI hsol pp hpp i j gi gj hi hj (hrich i j gi gj hi hj) x hx

end

/-! ### The whole workflow -/

section
variable [Group G] [SMul G Pt] (w : World G)

/-- Recorded pairs of groups that form a star. -/
theorem star_recorded (frames : List Nat) (hfr : frames.Pairwise (· < ·)) (obs : List (BoardObs P))
    (bpts : List (List Pt)) (n : Numerics V G) (st : State G Pt P) (h : Consistent bpts frames obs st)
    (hstar : StarPairs w frames st) (pp : PairPoses G) (hpp : nonOverlapping n st = .ok pp) {a b : Nat}
    (hab : (a, b) ∈ OMap.keys pp.pose) : (∀ k ∈ observingGroups st.t.groups, k ≠ 0 → (0, k) ∈ OMap.keys pp.pose) ∧
      0 ∈ observingGroups st.t.groups := by
  unfold nonOverlapping at hpp
  generalize refinePoses (n.inGroup 2) (objectPoses n.toVec n.avgV st.t st.oo (n.objPose 3)) = op at hpp
  have hrec := fun i j => (C22_recorded st.oo frames hfr st.t h.groups h.groupObs h.lists st.objs n.ofVec op
    n.he [] pp List.Pairwise.nil hpp i j).1
  obtain ⟨hne, g1, g2, e1, e2, hlen⟩ := (hrec a b).1 hab
  have hk : ∀ k ∈ observingGroups st.t.groups, k ≠ 0 → (0, k) ∈ OMap.keys pp.pose := by
    intro k hk h0
    unfold observingGroups at hk
    obtain ⟨_, hk2⟩ := List.mem_filter.1 hk
    rw [Option.any_eq_true] at hk2
    obtain ⟨gk, hgk, hne'⟩ := hk2
    obtain ⟨g0, hg0, hl⟩ := hstar.direct a b g1 g2 e1 e2 hne hlen k gk hgk h0 (by simpa using hne')
    exact (hrec 0 k).2 ⟨fun e => h0 e.symm, g0, gk, hg0, hgk, hl⟩
  refine ⟨hk, ?_⟩
  have hpk := pairsOk st.oo frames hfr st.t h.groups h.groupObs h.lists st.objs n.ofVec op n.he []
    List.Pairwise.nil pp hpp
  have hmem : ∀ a b, (a, b) ∈ OMap.keys pp.pose → a ∈ observingGroups st.t.groups ∧ b ∈ observingGroups st.t.groups := by
    intro a b hab
    have := hpk.mem a b hab
    rwa [vertices_eq st.t h.groups] at this
  obtain ⟨ha, hb⟩ := hmem a b hab
  by_cases h0 : a = 0
  · exact h0 ▸ ha
  · exact (hmem _ _ (hk a ha h0)).1

/-- The first merge keeps the true poses, if the recorded pairs form a star. -/
private theorem merged_true (frames : List Nat) (hfr : frames.Pairwise (· < ·)) (obs : List (BoardObs P))
    (bpts : List (List Pt)) (n : Numerics V G) (st : State G Pt P) (h : Consistent bpts frames obs st)
    (hT : CamerasTrue w st.t.groups) (hI : InGroupTrue w n 2 st) (hsol : Solves n.he) (hstar : StarPairs w frames st)
    (pp : PairPoses G) (hpp : nonOverlapping n st = .ok pp)
    (m : OMap Nat (CamGroup G)) (hM : MergedGroups st.t.groups pp.pose m) : CamerasTrue w m := by
  obtain ⟨cs, c1, c2, c3⟩ := hM.classes
  intro i g q hg hq
  have hi : i < cs.length := by
    have : i ∈ OMap.keys m := OMap.mem_keys.2 ⟨g, hg⟩
    rw [hM.numbered, List.mem_range] at this
    omega
  obtain ⟨g', hg', d1, d2⟩ := c3 i _ (List.getElem?_eq_getElem hi)
  rw [hg] at hg'
  simp only [Option.some.injEq] at hg'
  subst hg'
  obtain ⟨r, hr⟩ : ∃ r, cs[i].head? = some r := by
    cases hc : cs[i] with
    | nil => exact absurd hc (c1.nonempty _ (List.getElem_mem hi))
    | cons r _ => exact ⟨r, rfl⟩
  have hin : ∀ j ∈ cs[i], j ∈ observingGroups st.t.groups := fun j hj =>
    c1.perm.subset (List.mem_flatten.2 ⟨_, List.getElem_mem hi, hj⟩)
  have hrc := Verif.Lemmas.Objects.mem_of_head? hr
  have hrk : r ∈ OMap.keys st.t.groups := by
    have := hin r hrc
    unfold observingGroups at this
    exact (List.mem_filter.1 this).1
  obtain ⟨gr, hgr⟩ := OMap.mem_keys.1 hrk
  -- poses relative to the reference camera of the first group of the class
  have key : ∀ q ∈ OMap.keys g.cameras, OMap.get? g.poses q = some (w.cam q * (w.cam gr.refCam)⁻¹) := by
    intro q hq
    obtain ⟨j, hj, gj, hgj, hqj⟩ := (d1 q).1 hq
    obtain ⟨r', p, hr', hp, hpe, hdir, hpose⟩ := d2 j hj gj hgj q _ (hT j gj q hgj hqj)
    rw [hr] at hr'
    simp only [Option.some.injEq] at hr'
    subst hr'
    rw [hpose]
    by_cases hjr : j = r
    · subst hjr
      rw [hgr] at hgj
      simp only [Option.some.injEq] at hgj
      subst hgj
      rw [Verif.Lemmas.Structure.isPath_self hp]
      simp
    -- a recorded pair leaves `r`
    have hpair : ∃ b, (r, b) ∈ OMap.keys pp.pose := by
      match p, hp, hpe with
      | [], hp, _ => exact absurd hp.head (by simp)
      | [a], hp, _ =>
        have e1 := hp.head
        have e2 := hp.last
        simp only [List.head?_cons, List.getLast?_singleton, Option.some.injEq] at e1 e2
        exact absurd (e2.symm.trans e1) hjr
      | a :: b :: rest, hp, hpe =>
        have e1 := hp.head
        simp only [List.head?_cons, Option.some.injEq] at e1
        subst e1
        exact ⟨b, hpe (a, b) (by simp)⟩
    obtain ⟨b, hb⟩ := hpair
    obtain ⟨hall, h0⟩ := star_recorded w frames hfr obs bpts n st h hstar pp hpp hb
    have hr0 : r = 0 := by
      by_contra hne
      have hmem : 0 ∈ cs[i] := (c1.linked _ (List.getElem_mem hi) r hrc 0).2
        (ReflTransGen.single (Or.inr (hall r (hin r hrc) hne)))
      have hs := c1.sorted _ (List.getElem_mem hi)
      cases hc : cs[i] with
      | nil => rw [hc] at hmem; cases hmem
      | cons x xs =>
        rw [hc] at hr hmem hs
        simp only [List.head?_cons, Option.some.injEq] at hr
        subst hr
        rcases List.mem_cons.1 hmem with h | h
        · exact hne h.symm
        · exact absurd ((List.pairwise_cons.1 hs).1 0 h) (Nat.not_lt_zero _)
    subst hr0
    have hrec := hall j (hin j hj) hjr
    obtain ⟨x, hx⟩ := OMap.mem_keys.1 hrec
    rw [hdir hrec]
    have := pair_true w frames hfr obs bpts n st h hI hsol pp hpp 0 j gr gj hgr hgj
      (fun _ hl => ⟨hstar.six 0 j gr gj hgr hgj (fun e => hjr e.symm) hl, hstar.rich j gr gj hgr hgj hjr hl⟩) x hx
    simp [hx, this]
  have href := key g.refCam (hM.collection.ref_mem i g hg)
  rw [hM.collection.ref_pose i g hg] at href
  simp only [Option.some.injEq] at href
  have hW : w.cam g.refCam = w.cam gr.refCam := (mul_inv_eq_one.1 href.symm)
  rw [key q hq, hW]

/-- Collecting the observations of the groups changes no pose. -/
private theorem regroup_true (oo : List (ObjObs P)) (frames : List Nat) (t t' : GroupTables G)
    (h : mergeAllCameraGroupObs oo frames t = .ok t') (hs : OMap.Sorted t.groups) (hT : CamerasTrue w t.groups) :
    CamerasTrue w t'.groups := by
  have hf : ∀ (cams : List Nat) (gi : Nat) (fs : List Nat)
      (a : CamGroup G × OMap (Nat × Nat) (List Nat) × OMap Nat (List Nat)),
      (fs.foldl (groupFrameStep oo cams gi) a).1.cameras = a.1.cameras ∧
      (fs.foldl (groupFrameStep oo cams gi) a).1.poses = a.1.poses ∧
      (fs.foldl (groupFrameStep oo cams gi) a).1.refCam = a.1.refCam := by
    intro cams gi fs
    induction fs with
    | nil => intro a; exact ⟨rfl, rfl, rfl⟩
    | cons f fs ih =>
      intro a
      rw [List.foldl_cons]
      obtain ⟨i1, i2, i3⟩ := ih (groupFrameStep oo cams gi a f)
      rw [i1, i2, i3]
      unfold groupFrameStep
      dsimp only
      split <;> exact ⟨rfl, rfl, rfl⟩
  unfold mergeAllCameraGroupObs initAllCameraGroupObs at h
  have h0 : OMap.Sorted ({ t with groupObs := [], frameGroups := [] } : GroupTables G).groups ∧
    CamerasTrue w ({ t with groupObs := [], frameGroups := [] } : GroupTables G).groups := ⟨hs, hT⟩
  refine (Outcome.foldlM_inv (fun t : GroupTables G => OMap.Sorted t.groups ∧ CamerasTrue w t.groups) ?_ h0 h).2
  rintro t t' e _ ⟨h1, h2⟩ h3
  unfold initCameraGroupObs at h3
  obtain ⟨g, hg, h3⟩ := Outcome.bind_eq_ok.1 h3
  have hg' : OMap.get? t.groups e.2.id = some g := by
    cases hh : OMap.get? t.groups e.2.id with
    | none => rw [hh] at hg; cases hg
    | some x => rw [hh, Outcome.deref_some] at hg; simpa using hg
  simp only [Outcome.pure_eq, Outcome.ok.injEq] at h3
  subst h3
  refine ⟨OMap.sorted_set _ _ _ h1, ?_⟩
  intro i x c hx hc
  obtain ⟨q1, q2, q3⟩ := hf g.camIdx e.2.id frames (g, t.groupObs, t.frameGroups)
  dsimp only at hx
  rw [OMap.get?_set _ _ _ _ h1] at hx
  split at hx
  · rename_i hi
    simp only [Option.some.injEq] at hx
    subst hx hi
    rw [q1] at hc
    rw [q2, q3]
    exact h2 _ g c hg' hc
  · exact h2 i x c hx hc

/-- A merge with pairs that link no two of the groups keeps their poses. -/
private theorem stale_true (gs : OMap Nat (CamGroup G)) (hC : Collection gs) (pp : PairPoses G)
    (hne : ∀ a b, (a, b) ∈ OMap.keys pp.pose → a ≠ b)
    (hsym : ∀ a b, (a, b) ∈ OMap.keys pp.pose → (b, a) ∈ OMap.keys pp.pose)
    (choose : Nat → Nat → Graph.DState → Nat)
    (hno : ∀ j c, j ∈ OMap.keys gs → c ∈ OMap.keys gs → ReflTransGen (Joined pp.pose) j c → j = c)
    (hT : CamerasTrue w gs) (m : OMap Nat (CamGroup G)) (hm : mergeWith gs pp choose = .ok m) :
    OMap.Sorted m ∧ CamerasTrue w m := by
  unfold mergeWith at hm
  generalize (fun k => (OMap.get? pp.cnt k).getD 0) = cnt at hm
  obtain ⟨hp, hc⟩ := Lemmas.StaleMerge.comps hne cnt (gs := gs)
  obtain ⟨m', pl, h1, hs, hpl, hk, h2⟩ := Lemmas.StaleMerge.stale_ok hC hne hsym cnt choose (by
    intro c hcm r hr
    by_contra hno
    rw [Lemmas.StaleMerge.stale_ub hC hne hsym cnt choose c hcm r hr hno] at hm
    cases hm)
  rw [hm] at h1
  simp only [Outcome.ok.injEq] at h1
  subst h1
  refine ⟨hs, ?_⟩
  intro i g q hg hq
  have hi : i ∈ OMap.keys m := OMap.mem_keys.2 ⟨g, hg⟩
  rw [hk, List.mem_range] at hi
  obtain ⟨g', r, e1, e2, e3⟩ := h2 i _ (List.getElem?_eq_getElem hi)
  rw [hg] at e2
  simp only [Option.some.injEq] at e2
  subst e2
  obtain ⟨r', f1, f2, _⟩ := Lemmas.StaleMerge.minElement_ok (hc _ (List.getElem_mem hi)).1
  rw [e1] at f1
  simp only [Outcome.ok.injEq] at f1
  subst f1
  obtain ⟨rg, hrg, href⟩ := e3.ref
  obtain ⟨j, hj, gj, hgj, hqj⟩ := (e3.keys q).1 hq
  have hrj : r = j := hno r j (OMap.mem_keys.2 ⟨rg, hrg⟩) (OMap.mem_keys.2 ⟨gj, hgj⟩)
    (((hc _ (List.getElem_mem hi)).2 r f2 j).1 hj)
  subst hrj
  rw [hrg] at hgj
  simp only [Option.some.injEq] at hgj
  subst hgj
  rw [e3.pose r hj rg hrg q _ (hT r rg q hrg hqj), hpl, mul_one, href]

end

section
variable [Group G] [SMul G Pt] [DecidableEq P] (nCam nBoard : Nat) (l : List (Insertion P Path))
  (hl : ∀ a ∈ l, a.obs.cam < nCam ∧ a.obs.board < nBoard) (s : Store P Path)
  (hs : Store.run nCam nBoard l = .ok s) (obs : List (BoardObs P))
  (hobs : Spec.Objects.SameViews s.obs obs) (bpts : List (List Pt)) (hb : bpts.length = nBoard)
  (n : Numerics V G) (w : World G) (hx : Exact w n bpts l s obs) (hy : ExactTail w n bpts s obs)

/-- There are at most two classes of cameras linked by common views. -/
def TwoGroups (nCam : Nat) (l : List (Insertion P Path)) (obs : List (BoardObs P)) : Prop :=
  ∀ a ∈ observingCams nCam l, ∀ b ∈ observingCams nCam l, ∀ c ∈ observingCams nCam l,
    ReflTransGen (CamsLinked l obs) a b ∨ ReflTransGen (CamsLinked l obs) a c ∨ ReflTransGen (CamsLinked l obs) b c

omit [DecidableEq P] in
private theorem two_classes {α : Type} {r : Nat → Nat → Prop} {vs : List Nat} (hnd : vs.Nodup) (f : α → List Nat)
    (cs : List α) (hp : IsPartition r vs (cs.map f))
    (h : ∀ a ∈ vs, ∀ b ∈ vs, ∀ c ∈ vs, ReflTransGen r a b ∨ ReflTransGen r a c ∨ ReflTransGen r b c) :
    cs.length ≤ 2 := by
  by_contra hlen
  have hget : ∀ i, i < 3 → ∃ c a, (cs.map f)[i]? = some c ∧ a ∈ c ∧ a ∈ vs := by
    intro i hi
    have hi' : i < (cs.map f).length := by rw [List.length_map]; omega
    have hm := List.getElem_mem hi'
    obtain ⟨a, ha⟩ := List.exists_mem_of_ne_nil _ (hp.nonempty _ hm)
    exact ⟨_, a, List.getElem?_eq_getElem hi', ha, hp.perm.subset (List.mem_flatten.2 ⟨_, hm, ha⟩)⟩
  obtain ⟨c0, a0, e0, m0, v0⟩ := hget 0 (by omega)
  obtain ⟨c1, a1, e1, m1, v1⟩ := hget 1 (by omega)
  obtain ⟨c2, a2, e2, m2, v2⟩ := hget 2 (by omega)
  have huse : ∀ (i j : Nat) (c c' : List Nat) (a a' : Nat), (cs.map f)[i]? = some c → (cs.map f)[j]? = some c' → a ∈ c → a' ∈ c' →
      ReflTransGen r a a' → i = j := by
    intro i j c c' a a' hc hc' ha ha' hr
    exact hp.index_unique hnd hc hc' ((hp.linked c (List.mem_of_getElem? hc) a ha a').2 hr) ha'
  rcases h a0 v0 a1 v1 a2 v2 with h | h | h
  · have := huse 0 1 c0 c1 a0 a1 e0 e1 m0 m1 h; omega
  · have := huse 0 2 c0 c2 a0 a2 e0 e2 m0 m2 h; omega
  · have := huse 1 2 c1 c2 a1 a2 e1 e2 m1 m2 h; omega

include hl hs hobs hb hx hy in
/-- C70: for at most two groups of cameras, the conditions on the pairs of groups are those on the motions. -/
theorem C70_two_groups (hsim : Simple G l obs) (htwo : TwoGroups nCam l obs) (st : State G Pt P) (h1 : overlapping n bpts s obs = .ok st)
    (hrich : RichPairs w (OMap.keys s.frames) st)
    (hsym : ∀ pp, nonOverlapping n st = .ok pp → ∀ a b, (a, b) ∈ OMap.keys pp.pose → (b, a) ∈ OMap.keys pp.pose) :
    StarPairs w (OMap.keys s.frames) st := by
  have hfr := frames_sorted nCam nBoard l hl s hs
  obtain ⟨st', e1, hC, e3⟩ := C52_overlapping nCam nBoard l hl s hs obs hobs bpts hb n
  rw [h1] at e1
  cases e1
  obtain ⟨st', e1, _, _, kk, hk⟩ := C70_overlapping nCam nBoard l hl s hs obs hobs bpts hb n w hx hsim
  rw [h1] at e1
  cases e1
  have hlen : st.t.groups.length ≤ 2 := by
    unfold groupCams at e3
    rw [List.map_map] at e3
    refine two_classes ?_ _ st.t.groups e3 htwo
    unfold observingCams
    exact List.nodup_range.filter _
  have hkk : kk ≤ 2 := by
    have := congrArg List.length hk
    simp only [OMap.keys, List.length_map, List.length_range] at this
    omega
  have hlt : ∀ i g, OMap.get? st.t.groups i = some g → i < 2 := by
    intro i g hg
    have : i ∈ OMap.keys st.t.groups := OMap.mem_keys.2 ⟨g, hg⟩
    rw [hk, List.mem_range] at this
    omega
  obtain ⟨pp, hpp⟩ := C52_enough nCam nBoard l hl s hs obs bpts n st hC (fun ps h => by
    obtain ⟨x, hx, _⟩ := hy.he ps h; exact ⟨x, hx⟩) fun i j gi gj hi hj hne h3 => (hrich i j gi gj hi hj hne h3).1
  have hsym := hsym pp hpp
  unfold nonOverlapping at hpp
  generalize refinePoses (n.inGroup 2) (objectPoses n.toVec n.avgV st.t st.oo (n.objPose 3)) = op at hpp
  have hrec := fun i j => (C22_recorded st.oo _ hfr st.t hC.groups hC.groupObs hC.lists st.objs n.ofVec op
    n.he [] pp List.Pairwise.nil hpp i j).1
  refine ⟨fun i j gi gj hi hj hne h3 => (hrich i j gi gj hi hj hne h3).1,
    fun j g0 gj h0 hj hne h3 => (hrich 0 j g0 gj h0 hj (fun e => hne e.symm) h3).2, ?_⟩
  intro i j gi gj hi hj hne h3 k gk hgk hk0 _
  have a1 := hlt i gi hi
  have a2 := hlt j gj hj
  have a3 := hlt k gk hgk
  have hij := (hrec i j).2 ⟨hne, gi, gj, hi, hj, h3⟩
  have h01 : (0, k) ∈ OMap.keys pp.pose := by
    have : (i = 0 ∧ j = k) ∨ (i = k ∧ j = 0) := by omega
    rcases this with ⟨rfl, rfl⟩ | ⟨rfl, rfl⟩
    · exact hij
    · exact hsym _ _ hij
  obtain ⟨_, g0, gk', z1, z2, z3⟩ := (hrec 0 k).1 h01
  rw [hgk] at z2
  cases z2
  exact ⟨g0, z1, z3⟩

include hl hs hobs hb hx hy in
/-- C70: the whole workflow from exact data. If the composition order of C19 does not matter in the groups of cameras, any
groups that share enough frames share them with group 0 too (as at most two groups do, `C70_two_groups`), with motions
that are rich enough, and the transforms found between groups are symmetric, the workflow succeeds and all boards and
cameras have their true poses. -/
theorem C70_workflow (hsim : Simple G l obs)
    (hstar : ∀ st, overlapping n bpts s obs = .ok st → StarPairs w (OMap.keys s.frames) st)
    (hsym : ∀ st, overlapping n bpts s obs = .ok st → ∀ pp, nonOverlapping n st = .ok pp →
      ∀ a b, (a, b) ∈ OMap.keys pp.pose → (b, a) ∈ OMap.keys pp.pose) :
    ∃ st, workflow n bpts s obs = .ok st ∧ StateTrue w st ∧ Spec.Objects.Collection bpts st.objs := by
  have hfr := frames_sorted nCam nBoard l hl s hs
  obtain ⟨st, h1, hT, hC, kk, hk⟩ := C70_overlapping nCam nBoard l hl s hs obs hobs bpts hb n w hx hsim
  have hhe : ∀ ps, 6 ≤ ps.length → ∃ x, n.he ps = .ok x := fun ps h => by
    obtain ⟨x, hx, _⟩ := hy.he ps h; exact ⟨x, hx⟩
  obtain ⟨st', pp, e1, hpp, e3⟩ := C53_searched nCam nBoard l hl s hs obs hobs bpts hb n fun st' h' => by
    obtain ⟨st'', e1, e2, _⟩ := C52_overlapping nCam nBoard l hl s hs obs hobs bpts hb n
    rw [h'] at e1
    cases e1
    exact C52_enough nCam nBoard l hl s hs obs bpts n st' e2 hhe fun i j gi gj hi hj hne h3 =>
      (hstar st' h').six i j gi gj hi hj hne h3
  rw [h1] at e1
  simp only [Outcome.ok.injEq] at e1
  subst e1
  have hs' := hsym st h1 pp hpp
  obtain ⟨st3, hst3, _, hokw⟩ := e3 hs'
  have hpk := pairsOk st.oo (OMap.keys s.frames) hfr st.t hC.groups hC.groupObs hC.lists st.objs n.ofVec _ n.he []
    List.Pairwise.nil pp hpp
  rcases C52_merge nCam nBoard l hl s hs obs hobs bpts n st hC pp hpp with
    ⟨st3', cs, k1, hC3, k3, k4, _⟩ | ⟨hth, _⟩
  swap
  · rw [hst3] at hth; cases hth
  rw [hst3] at k1
  simp only [Outcome.ok.injEq] at k1
  subst k1
  -- the state after the first merge
  obtain ⟨m, hm, hMG⟩ : ∃ m, mergeWith st.t.groups pp (n.choose 3) = .ok m ∧ MergedGroups st.t.groups pp.pose m := by
    rcases C23_merge st.oo (OMap.keys s.frames) hfr st.t hC.groups hC.groupObs hC.lists st.objs n.ofVec _ n.he []
      List.Pairwise.nil pp hpp (n.choose 3) with h | ⟨_, a, b, hab, hba⟩
    · exact h
    · exact absurd (hs' a b hab) hba
  have hmT := merged_true w (OMap.keys s.frames) hfr obs bpts n st hC hT.cameras (hy.inGroup st h1 hT) hy.he
    (hstar st h1) pp hpp m hMG
  obtain ⟨t, t1, t2, t3, t4, t5, t6⟩ := regroup_ok (Pt := Pt) st.oo (OMap.keys s.frames)
    (hfr.imp Nat.ne_of_lt) { st.t with groups := m } hMG.collection (by
      intro i g hg
      rw [(hMG.bare i g hg).2]
      exact List.Pairwise.nil)
  have hmg1 : mergeGroups1 n s pp st = .ok { st with t := t } := by
    unfold mergeGroups1
    rw [hm, Outcome.bind_ok, t1]
    rfl
  have hT1 : StateTrue w { st with t := t } := ⟨hT.boards, sameGroup w t6 hmT⟩
  have hC1 : Consistent bpts (OMap.keys s.frames) obs { st with t := t } := ⟨hC.objs, hC.sees, t2, t3, t4⟩
  obtain ⟨st2, j1, _⟩ := joinObjects_ok nCam nBoard l hl s hs obs hobs bpts n 4 _ hC1
  have hT2 := (join_true nCam nBoard l hl s hs obs hobs bpts n w hx.avg hx.avgV hx.vec 4 _ hC1 hT1
    (hy.pose4 st h1 pp hpp _ hmg1 hT1) st2 j1).1
  have hT3 : StateTrue w st3 := by
    have h3 := hst3
    unfold afterMerge at h3
    rw [hmg1, Outcome.bind_ok] at h3
    unfold mergeStage at h3
    rw [j1, Outcome.bind_ok] at h3
    exact hy.refine4 st h1 pp hpp _ hmg1 st2 j1 hT2 st3 h3
  have hpair : ∀ a b, (a, b) ∈ OMap.keys pp.pose → a ≠ b ∧ a ∈ observingGroups st.t.groups ∧
      b ∈ observingGroups st.t.groups := by
    intro a b hab
    have := hpk.mem a b hab
    rw [vertices_eq st.t hC.groups] at this
    exact ⟨hpk.ne a b hab, this⟩
  have hobsnd : (observingGroups st.t.groups).Nodup := by
    unfold observingGroups
    exact (OMap.keys_nodup hC.groups.sorted).filter _
  have hone : ∀ a b, (a, b) ∈ OMap.keys pp.pose → cs.length = 1 := by
    intro a b hab
    obtain ⟨hne, ha, hb'⟩ := hpair a b hab
    obtain ⟨hstar0, _⟩ := star_recorded w _ hfr obs bpts n st hC (hstar st h1) pp hpp hab
    have hlink : ∀ x ∈ observingGroups st.t.groups, ∀ y ∈ observingGroups st.t.groups,
        ReflTransGen (Joined pp.pose) x y := by
      intro x hx' y hy'
      have h0x : ReflTransGen (Joined pp.pose) x 0 := by
        by_cases h0 : x = 0
        · rw [h0]
        · exact ReflTransGen.single (Or.inr (hstar0 x hx' h0))
      have h0y : ReflTransGen (Joined pp.pose) 0 y := by
        by_cases h0 : y = 0
        · rw [h0]
        · exact ReflTransGen.single (Or.inl (hstar0 y hy' h0))
      exact h0x.trans h0y
    obtain ⟨c0, hc0, hac⟩ := List.mem_flatten.1 (k3.perm.symm.subset ha)
    obtain ⟨i0, hi0⟩ := List.mem_iff_getElem?.1 hc0
    have hall : ∀ i, i < cs.length → i = i0 := by
      intro i hi
      have hmi := List.getElem_mem hi
      obtain ⟨z, hz⟩ := List.exists_mem_of_ne_nil _ (k3.nonempty _ hmi)
      have hzv := k3.perm.subset (List.mem_flatten.2 ⟨_, hmi, hz⟩)
      exact k3.index_unique hobsnd (List.getElem?_eq_getElem hi) hi0 hz ((k3.linked c0 hc0 a hac z).2 (hlink a ha z hzv))
    have hi0' : i0 < cs.length := (List.getElem?_eq_some_iff.1 hi0).1
    by_contra hne1
    have h0 := hall 0 (by omega)
    have h1' := hall 1 (by omega)
    omega
  have hno : ∀ j c, j ∈ OMap.keys st3.t.groups → c ∈ OMap.keys st3.t.groups →
      ReflTransGen (Joined pp.pose) j c → j = c := by
    intro j c hj hc hr
    rw [k4, List.mem_range] at hj hc
    rcases hr.cases_head with h | ⟨z, hz, _⟩
    · exact h
    · rcases hz with hz | hz
      · have := hone _ _ hz; omega
      · have := hone _ _ hz; omega
  obtain ⟨st5, hst5⟩ := hokw (by
    rintro ⟨a, b, hab, horph⟩
    have h1c := hone a b hab
    obtain ⟨hne, ha, hb'⟩ := hpair a b hab
    obtain ⟨hstar0, _⟩ := star_recorded w _ hfr obs bpts n st hC (hstar st h1) pp hpp hab
    have hz : ReflTransGen (Joined pp.pose) a 0 := by
      by_cases h0 : a = 0
      · rw [h0]
      · exact ReflTransGen.single (Or.inr (hstar0 a ha h0))
    apply horph 0 hz
    rw [k4, List.mem_range]
    omega)
  refine ⟨st5, hst5, ?_⟩
  unfold workflow at hst5
  rw [h1, Outcome.bind_ok, hpp, Outcome.bind_ok, hst3, Outcome.bind_ok] at hst5
  obtain ⟨st4, h4, h5⟩ := Outcome.bind_eq_ok.1 hst5
  have hkeep := hy.refine5 st h1 pp hpp st3 hst3 st4 h4
  unfold mergeGroups2 at h4
  obtain ⟨m2, hm2, h4⟩ := Outcome.bind_eq_ok.1 h4
  obtain ⟨t', ht', h4⟩ := Outcome.bind_eq_ok.1 h4
  have h4' : { st3 with t := t' } = st4 := by simpa using h4
  obtain ⟨hm2s, hm2T⟩ := stale_true w st3.t.groups hC3.groups pp (fun a b h => hpk.ne a b h) hs' (n.choose 5) hno hT3.cameras m2 hm2
  subst h4'
  refine ⟨hkeep ⟨hT3.boards, regroup_true w _ _ _ _ ht' hm2s hm2T⟩ st5 h5, ?_⟩
  obtain ⟨objs', o1, o2, _⟩ := refineObjects_ok (n.board 5) st3.objs hC3.objs
  unfold refineAll at h5
  rw [o1, Outcome.bind_ok] at h5
  simp only [Outcome.pure_eq, Outcome.ok.injEq] at h5
  rw [← h5]
  exact o2

end

section
variable [Group G] [MulAction G Pt] (w : World G)

/-- C70: where boards, cameras and the object poses of the group observations are true, every corner of every object
is predicted, in every camera of the group, at its true position. -/
theorem C70_corners (n : Numerics V G) (k : Nat) (bpts : List (List Pt)) (st : State G Pt P) (hT : StateTrue w st)
    (hC : Spec.Objects.Collection bpts st.objs) (hI : InGroupTrue w n k st) (i : Nat) (g : CamGroup G)
    (hg : OMap.get? st.t.groups i = some g) (j : Nat) (o : Object G Pt) (ho : OMap.get? st.objs j = some o)
    (f : Nat) (hf : ∃ x ∈ st.oo, x.cam ∈ OMap.keys g.cameras ∧ x.frame = f ∧ x.obj = j)
    (c : Nat) (hc : c ∈ OMap.keys g.cameras) (e b q : Nat) (he : o.o2b[e]? = some (b, q)) :
    ∃ T y ps p, OMap.get? g.poses c = some T ∧ o.pts[e]? = some y ∧ bpts[b]? = some ps ∧ ps[q]? = some p ∧
      T • n.ofVec (n.inGroup k i f j) • y = w.cam c • w.motion f • w.board b • p := by
  obtain ⟨B, ps, p, h1, h2, h3, h4⟩ := (hC.good j o ho).posed.point e b q he
  have hb : b ∈ OMap.keys o.boards := by
    rw [← (hC.good j o ho).posed.keys]
    exact OMap.mem_keys.2 ⟨B, h1⟩
  rw [hT.boards j o b ho hb] at h1
  simp only [Option.some.injEq] at h1
  refine ⟨_, _, ps, p, hT.cameras i g c hg hc, h4, h2, h3, ?_⟩
  rw [hI i g j o f hg ho hf, ← h1]
  simp only [← mul_smul]
  congr 1
  group

end

end Verif.Props.Exact

namespace Verif.Props.Exact.Example
open Verif Verif.Objects Verif.Groups Verif.Pipeline Verif.NonOverlap Verif.Spec.Exact Verif.Spec.Pipeline
open Verif.Spec.NonOverlap Verif.Spec.Groups Verif.Props.NonOverlap
open Verif.Props.Pipeline Verif.Props.Exact

/-- The true poses. -/
def w : World S3 where
  cam c := [Equiv.swap 0 1, Equiv.swap 1 2, Equiv.swap 0 2].getD c 1
  motion f := [1, Equiv.swap 0 1, Equiv.swap 1 2, Equiv.swap 0 1 * Equiv.swap 1 2].getD f 1
  board b := [Equiv.swap 1 2, Equiv.swap 0 1, Equiv.swap 0 1 * Equiv.swap 1 2].getD b 1

/-- In each of six frames, camera 0 sees boards 0 and 1, camera 1 sees board 0, and camera 2 sees board 2 only. -/
def l : List (Insertion Nat Nat) :=
  (List.range 6).flatMap fun f => [det 0 f 0, det 0 f 1, det 1 f 0, det 2 f 2]

/-- All poses. -/
def all : List S3 := [1, Equiv.swap 0 1, Equiv.swap 1 2, Equiv.swap 0 2, Equiv.swap 0 1 * Equiv.swap 1 2,
  Equiv.swap 1 2 * Equiv.swap 0 1]

/-- A hand-eye solver: the first transform that explains all pairs. -/
def solve (ps : List (S3 × S3)) : Outcome S3 :=
  .ok ((all.find? fun x => all.any fun d => ps.all fun p => p.1⁻¹ * x * p.2 == d).getD 1)

def bpts : List (List (Fin 3)) := [[2], [0], [1]]

def s : Store Nat Nat := storeOf 3 3 l

/-- Camera, frame and reference board of each object observation (they are listed twice after the merge of
objects, see C17). -/
def views : List (Nat × Nat × Nat) :=
  let vs := [(0, 0), (1, 0), (2, 2)].flatMap fun c => (List.range 6).map fun f => (c.1, f, c.2)
  vs ++ vs

def n : Numerics S3 S3 where
  boardPose i := ((l[i]?).map fun a => w.cam a.obs.cam * (w.motion a.obs.frame * w.board a.obs.board)).getD 1
  objPose _ i := ((views[i]?).map fun v => w.cam v.1 * (w.motion v.2.1 * w.board v.2.2)).getD 1
  inGroup _ i f j := w.cam (2 * i) * (w.motion f * w.board (2 * j))
  board _ i b := (w.board (2 * i))⁻¹ * w.board b
  cam _ i c := w.cam c * (w.cam (2 * i))⁻¹
  avg := Props.Objects.firstOr
  avgV := Props.Objects.firstOr
  toVec g := g
  ofVec g := g
  he := solve
  choose _ _ _ _ := 0


/-- The result of a computation that succeeds. -/
def val {A : Type} (d : A) : Outcome A → A
  | .ok a => a
  | _ => d

theorem val_eq {A : Type} {d : A} {x : Outcome A} {a : A} (h : x = .ok a) : a = val d x := by rw [h]; rfl

def r0 : OMap Nat (Object S3 (Fin 3)) := val [] (buildObjects s n.boardPose n.avg bpts (n.choose 0))
def r : OMap Nat (Object S3 (Fin 3)) × List (ObjObs Nat) := val ([], []) (calibrateObjects n bpts s s.obs)
def none' : State S3 (Fin 3) Nat := ⟨[], [], { groups := [] }⟩
def g0 : State S3 (Fin 3) Nat := val none' (placeGroups n s r.1 r.2)
def g1 : State S3 (Fin 3) Nat := val none' (calibrateGroups n bpts s r.1 r.2)
def g2 : State S3 (Fin 3) Nat := val none' (joinObjects n 2 bpts s s.obs g1)
def g3 : State S3 (Fin 3) Nat := val none' (overlapping n bpts s s.obs)
def pp : PairPoses S3 := val {} (nonOverlapping n g3)
def g4 : State S3 (Fin 3) Nat := val none' (mergeGroups1 n s pp g3)
def g5 : State S3 (Fin 3) Nat := val none' (joinObjects n 4 bpts s s.obs g4)
def g6 : State S3 (Fin 3) Nat := val none' (afterMerge n bpts s s.obs pp g3)
def g7 : State S3 (Fin 3) Nat := val none' (mergeGroups2 n s pp g6)

theorem mem_of_get {A : Type} {m : OMap Nat A} {i : Nat} {a : A} (h : OMap.get? m i = some a) : (i, a) ∈ m := by
  induction m with
  | nil => cases h
  | cons e m ih =>
    obtain ⟨k, v⟩ := e
    simp only [OMap.get?] at h
    split at h
    · rename_i hk
      simp only [Option.some.injEq] at h
      rw [hk, h]
      simp
    · exact List.mem_cons_of_mem _ (ih h)

theorem boards_of {objs : OMap Nat (Object S3 (Fin 3))} (h : ∀ e ∈ objs, ∀ b ∈ OMap.keys e.2.boards,
    OMap.get? e.2.poses b = some ((w.board e.2.refBoard)⁻¹ * w.board b)) : BoardsTrue w objs :=
  fun i o b hi hb => h (i, o) (mem_of_get hi) b hb

theorem cams_of {gs : OMap Nat (CamGroup S3)} (h : ∀ e ∈ gs, ∀ c ∈ OMap.keys e.2.cameras,
    OMap.get? e.2.poses c = some (w.cam c * (w.cam e.2.refCam)⁻¹)) : CamerasTrue w gs :=
  fun i o b hi hb => h (i, o) (mem_of_get hi) b hb

theorem poses_of {objs : OMap Nat (Object S3 (Fin 3))} {oo : List (ObjObs Nat)} {pose : Nat → S3}
    (h : ∀ e ∈ oo.zipIdx, ∀ o ∈ objs, e.1.obj = o.1 →
      pose e.2 = w.cam e.1.cam * (w.motion e.1.frame * w.board o.2.refBoard)) : PosesTrue w objs oo pose := by
  intro k x o hx ho
  exact h (x, k) (List.mem_zipIdx_iff_getElem?.2 hx) (x.obj, o) (mem_of_get ho) rfl

theorem keeps_of {k : Nat} {st : State S3 (Fin 3) Nat}
    (h1 : ∀ e ∈ (val none' (refineAll n k bpts st)).objs, ∀ b ∈ OMap.keys e.2.boards,
      OMap.get? e.2.poses b = some ((w.board e.2.refBoard)⁻¹ * w.board b))
    (h2 : ∀ e ∈ (val none' (refineAll n k bpts st)).t.groups, ∀ c ∈ OMap.keys e.2.cameras,
      OMap.get? e.2.poses c = some (w.cam c * (w.cam e.2.refCam)⁻¹)) : Keeps w n k bpts st := by
  intro _ st' h
  rw [h] at h1 h2
  exact ⟨boards_of h1, cams_of h2⟩

theorem solves : Solves solve := by
  intro ps _
  refine ⟨_, rfl, ?_⟩
  rintro ⟨x', d, h⟩
  have hall : ∀ x : S3, x ∈ all := by decide +kernel
  cases hf : all.find? fun x => all.any fun d => ps.all fun p => p.1⁻¹ * x * p.2 == d with
  | none =>
    have := List.find?_eq_none.1 hf x' (hall x')
    exact absurd (by
      rw [List.any_eq_true]
      exact ⟨d, hall d, by simpa [List.all_eq_true] using fun a b hab => h (a, b) hab⟩) this
  | some x =>
    have := List.find?_some hf
    rw [List.any_eq_true] at this
    obtain ⟨d, _, hd⟩ := this
    refine ⟨d, fun p hp => ?_⟩
    have := List.all_eq_true.1 hd p hp
    simpa using this

theorem exact : Exact w n bpts l s s.obs where
  boardPose i a h := by
    show ((l[i]?).map _).getD 1 = _
    rw [h]; rfl
  avg zs x h h' := by
    cases zs with
    | nil => exact absurd rfl h
    | cons z zs => exact h' z (by simp)
  avgV zs x h h' := by
    cases zs with
    | nil => exact absurd rfl h
    | cons z zs => exact h' z (by simp)
  vec _ := rfl
  refine0 objs h _ objs' h' := by
    have := val_eq (d := []) h
    have e : objs' = val [] (refineObjects bpts (n.board 0) r0) := by
      rw [show r0 = objs from this.symm]; exact val_eq h'
    subst e
    exact boards_of (by decide +kernel)
  pose1 q h _ := by
    rw [show q = r from val_eq h]
    exact poses_of (by decide +kernel)
  refine1 q h st hst := by
    rw [show q = r from val_eq h] at hst
    rw [show st = g0 from val_eq hst]
    exact keeps_of (by decide +kernel) (by decide +kernel)
  pose2 q h st hst _ := by
    rw [show q = r from val_eq h] at hst
    rw [show st = g1 from val_eq hst]
    exact poses_of (by decide +kernel)
  refine2 q h st hst st' hst' := by
    rw [show q = r from val_eq h] at hst
    rw [show st = g1 from val_eq hst] at hst'
    rw [show st' = g2 from val_eq hst']
    exact keeps_of (by decide +kernel) (by decide +kernel)

theorem tail : ExactTail w n bpts s s.obs where
  inGroup st h _ := by
    rw [show st = g3 from val_eq h]
    intro i g j o f hg ho _
    have h1 : ∀ e ∈ g3.t.groups, e.2.refCam = 2 * e.1 := by decide +kernel
    have h2 : ∀ e ∈ g3.objs, e.2.refBoard = 2 * e.1 := by decide +kernel
    rw [h1 (i, g) (mem_of_get hg), h2 (j, o) (mem_of_get ho)]
    rfl
  he := solves
  pose4 st h p hp st1 h1 _ := by
    rw [show st = g3 from val_eq h] at hp h1
    rw [show p = pp from val_eq hp] at h1
    rw [show st1 = g4 from val_eq h1]
    exact poses_of (by decide +kernel)
  refine4 st h p hp st1 h1 st2 h2 := by
    rw [show st = g3 from val_eq h] at hp h1
    rw [show p = pp from val_eq hp] at h1
    rw [show st1 = g4 from val_eq h1] at h2
    rw [show st2 = g5 from val_eq h2]
    exact keeps_of (by decide +kernel) (by decide +kernel)
  refine5 st h p hp st3 h3 st4 h4 := by
    rw [show st = g3 from val_eq h] at hp h3
    rw [show p = pp from val_eq hp] at h3 h4
    rw [show st3 = g6 from val_eq h3] at h4
    rw [show st4 = g7 from val_eq h4]
    exact keeps_of (by decide +kernel) (by decide +kernel)

theorem coSeen {a b : Nat} (h : Relation.ReflTransGen (Spec.Objects.CoSeen l) a b) : a = 2 ↔ b = 2 := by
  induction h with
  | refl => rfl
  | tail _ h ih =>
    rw [ih]
    have : ∀ x ∈ l, ∀ y ∈ l, x.obs.cam = y.obs.cam → (x.obs.board = 2 ↔ y.obs.board = 2) := by decide +kernel
    obtain ⟨_, x, hx, y, hy, h1, _, h2, h3⟩ := h
    rw [← h2, ← h3]
    exact this x hx y hy h1

theorem linked {a b : Nat} (h : CamsLinked l s.obs a b) : (a = 0 ∧ b = 1) ∨ (a = 1 ∧ b = 0) := by
  obtain ⟨hne, x, hx, y, hy, rfl, rfl, _, _, _, h⟩ := h
  have h1 : ∀ x ∈ s.obs, x.cam ≤ 2 ∧ (x.cam = 2 ↔ x.board = 2) := by decide +kernel
  have := coSeen h
  have := h1 x hx
  have := h1 y hy
  omega

theorem linked_star {a b : Nat} (h : Relation.ReflTransGen (CamsLinked l s.obs) a b) : a = b ∨ (a ≤ 1 ∧ b ≤ 1) := by
  induction h with
  | refl => exact Or.inl rfl
  | tail _ h ih =>
    have := linked h
    omega

theorem linked01 : CamsLinked l s.obs 0 1 := by
  refine ⟨by decide, ?_⟩
  have : ∃ x ∈ s.obs, ∃ y ∈ s.obs, x.cam = 0 ∧ y.cam = 1 ∧ x.frame = y.frame ∧ x.pts ≠ [] ∧ y.pts ≠ [] ∧ x.board = y.board := by
    decide +kernel
  obtain ⟨x, hx, y, hy, h1, h2, h3, h4, h5, h6⟩ := this
  exact ⟨x, hx, y, hy, h1, h2, h3, h4, h5, h6 ▸ Relation.ReflTransGen.refl⟩

theorem linked10 : CamsLinked l s.obs 1 0 := by
  obtain ⟨_, x, hx, y, hy, h1, h2, h3, h4, h5, h6⟩ := linked01
  refine ⟨by decide, ?_⟩
  have : ∃ x ∈ s.obs, ∃ y ∈ s.obs, x.cam = 1 ∧ y.cam = 0 ∧ x.frame = y.frame ∧ x.pts ≠ [] ∧ y.pts ≠ [] ∧ x.board = y.board := by
    decide +kernel
  obtain ⟨x, hx, y, hy, h1, h2, h3, h4, h5, h6⟩ := this
  exact ⟨x, hx, y, hy, h1, h2, h3, h4, h5, h6 ▸ Relation.ReflTransGen.refl⟩

/-- Three cameras that see a board together in two frames meet `Simple` as well. -/
def l3 : List (Insertion Nat Nat) :=
  (List.range 2).flatMap fun f => [det 0 f 0, det 1 f 0, det 2 f 0]

example : Simple S3 l3 (l3.map (·.obs)) := by
  have hcam : ∀ {a b : Nat}, CamsLinked l3 (l3.map (·.obs)) a b → a ≤ 2 ∧ b ≤ 2 := by
    rintro a b ⟨_, x, hx, y, hy, rfl, rfl, _⟩
    have h1 : ∀ x ∈ l3.map (·.obs), x.cam ≤ 2 := by decide +kernel
    exact ⟨h1 x hx, h1 y hy⟩
  have hall : ∀ f < 2, ∀ a < 3, ∃ x ∈ l3.map (·.obs), x.cam = a ∧ x.frame = f ∧ x.board = 0 ∧ x.pts ≠ [] := by
    decide +kernel
  refine Or.inr fun r c h _ hne => Or.inl ?_
  have : r ≤ 2 ∧ c ≤ 2 := by
    have hc : ∀ {c}, Relation.ReflTransGen (CamsLinked l3 (l3.map (·.obs))) r c → c ≠ r → r ≤ 2 ∧ c ≤ 2 := by
      intro c h
      induction h with
      | refl => intro h; exact absurd rfl h
      | @tail b c _ hbc ih =>
        intro _
        by_cases hb : b = r
        · subst hb; exact hcam hbc
        · exact ⟨(ih hb).1, (hcam hbc).2⟩
    exact hc h hne
  obtain ⟨x, hx, a1, a2, a3, a4⟩ := hall 0 (by omega) r (by omega)
  obtain ⟨y, hy, b1, b2, b3, b4⟩ := hall 0 (by omega) c (by omega)
  obtain ⟨x', hx', c1, c2, c3, c4⟩ := hall 1 (by omega) r (by omega)
  obtain ⟨y', hy', d1, d2, d3, d4⟩ := hall 1 (by omega) c (by omega)
  exact ⟨x, hx, y, hy, x', hx', y', hy', ⟨a1, b1, by rw [a2, b2], a4, b4, by rw [a3, b3]⟩,
    ⟨c1, d1, by rw [c2, d2], c4, d4, by rw [c3, d3]⟩, Or.inl (by rw [a2, c2]; decide)⟩

/-- All hypotheses of C70 hold in the example, whose poses do not commute. -/
theorem hypotheses :
    (∀ a ∈ l, a.obs.cam < 3 ∧ a.obs.board < 3) ∧ Store.run 3 3 l = .ok s ∧ Spec.Objects.SameViews s.obs s.obs ∧
    Exact w n bpts l s s.obs ∧ ExactTail w n bpts s s.obs ∧ Simple S3 l s.obs ∧ TwoGroups 3 l s.obs ∧
    (∀ st, overlapping n bpts s s.obs = .ok st → RichPairs w (OMap.keys s.frames) st) ∧
    (∀ st, overlapping n bpts s s.obs = .ok st → ∀ p, nonOverlapping n st = .ok p →
      ∀ a b, (a, b) ∈ OMap.keys p.pose → (b, a) ∈ OMap.keys p.pose) := by
  refine ⟨by decide +kernel, by decide +kernel, ⟨rfl, by decide +kernel⟩, exact, tail, Or.inr ?_, ?_, ?_, ?_⟩
  · intro r c h1 _ hne
    refine Or.inr fun d h2 => ?_
    have := linked_star h1
    have := linked_star h2
    omega
  · intro a ha b hb c hc
    have hv : ∀ a ∈ observingCams 3 l, a ≤ 2 := by decide +kernel
    have ha := hv a ha
    have hb := hv b hb
    have hc := hv c hc
    have key : ∀ a b, a ≤ 1 → b ≤ 1 → Relation.ReflTransGen (CamsLinked l s.obs) a b := by
      intro a b h1 h2
      have : a = b ∨ (a = 0 ∧ b = 1) ∨ (a = 1 ∧ b = 0) := by omega
      rcases this with rfl | ⟨rfl, rfl⟩ | ⟨rfl, rfl⟩
      · exact Relation.ReflTransGen.refl
      · exact Relation.ReflTransGen.single linked01
      · exact Relation.ReflTransGen.single linked10
    by_cases hab : a = b
    · exact Or.inl (hab ▸ Relation.ReflTransGen.refl)
    by_cases hac : a = c
    · exact Or.inr (Or.inl (hac ▸ Relation.ReflTransGen.refl))
    by_cases hbc : b = c
    · exact Or.inr (Or.inr (hbc ▸ Relation.ReflTransGen.refl))
    have : (a ≤ 1 ∧ b ≤ 1) ∨ (a ≤ 1 ∧ c ≤ 1) ∨ (b ≤ 1 ∧ c ≤ 1) := by omega
    rcases this with h | h | h
    · exact Or.inl (key a b h.1 h.2)
    · exact Or.inr (Or.inl (key a c h.1 h.2))
    · exact Or.inr (Or.inr (key b c h.1 h.2))
  · intro st h
    rw [show st = g3 from val_eq h]
    have key : ∀ e ∈ g3.t.groups, ∀ e' ∈ g3.t.groups, e.1 ≠ e'.1 →
        ∀ y : S3, (∀ f ∈ jointFrames g3.oo (OMap.keys s.frames) e.2 e'.2 (chosen g3.objs g3.t g3.oo e.1 e'.1),
          ∀ f' ∈ jointFrames g3.oo (OMap.keys s.frames) e.2 e'.2 (chosen g3.objs g3.t g3.oo e.1 e'.1),
            (w.motion f)⁻¹ * y * w.motion f = (w.motion f')⁻¹ * y * w.motion f') → y = 1 := by decide +kernel
    have six : ∀ e ∈ g3.t.groups, ∀ e' ∈ g3.t.groups, e.1 ≠ e'.1 →
        6 ≤ (jointFrames g3.oo (OMap.keys s.frames) e.2 e'.2 (chosen g3.objs g3.t g3.oo e.1 e'.1)).length := by decide +kernel
    intro i j gi gj hi hj hne _
    exact ⟨six (i, gi) (mem_of_get hi) (j, gj) (mem_of_get hj) hne, key (i, gi) (mem_of_get hi) (j, gj) (mem_of_get hj) hne⟩
  · intro st h p hp
    rw [show st = g3 from val_eq h] at hp
    rw [show p = pp from val_eq hp]
    have : ∀ k ∈ OMap.keys pp.pose, (k.2, k.1) ∈ OMap.keys pp.pose := by decide +kernel
    exact fun a b h => this (a, b) h

/-- The three cameras end in one group, with their true poses, although camera 2 shares no view with the others. -/
example : ∃ st, workflow n bpts s s.obs = .ok st ∧ StateTrue w st ∧ groupCams st.t.groups = [(0, [0, 1, 2])] := by
  obtain ⟨h1, h2, h3, h4, h5, h6, h7, h8, h9⟩ := hypotheses
  obtain ⟨st, q1, q2, _⟩ := C70_workflow 3 3 l h1 s h2 s.obs h3 bpts rfl n w h4 h5 h6 (fun st h =>
    C70_two_groups 3 3 l h1 s h2 s.obs h3 bpts rfl n w h4 h5 h6 h7 st h (h8 st h) (h9 st h)) h9
  refine ⟨st, q1, q2, ?_⟩
  rw [show st = val none' (workflow n bpts s s.obs) from val_eq q1]
  decide +kernel

/-- The hypotheses of C70_pairs and C70_corners hold before the groups are merged, where both directions between the
two groups are recorded. -/
example : overlapping n bpts s s.obs = .ok g3 ∧ StateTrue w g3 ∧ Consistent bpts (OMap.keys s.frames) s.obs g3 ∧
    InGroupTrue w n 2 g3 ∧ RichPairs w (OMap.keys s.frames) g3 ∧ groupCams g3.t.groups = [(0, [0, 1]), (1, [2])] ∧
    nonOverlapping n g3 = .ok pp ∧ OMap.keys pp.pose = [(0, 1), (1, 0)] ∧
    g3.objs.map (fun e => e.2.o2b) = [[(0, 0), (1, 0)], [(2, 0)]] := by
  obtain ⟨h1, h2, h3, h4, h5, h6, h7, h8, h9⟩ := hypotheses
  obtain ⟨st, q1, q2, q3, _⟩ := C70_overlapping 3 3 l h1 s h2 s.obs h3 bpts rfl n w h4 h6
  have e : st = g3 := val_eq q1
  subst e
  exact ⟨q1, q2, q3, h5.inGroup _ q1 q2, h8 _ q1, by decide +kernel, by decide +kernel, by decide +kernel,
    by decide +kernel⟩

end Verif.Props.Exact.Example
