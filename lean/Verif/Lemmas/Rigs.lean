import Verif.Lemmas.Rooted
import Verif.Spec.Rigs

/-! Tables of two rigs of cameras with a target each. -/
namespace Verif.Lemmas.Rigs
open Verif Verif.Objects Verif.Groups Verif.NonOverlap Verif.Pipeline Verif.Spec.Pipeline
open Verif.Spec.Exact Verif.Spec.Structure Verif.Lemmas.Pipeline Verif.Lemmas.Program Verif.Lemmas.Rooted
open Verif.Spec.Rigs Verif.Spec.Objects Verif.Spec.Groups Verif.Spec.NonOverlap
open Relation

variable {V G Pt P Path : Type}

/-- The first board of each board is the least of its object. -/
def BoardsBy (fb : Nat → Nat) (B : List Nat) (objs : OMap Nat (Object G Pt)) : Prop :=
  ∀ i o, OMap.get? objs i = some o → ∀ b ∈ OMap.keys o.boards, b ∈ B ∧ fb b ∈ OMap.keys o.boards ∧ ∀ b' ∈ OMap.keys o.boards, fb b ≤ b'

/-- The first camera of each camera is the least of its group. -/
def CamsBy (fc : Nat → Nat) (gs : OMap Nat (CamGroup G)) : Prop :=
  ∀ e ∈ groupCams gs, ∀ c ∈ e.2, fc c ∈ e.2 ∧ ∀ c' ∈ e.2, fc c ≤ c'

theorem BoardsBy.ref [Group G] [SMul G Pt] {bpts : List (List Pt)} {fb : Nat → Nat} {B : List Nat} {objs : OMap Nat (Object G Pt)}
    (h : BoardsBy fb B objs) (hC : Spec.Objects.Collection bpts objs) {i : Nat} {o : Object G Pt}
    (ho : OMap.get? objs i = some o) {b : Nat} (hb : b ∈ OMap.keys o.boards) : o.refBoard = fb b :=
  le_antisymm (hC.ref_least i o ho _ (h i o ho b hb).2.1) ((h i o ho b hb).2.2 _ (hC.ref_mem i o ho))

theorem CamsBy.get {fc : Nat → Nat} {gs : OMap Nat (CamGroup G)} (hs : OMap.Sorted gs) (h : CamsBy fc gs)
    {i : Nat} {g : CamGroup G} (hg : OMap.get? gs i = some g) {c : Nat} (hc : c ∈ OMap.keys g.cameras) :
    fc c ∈ OMap.keys g.cameras ∧ ∀ c' ∈ OMap.keys g.cameras, fc c ≤ c' :=
  h (i, OMap.keys g.cameras) (List.mem_map.2 ⟨(i, g), (OMap.get?_eq_some hs).1 hg, rfl⟩) c hc

theorem CamsBy.ref [Group G] {fc : Nat → Nat} {gs : OMap Nat (CamGroup G)} (h : CamsBy fc gs) (hC : Spec.Groups.Collection gs)
    {i : Nat} {g : CamGroup G} (hg : OMap.get? gs i = some g) {c : Nat} (hc : c ∈ OMap.keys g.cameras) : g.refCam = fc c :=
  le_antisymm (hC.ref_least i g hg _ (h.get hC.sorted hg hc).1) ((h.get hC.sorted hg hc).2 _ (hC.ref_mem i g hg))

theorem BoardsBy.same {fb : Nat → Nat} {B : List Nat} {objs objs' : OMap Nat (Object G Pt)} (h : BoardsBy fb B objs) (hs : SameAll objs objs') :
    BoardsBy fb B objs' := by
  intro i o' ho'
  obtain ⟨o, ho, hso⟩ := hs.2 i o' ho'
  rw [hso.boards]
  exact h i o ho

section
variable [Group G] [SMul G Pt] {bpts : List (List Pt)} {w : World G} {fb fc : Nat → Nat} {B : List Nat} {n : Numerics V G} (k : Nat)
  (hboard : ∀ i b, n.board k i b = (w.board (fb b))⁻¹ * w.board b)
  (hcam : ∀ i c, n.cam k i c = w.cam c * (w.cam (fc c))⁻¹)

include hboard in
theorem boards_true {objs objs' : OMap Nat (Object G Pt)} (hC : Spec.Objects.Collection bpts objs)
    (hr : BoardsBy fb B objs) (h : refineObjects bpts (n.board k) objs = .ok objs') : BoardsTrue w objs' := by
  obtain ⟨m, h1, h2, h3, h4⟩ := foldlM_values (fun i o => refineObject bpts (n.board k i) o)
    (fun i o o' => SameObject o o' ∧ ∀ b ∈ OMap.keys o.poses, b ≠ o.refBoard → OMap.get? o'.poses b = some (n.board k i b))
    objs hC.sorted (by
      intro e he
      obtain ⟨o', k1, k2, k3, k4, k5⟩ := refineObject_ok (n.board k e.1) e.2
        (hC.good e.1 e.2 ((OMap.get?_eq_some hC.sorted).2 he))
      exact ⟨o', k1, k3, k5⟩)
  have h1' : refineObjects bpts (n.board k) objs = .ok m := h1
  rw [h1'] at h
  cases h
  intro i o' b ho' hb
  obtain ⟨o, ho, hso, hp⟩ := h4 i o' ho'
  rw [hso.boards] at hb
  have href := hr.ref hC ho hb
  rw [hso.ref]
  by_cases hbr : b = o.refBoard
  · rw [hbr, hso.refPose, hC.ref_pose i o ho, inv_mul_cancel]
  · rw [hp b ?_ hbr, hboard, href]
    rw [(hC.good i o ho).posed.keys]
    exact hb

include hcam in
theorem cams_true {gs : OMap Nat (CamGroup G)} (hC : Spec.Groups.Collection gs) (hr : CamsBy fc gs) :
    CamerasTrue w (refineGroups (n.cam k) gs) := by
  intro i g' c hg' hc
  rw [get?_refineGroups] at hg'
  obtain ⟨g, hg, rfl⟩ := Option.map_eq_some_iff.1 hg'
  obtain ⟨_, h2, h3, _, _, _, h7⟩ := refineGroup_same (n.cam k) i g
  rw [h2]
  rw [h3] at hc
  have href := hr.ref hC hg hc
  by_cases hcr : c = g.refCam
  · rw [hcr, h7, hC.ref_pose i g hg, mul_inv_cancel]
  · have hk : c ∈ OMap.keys g.poses := by rw [hC.poses i g hg]; exact hc
    obtain ⟨x, hx⟩ := OMap.mem_keys.1 hk
    show OMap.get? (g.poses.map fun p => (p.1, (fun c y => if c = g.refCam then y else n.cam k i c) p.1 p.2)) c = _
    rw [get?_mapVal (fun c y => if c = g.refCam then y else n.cam k i c), hx, Option.map_some, if_neg hcr, hcam, href]

include hboard hcam in
theorem keeps {frames : List Nat} {obs : List (BoardObs P)} {st : State G Pt P} (hC : Consistent bpts frames obs st)
    (hr : BoardsBy fb B st.objs) (hg : CamsBy fc st.t.groups) : Keeps w n k bpts st := by
  intro _ st' h
  unfold refineAll at h
  obtain ⟨objs', h1, h2⟩ := Outcome.bind_eq_ok.1 h
  simp only [Outcome.pure_eq, Outcome.ok.injEq] at h2
  subst h2
  exact ⟨boards_true k hboard hC.objs hr h1, cams_true k hcam hC.groups hg⟩

end

/-- One target and one rig as special cases. -/
theorem BoardsBy.of_root {b0 : Nat} {B : List Nat} {objs : OMap Nat (Object G Pt)} (h : BoardRoot b0 B objs) :
    BoardsBy (fun _ => b0) B objs :=
  fun i o ho b hb => ⟨((h i o ho).2 b hb).2, (h i o ho).1, fun b' hb' => ((h i o ho).2 b' hb').1⟩

theorem CamsBy.of_root {c0 : Nat} {gs : OMap Nat (CamGroup G)} (h : CamRoot c0 gs) : CamsBy (fun _ => c0) gs :=
  fun e he _ _ => h e he

/-! ### The classes -/

section
variable {nCam nBoard : Nat} {l : List (Insertion P Path)} {fc fb : Nat → Nat} {cs bs : List Nat}
  (hT : Rigs nCam nBoard l fc fb cs bs)

include hT in
theorem coSeen_same {b b' : Nat} (h : CoSeen l b b') : fb b = fb b' := by
  obtain ⟨_, x, hx, y, hy, e1, _, rfl, rfl⟩ := h
  exact (hT.own x hx y hy).1 (by rw [e1])

include hT in
theorem linked_boards {b b' : Nat} (h : ReflTransGen (CoSeen l) b b') : fb b = fb b' := by
  induction h with
  | refl => rfl
  | tail _ h ih => exact ih.trans (coSeen_same hT h)

include hT in
theorem linked_cams {c c' : Nat} (h : ReflTransGen (CamsLinked l (l.map (·.obs))) c c') : fc c = fc c' := by
  induction h with
  | refl => rfl
  | tail _ h ih =>
    refine ih.trans ?_
    obtain ⟨_, x, hx, y, hy, rfl, rfl, _, _, _, h2⟩ := h
    obtain ⟨a, ha, rfl⟩ := List.mem_map.1 hx
    obtain ⟨a', ha', rfl⟩ := List.mem_map.1 hy
    exact (hT.own a ha a' ha').2 (linked_boards hT h2)

include hT in
theorem boards_by {objs : OMap Nat (Object G Pt)} (hs : OMap.Sorted objs)
    (hp : IsPartition (CoSeen l) (observedBoards nBoard l) (objs.map fun e => OMap.keys e.2.boards)) :
    BoardsBy fb (observedBoards nBoard l) objs := by
  intro i o ho b hb
  have hm : OMap.keys o.boards ∈ objs.map fun e => OMap.keys e.2.boards :=
    List.mem_map.2 ⟨(i, o), (OMap.get?_eq_some hs).1 ho, rfl⟩
  have hin : ∀ b ∈ OMap.keys o.boards, b ∈ observedBoards nBoard l := fun b hb =>
    hp.perm.subset (List.mem_flatten.2 ⟨_, hm, hb⟩)
  refine ⟨hin b hb, (hp.linked _ hm b hb _).2 (hT.boards b (hin b hb)).2.2, fun b' hb' => ?_⟩
  rw [linked_boards hT ((hp.linked _ hm b hb b').1 hb')]
  exact (hT.boards b' (hin b' hb')).2.1

include hT in
theorem cams_by {gs : OMap Nat (CamGroup G)}
    (hp : IsPartition (CamsLinked l (l.map (·.obs))) (observingCams nCam l) ((groupCams gs).map (·.2))) : CamsBy fc gs := by
  intro e he c hc
  have hm : e.2 ∈ (groupCams gs).map (·.2) := List.mem_map_of_mem he
  have hin : ∀ c ∈ e.2, c ∈ observingCams nCam l := fun c hc =>
    hp.perm.subset (List.mem_flatten.2 ⟨_, hm, hc⟩)
  refine ⟨(hp.linked _ hm c hc _).2 (hT.cams c (hin c hc)).2.2, fun c' hc' => ?_⟩
  rw [linked_cams hT ((hp.linked _ hm c hc c').1 hc')]
  exact (hT.cams c' (hin c' hc')).2.1

end

/-- Entries numbered from 0 with increasing references. -/
theorem entries {A : Type} {m : OMap Nat A} {k : Nat} (hk : OMap.keys m = List.range k) {ref : A → Nat}
    (hinc : ∀ i j a b, OMap.get? m i = some a → OMap.get? m j = some b → i < j → ref a < ref b) {xs : List Nat}
    (hx : xs.Pairwise (· < ·)) (hin : ∀ i a, OMap.get? m i = some a → ref a ∈ xs)
    (hall : ∀ x ∈ xs, ∃ i a, OMap.get? m i = some a ∧ ref a = x) :
    (∀ i a, OMap.get? m i = some a → xs[i]? = some (ref a)) ∧
      ∀ (i : Nat) x, xs[i]? = some x → ∃ a, OMap.get? m i = some a ∧ ref a = x := by
  have hlt : ∀ i, i < k → ∃ a, OMap.get? m i = some a := fun i hi => OMap.mem_keys.1 (by rw [hk, List.mem_range]; exact hi)
  have hk' : ∀ i a, OMap.get? m i = some a → i < k := fun i a h => by
    have := OMap.mem_keys.2 ⟨a, h⟩
    rwa [hk, List.mem_range] at this
  have he : xs = (List.range k).map fun i => ((OMap.get? m i).map ref).getD 0 := by
    refine Verif.Lemmas.NonOverlap.nat_sorted_ext hx ?_ fun x => ?_
    · rw [List.pairwise_map]
      refine List.Pairwise.imp_of_mem ?_ (List.pairwise_lt_range (n := k))
      intro i j hi hj hij
      obtain ⟨a, ha⟩ := hlt i (List.mem_range.1 hi)
      obtain ⟨b, hb⟩ := hlt j (List.mem_range.1 hj)
      rw [ha, hb]
      exact hinc i j a b ha hb hij
    · rw [List.mem_map]
      constructor
      · intro h
        obtain ⟨i, a, ha, rfl⟩ := hall x h
        exact ⟨i, List.mem_range.2 (hk' i a ha), by rw [ha]; rfl⟩
      · rintro ⟨i, hi, rfl⟩
        obtain ⟨a, ha⟩ := hlt i (List.mem_range.1 hi)
        rw [ha]
        exact hin i a ha
  have hget : ∀ i a, OMap.get? m i = some a → xs[i]? = some (ref a) := by
    intro i a ha
    rw [he, List.getElem?_map, List.getElem?_range (hk' i a ha), Option.map_some, ha]
    rfl
  refine ⟨hget, fun i x h => ?_⟩
  have hi : i < k := by
    have := (List.getElem?_eq_some_iff.1 h).1
    rw [he] at this
    simpa using this
  obtain ⟨a, ha⟩ := hlt i hi
  refine ⟨a, ha, ?_⟩
  have := hget i a ha
  rw [h] at this
  exact (Option.some.inj this).symm

/-! ### Before the groups are merged -/

/-- The tables while the rigs are apart. -/
structure Apart [Group G] [SMul G Pt] (nCam nBoard : Nat) (l : List (Insertion P Path)) (fc fb : Nat → Nat) (bpts : List (List Pt)) (s : Store P Path)
    (st : State G Pt P) : Prop where
  consistent : Consistent bpts (OMap.keys s.frames) s.obs st
  boards : BoardsBy fb (observedBoards nBoard l) st.objs
  cams : CamsBy fc st.t.groups

section
variable [Group G] [MulAction G Pt] [DecidableEq P] (nCam nBoard : Nat) (l : List (Insertion P Path))
  (hl : ∀ a ∈ l, a.obs.cam < nCam ∧ a.obs.board < nBoard) (s : Store P Path)
  (hs : Store.run nCam nBoard l = .ok s) (hpts : ∀ a ∈ l, a.obs.pts ≠ [])
  (hobs : SameViews s.obs s.obs) (bpts : List (List Pt)) (hb : bpts.length = nBoard) (n : Numerics V G)
  {fc fb : Nat → Nat} {cs bs : List Nat} (hT : Rigs nCam nBoard l fc fb cs bs)

include hl hs in
omit [DecidableEq P] in
/-- Every observation comes from a detection. -/
theorem detected {st : State G Pt P} {frames : List Nat} (h : Consistent bpts frames s.obs st) {x : ObjObs P} (hx : x ∈ st.oo) :
    ∃ a ∈ l, a.obs.cam = x.cam ∧ a.obs.frame = x.frame ∧ ∃ o, OMap.get? st.objs x.obj = some o ∧ a.obs.board ∈ OMap.keys o.boards := by
  obtain ⟨o, ho, bo, hbo, e1, e2, e3, _⟩ := (h.sees x.obj x.cam x.frame).1 ⟨x, hx, rfl, rfl, rfl⟩
  rw [(store_desc nCam nBoard l hl s hs).obs] at hbo
  obtain ⟨a, ha, rfl⟩ := List.mem_map.1 hbo
  exact ⟨a, ha, e1, e2, o, ho, e3⟩

include hl hs hT in
omit [DecidableEq P] in
/-- Each rig sees one object. -/
theorem one_object {st : State G Pt P} (h : Apart nCam nBoard l fc fb bpts s st) {x y : ObjObs P} (hx : x ∈ st.oo)
    (hy : y ∈ st.oo) (e : fc x.cam = fc y.cam) : x.obj = y.obj := by
  obtain ⟨a, ha, a1, a2, o, ho, a3⟩ := detected nCam nBoard l hl s hs bpts h.consistent hx
  obtain ⟨a', ha', b1, b2, o', ho', b3⟩ := detected nCam nBoard l hl s hs bpts h.consistent hy
  have hfb := (hT.own a ha a' ha').1 (by rw [a1, b1, e])
  have e1 := h.boards.ref h.consistent.objs ho a3
  have e2 := h.boards.ref h.consistent.objs ho' b3
  have e3 : o.refBoard = o'.refBoard := by rw [e1, e2, hfb]
  exact h.consistent.objs.disjoint _ _ o o' ho ho' o.refBoard (h.consistent.objs.ref_mem _ o ho)
    (e3 ▸ h.consistent.objs.ref_mem _ o' ho')

include hl hs hT in
omit [DecidableEq P] in
theorem not_together {st : State G Pt P} (h : Apart nCam nBoard l fc fb bpts s st) (i j : Nat) :
    ¬ SeenTogether st.t.groups st.oo i j := by
  rintro ⟨hne, k, g, x, y, hg, hx, hy, _, cx, cy, rfl, rfl⟩
  refine hne (one_object nCam nBoard l hl s hs bpts hT h hx hy ?_)
  rw [← h.cams.ref h.consistent.groups hg cx, ← h.cams.ref h.consistent.groups hg cy]

include hl hs hobs hT in
/-- The first merge of objects keeps them. -/
theorem join_apart (k : Nat) {st st' : State G Pt P} (h : Apart nCam nBoard l fc fb bpts s st)
    (hj : joinObjects n k bpts s s.obs st = .ok st') :
    Apart nCam nBoard l fc fb bpts s st' ∧ (∃ k, OMap.keys st'.objs = List.range k) ∧
      groupCams st'.t.groups = groupCams st.t.groups := by
  obtain ⟨st1, p1, p2, p3, _, _, cs, m4, m5, m3, m6⟩ := joinObjects_ok nCam nBoard l hl s hs s.obs hobs bpts n k st h.consistent
  rw [hj] at p1
  cases p1
  refine ⟨⟨p2, ?_, ?_⟩, ⟨_, m3⟩, p3⟩
  · intro i o ho b hb
    have hi : i ∈ OMap.keys st'.objs := OMap.mem_keys.2 ⟨o, ho⟩
    rw [m3, List.mem_range, ← m5] at hi
    obtain ⟨o1, ho1, hbo⟩ := m6 i cs[i] (List.getElem?_eq_getElem hi)
    rw [ho] at ho1
    cases ho1
    obtain ⟨j, hj, oj, hoj, hbj⟩ := (hbo b).1 hb
    obtain ⟨q1, q2, q3⟩ := h.boards j oj hoj b hbj
    refine ⟨q1, (hbo _).2 ⟨j, hj, oj, hoj, q2⟩, fun b' hb' => ?_⟩
    obtain ⟨j', hj', oj', hoj', hbj'⟩ := (hbo b').1 hb'
    have : j' = j := by
      have := (m4.linked _ (List.getElem_mem hi) j hj j').1 hj'
      induction this with
      | refl => rfl
      | tail _ h2 _ => exact absurd h2 (not_together nCam nBoard l hl s hs bpts hT h _ _)
    subst this
    rw [hoj] at hoj'
    cases hoj'
    exact q3 b' hbj'
  · unfold CamsBy
    rw [p3]
    exact h.cams

omit [DecidableEq P] in
theorem refine_apart (k : Nat) {st st' : State G Pt P} (h : Apart nCam nBoard l fc fb bpts s st)
    (hj : refineAll n k bpts st = .ok st') :
    Apart nCam nBoard l fc fb bpts s st' ∧ OMap.keys st'.objs = OMap.keys st.objs ∧ groupCams st'.t.groups = groupCams st.t.groups := by
  obtain ⟨st1, r1, r2, r3, r4, r5, r6⟩ := refineAll_ok (frames := OMap.keys s.frames) (obs := s.obs) n k st h.consistent
  rw [hj] at r1
  cases r1
  refine ⟨⟨r2, h.boards.same ⟨r5, r6⟩, ?_⟩, r5, r3⟩
  unfold CamsBy
  rw [r3]
  exact h.cams

include hl hs hobs hb hT in
theorem place_apart (r : OMap Nat (Object G Pt) × List (ObjObs P)) (hr : Pipeline.calibrateObjects n bpts s s.obs = .ok r)
    (st : State G Pt P) (hst : placeGroups n s r.1 r.2 = .ok st) : Apart nCam nBoard l fc fb bpts s st := by
  obtain ⟨r', h1, h2, _, h4, objs, h5, h6, h7, h8⟩ := calibrateObjects_ok nCam nBoard l hl s hs s.obs hobs bpts hb n
  rw [hr] at h1
  cases h1
  obtain ⟨st1, g1, g2, g3, g4, g5, _⟩ := placeGroups_ok nCam nBoard l hl s hs s.obs hobs bpts n objs r.1 r.2 h5 h6 h2 h7 h8
  rw [hst] at g1
  cases g1
  refine ⟨g2, ?_, ?_⟩
  · rw [g5]
    exact boards_by hT h2.sorted h4
  · rw [Props.Pipeline.bothSee_eq nCam nBoard l hl s hs s.obs hobs r.1 objs h2.sorted h4 h7 h8,
      (store_desc nCam nBoard l hl s hs).obs] at g3
    exact cams_by hT g3

include hl hs hobs hb hT in
theorem groups_apart (r : OMap Nat (Object G Pt) × List (ObjObs P)) (hr : Pipeline.calibrateObjects n bpts s s.obs = .ok r)
    (st : State G Pt P) (hst : calibrateGroups n bpts s r.1 r.2 = .ok st) : Apart nCam nBoard l fc fb bpts s st := by
  unfold calibrateGroups at hst
  obtain ⟨st0, h1, h2⟩ := Outcome.bind_eq_ok.1 hst
  exact (refine_apart nCam nBoard l s bpts n 1 (place_apart nCam nBoard l hl s hs hobs bpts hb n hT r hr st0 h1) h2).1

include hl hs hobs hb hT in
theorem joined_apart (r : OMap Nat (Object G Pt) × List (ObjObs P)) (hr : Pipeline.calibrateObjects n bpts s s.obs = .ok r)
    (st : State G Pt P) (hst : calibrateGroups n bpts s r.1 r.2 = .ok st) (st' : State G Pt P)
    (hst' : joinObjects n 2 bpts s s.obs st = .ok st') :
    Apart nCam nBoard l fc fb bpts s st' ∧ ∃ k, OMap.keys st'.objs = List.range k := by
  have := join_apart nCam nBoard l hl s hs hobs bpts n hT 2
    (groups_apart nCam nBoard l hl s hs hobs bpts hb n hT r hr st hst) hst'
  exact ⟨this.1, this.2.1⟩

include hl hs hobs hb hT in
theorem overlapping_apart (st : State G Pt P) (hst : overlapping n bpts s s.obs = .ok st) :
    Apart nCam nBoard l fc fb bpts s st ∧ (∃ k, OMap.keys st.objs = List.range k) ∧ ∃ k, OMap.keys st.t.groups = List.range k := by
  obtain ⟨kk, hk⟩ := Props.Exact.overlapping_numbered nCam nBoard l hl s hs s.obs hobs bpts hb n st hst
  unfold overlapping at hst
  obtain ⟨r, h1, h2⟩ := Outcome.bind_eq_ok.1 hst
  obtain ⟨st0, h3, h4⟩ := Outcome.bind_eq_ok.1 h2
  unfold Pipeline.mergeStage at h4
  obtain ⟨st1, h5, h6⟩ := Outcome.bind_eq_ok.1 h4
  obtain ⟨a1, k, a2⟩ := joined_apart nCam nBoard l hl s hs hobs bpts hb n hT r h1 st0 h3 st1 h5
  obtain ⟨b1, b2, b3⟩ := refine_apart nCam nBoard l s bpts n 2 a1 h6
  exact ⟨b1, ⟨k, by rw [b2, a2]⟩, kk, hk⟩


/-- The rigs and targets in the tables: group `i` has the `i`-th first camera as its reference, object `i` the `i`-th first
board, and there are no others. -/
structure Table (cs bs : List Nat) (st : State G Pt P) : Prop where
  groups : ∀ i g, OMap.get? st.t.groups i = some g → cs[i]? = some g.refCam
  group : ∀ (i : Nat) c, cs[i]? = some c → ∃ g, OMap.get? st.t.groups i = some g ∧ g.refCam = c
  objects : ∀ i o, OMap.get? st.objs i = some o → bs[i]? = some o.refBoard
  object : ∀ (i : Nat) b, bs[i]? = some b → ∃ o, OMap.get? st.objs i = some o ∧ o.refBoard = b

omit [Group G] [MulAction G Pt] [DecidableEq P] in
include hl in
theorem mem_cams {a : Insertion P Path} (ha : a ∈ l) : a.obs.cam ∈ observingCams nCam l :=
  List.mem_filter.2 ⟨List.mem_range.2 (hl a ha).1, List.any_eq_true.2 ⟨a, ha, beq_iff_eq.2 rfl⟩⟩

omit [Group G] [MulAction G Pt] [DecidableEq P] in
include hl in
theorem mem_boards {a : Insertion P Path} (ha : a ∈ l) : a.obs.board ∈ observedBoards nBoard l :=
  List.mem_filter.2 ⟨List.mem_range.2 (hl a ha).2, List.any_eq_true.2 ⟨a, ha, beq_iff_eq.2 rfl⟩⟩

include hl hs hobs hb hT hpts in
theorem table (st : State G Pt P) (hst : overlapping n bpts s s.obs = .ok st) : Table cs bs st := by
  obtain ⟨hA, ⟨ko, hko⟩, kg, hkg⟩ := overlapping_apart nCam nBoard l hl s hs hobs bpts hb n hT st hst
  obtain ⟨_, j1, j2, j3⟩ := Lemmas.FinishRun.overlapping_joins nCam nBoard l hl s hs s.obs hobs bpts hb n st hst
  have hC := hA.consistent
  have hmem : ∀ a ∈ l, a.obs ∈ s.obs := fun a ha => by
    rw [(store_desc nCam nBoard l hl s hs).obs]; exact List.mem_map_of_mem ha
  obtain ⟨g1, g2⟩ := entries hkg hC.groups.ref_incr hT.cams_lt (fun i g hg => by
      have hm := hC.groups.ref_mem i g hg
      rw [hA.cams.ref hC.groups hg hm]
      exact (hT.cams _ (j3 i g hg _ hm)).1) (fun r hr => by
      obtain ⟨a, ha, rfl⟩ := hT.seeing r hr
      obtain ⟨i, g, hg, hc⟩ := j2 _ (hmem a ha) (hpts a ha)
      exact ⟨i, g, hg, hA.cams.ref hC.groups hg hc⟩)
  obtain ⟨o1, o2⟩ := entries hko hC.objs.ref_incr hT.boards_lt (fun i o ho => by
      have hm := hC.objs.ref_mem i o ho
      rw [hA.boards.ref hC.objs ho hm]
      exact (hT.boards _ (hA.boards i o ho _ hm).1).1) (fun r hr => by
      obtain ⟨a, ha, rfl⟩ := hT.seen r hr
      obtain ⟨i, o, ho, hc⟩ := j1.boards _ (hmem a ha) (hpts a ha)
      exact ⟨i, o, ho, hA.boards.ref hC.objs ho hc⟩)
  exact ⟨g1, g2, o1, o2⟩

end

end Verif.Lemmas.Rigs
