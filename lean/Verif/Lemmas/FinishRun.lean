import Verif.Lemmas.Finish
import Verif.Model.Finish
import Verif.Props.Pipeline

/-!
What holds at the end of a successful run: invariants of the stages of calibrate.cpp.
-/
namespace Verif.Lemmas.FinishRun
open Verif Verif.Structure Verif.Objects Verif.Groups Verif.GroupPose Verif.NonOverlap Verif.Pipeline
open Verif.Spec.Groups Verif.Spec.Structure Verif.Spec.NonOverlap Verif.Spec.Pipeline Verif.Lemmas.Pipeline
open Verif.Props.NonOverlap Verif.Props.Pipeline

variable {V G Pt P Path : Type}

/-- Every board with a corner left belongs to an object. -/
def BoardsIn (obs : List (BoardObs P)) (objs : OMap Nat (Object G Pt)) : Prop :=
  ∀ bo ∈ obs, bo.pts ≠ [] → ∃ i o, OMap.get? objs i = some o ∧ bo.board ∈ OMap.keys o.boards

/-- Every camera with a corner left belongs to a group. -/
def CamsIn (obs : List (BoardObs P)) (gs : OMap Nat (CamGroup G)) : Prop :=
  ∀ bo ∈ obs, bo.pts ≠ [] → ∃ i g, OMap.get? gs i = some g ∧ bo.cam ∈ OMap.keys g.cameras

/-- The cameras of the groups are among `C`. -/
def CamsFrom (C : List Nat) (gs : OMap Nat (CamGroup G)) : Prop :=
  ∀ i g, OMap.get? gs i = some g → ∀ c ∈ OMap.keys g.cameras, c ∈ C

/-- The views with an observation are those with a corner. -/
theorem views [Group G] [SMul G Pt] {bpts : List (List Pt)} {frames : List Nat} {obs : List (BoardObs P)}
    {st : State G Pt P} (h : Consistent bpts frames obs st) (hB : BoardsIn obs st.objs) (c f : Nat) :
    (∃ o ∈ st.oo, o.cam = c ∧ o.frame = f) ↔ ∃ bo ∈ obs, bo.cam = c ∧ bo.frame = f ∧ bo.pts ≠ [] := by
  constructor
  · rintro ⟨o, ho, h1, h2⟩
    obtain ⟨_, _, bo, hbo, q1, q2, _, q4⟩ := (h.sees o.obj c f).1 ⟨o, ho, rfl, h1, h2⟩
    exact ⟨bo, hbo, q1, q2, q4⟩
  · rintro ⟨bo, hbo, h1, h2, h3⟩
    obtain ⟨i, ob, hob, hmem⟩ := hB bo hbo h3
    obtain ⟨o, ho, _, q2, q3⟩ := (h.sees i c f).2 ⟨ob, hob, bo, hbo, h1, h2, hmem, h3⟩
    exact ⟨o, ho, q2, q3⟩

theorem mem_groupCams {gs : OMap Nat (CamGroup G)} (hs : OMap.Sorted gs) {c : Nat} :
    (∃ i g, OMap.get? gs i = some g ∧ c ∈ OMap.keys g.cameras) ↔ ∃ e ∈ groupCams gs, c ∈ e.2 := by
  unfold groupCams
  constructor
  · rintro ⟨i, g, hg, hc⟩
    exact ⟨(i, OMap.keys g.cameras), List.mem_map.2 ⟨(i, g), (OMap.get?_eq_some hs).1 hg, rfl⟩, hc⟩
  · rintro ⟨e, he, hc⟩
    obtain ⟨⟨i, g⟩, hm, rfl⟩ := List.mem_map.1 he
    exact ⟨i, g, (OMap.get?_eq_some hs).2 hm, hc⟩

theorem camsIn_congr {obs : List (BoardObs P)} {gs gs' : OMap Nat (CamGroup G)} (hs : OMap.Sorted gs)
    (hs' : OMap.Sorted gs') (he : groupCams gs' = groupCams gs) (h : CamsIn obs gs) : CamsIn obs gs' := by
  intro bo hbo hp
  rw [mem_groupCams hs', he, ← mem_groupCams hs]
  exact h bo hbo hp

theorem camsFrom_congr {C : List Nat} {gs gs' : OMap Nat (CamGroup G)} (hs : OMap.Sorted gs)
    (hs' : OMap.Sorted gs') (he : groupCams gs' = groupCams gs) (h : CamsFrom C gs) : CamsFrom C gs' := by
  intro i g hg c hc
  have := (mem_groupCams hs').1 ⟨i, g, hg, hc⟩
  rw [he, ← mem_groupCams hs] at this
  obtain ⟨j, g', hg', hc'⟩ := this
  exact h j g' hg' c hc'

/-! ### Group observations, exactly -/

theorem groupSees_mem {oo : List (ObjObs P)} {cams : List Nat} {f i : Nat} (h : i ∈ groupSees oo cams f) :
    ∃ o, oo[i]? = some o ∧ o.cam ∈ cams := by
  unfold groupSees at h
  have := (List.mem_filter.1 h).2
  cases ho : oo[i]? with
  | none => rw [ho] at this; cases this
  | some o => rw [ho] at this; exact ⟨o, rfl, by simpa using this⟩

/-- After the groups forgot their observations, they list only observations of their cameras; the frames list exactly
the groups with an observation. -/
theorem regroup_exact [Group G] (oo : List (ObjObs P)) (frames : List Nat) (hnd : frames.Nodup)
    (t0 : GroupTables G) (hC : Collection t0.groups)
    (hfs : ∀ i g, OMap.get? t0.groups i = some g → OMap.Sorted g.frames) (t : GroupTables G)
    (ht : mergeAllCameraGroupObs oo frames t0 = .ok t) :
    OMap.keys t.groups = OMap.keys t0.groups ∧
    (∀ f, (OMap.get? t.frameGroups f).getD [] = (OMap.keys t.groups).filter fun i =>
        (OMap.get? t.groupObs (i, f)).isSome) ∧
    (∀ i g g0, OMap.get? t.groups i = some g → OMap.get? t0.groups i = some g0 → g0.objObs = [] →
      g.objObs ≠ [] → ∃ o ∈ oo, o.cam ∈ OMap.keys g.cameras) ∧
    (∀ i g g0, OMap.get? t.groups i = some g → OMap.get? t0.groups i = some g0 → g0.frames = [] →
      ∀ f, f ∈ OMap.keys g.frames ↔ (OMap.get? t.groupObs (i, f)).isSome) := by
  have hid : ∀ e ∈ t0.groups, e.2.id = e.1 := fun e he =>
    hC.id e.1 e.2 ((OMap.get?_eq_some hC.sorted).2 he)
  obtain ⟨t', h1, h2⟩ := Lemmas.Groups.groupsDone oo frames hnd t0.groups hC.sorted hfs (OMap.keys t0.groups)
    (OMap.keys_nodup hC.sorted) fun i hi => hi
  obtain ⟨t'', k1, _, _, k4⟩ := Props.Groups.C20_groupObs oo frames hnd t0.groups hC hfs t0 rfl
  rw [ht] at k1
  simp only [Outcome.ok.injEq] at k1
  subst k1
  unfold mergeAllCameraGroupObs at ht
  rw [Lemmas.Groups.initAllCameraGroupObs_eq oo frames { groups := t0.groups } hid, h1] at ht
  simp only [Outcome.ok.injEq] at ht
  subst ht
  have hkeys : OMap.keys t'.groups = OMap.keys t0.groups := by
    apply OMap.sorted_keys_ext (OMap.keys_sorted h2.sorted) (OMap.keys_sorted hC.sorted)
    intro i
    rw [OMap.mem_keys, OMap.mem_keys, h2.groups i]
    constructor
    · rintro ⟨g, hg⟩
      obtain ⟨g0, h0, _⟩ := Option.map_eq_some_iff.1 hg
      exact ⟨g0, h0⟩
    · rintro ⟨g0, h0⟩
      rw [h0]
      exact ⟨_, rfl⟩
  refine ⟨hkeys, ?_, ?_, ?_⟩
  · rw [hkeys]; exact k4
  · intro i g g0 hg hg0 h0 hne
    have hi : i ∈ OMap.keys t0.groups := OMap.mem_keys.2 ⟨g0, hg0⟩
    have := h2.groups i
    rw [hg, hg0, Option.map_some, if_pos hi, Option.some.injEq] at this
    rw [this] at hne ⊢
    dsimp only at hne ⊢
    rw [h0, List.nil_append] at hne
    obtain ⟨x, hx⟩ := List.exists_mem_of_ne_nil _ hne
    obtain ⟨f, _, hxf⟩ := List.mem_flatMap.1 hx
    obtain ⟨o, ho, hc⟩ := groupSees_mem hxf
    exact ⟨o, List.mem_of_getElem? ho, ((hC.camIdx i g0 hg0).mem_iff).1 hc⟩
  · intro i g g0 hg hg0 h0 f
    have hi : i ∈ OMap.keys t0.groups := OMap.mem_keys.2 ⟨g0, hg0⟩
    rw [h2.group_frames i g g0 hg hg0 hi f, h0]
    constructor
    · rintro (h | ⟨h, hne⟩)
      · cases h
      · rw [Option.isSome_iff_exists]
        exact ⟨_, (h2.obs i f _).2 ⟨hi, g0, hg0, h, rfl, hne⟩⟩
    · intro h
      obtain ⟨is, his⟩ := Option.isSome_iff_exists.1 h
      obtain ⟨_, g1, hg1, hf, rfl, hne⟩ := (h2.obs i f is).1 his
      rw [hg0] at hg1
      simp only [Option.some.injEq] at hg1
      subst hg1
      exact Or.inr ⟨hf, hne⟩

/-! ### Refinement and merging of objects -/

theorem refineAll_inv [Group G] [SMul G Pt] {n : Numerics V G} {k : Nat} {bpts : List (List Pt)}
    {st st' : State G Pt P} (h : refineAll n k bpts st = .ok st') :
    st'.oo = st.oo ∧ st'.t = { st.t with groups := refineGroups (n.cam k) st.t.groups } := by
  unfold refineAll at h
  obtain ⟨objs, _, h2⟩ := Outcome.bind_eq_ok.1 h
  simp only [Outcome.pure_eq, Outcome.ok.injEq] at h2
  subst h2
  exact ⟨rfl, rfl⟩

theorem flatMap_keys {A B : Type} (F : A → List B) {m : OMap Nat A} (hm : OMap.Sorted m) :
    m.flatMap (fun e => F e.2) = (OMap.keys m).flatMap fun i => ((OMap.get? m i).map F).getD [] := by
  unfold OMap.keys
  rw [List.flatMap_map]
  apply List.flatMap_congr
  intro e he
  rw [(OMap.get?_eq_some hm).2 (show (e.1, e.2) ∈ m from he)]
  rfl

theorem allObjObs_same (obs : List (BoardObs P)) (vs : List (Nat × Nat)) {o o' : Object G Pt} (h : SameObject o o') :
    Spec.Objects.allObjObs o' obs vs = Spec.Objects.allObjObs o obs vs := by
  unfold Spec.Objects.allObjObs Spec.Objects.objObs Spec.Objects.seenOf
  have : Spec.Objects.objNumber o' = Spec.Objects.objNumber o := by
    funext b k
    unfold Spec.Objects.objNumber
    rw [h.o2b]
  rw [h.id, h.boards, this]

/-- The observations of all objects, each once. -/
def once (obs : List (BoardObs P)) (vs : List (Nat × Nat)) (objs : OMap Nat (Object G Pt)) : List (ObjObs P) :=
  objs.flatMap fun e => Spec.Objects.allObjObs e.2 obs vs

theorem once_same (obs : List (BoardObs P)) (vs : List (Nat × Nat)) {objs objs' : OMap Nat (Object G Pt)}
    (hs : OMap.Sorted objs) (hs' : OMap.Sorted objs') (hk : OMap.keys objs' = OMap.keys objs)
    (hso : ∀ i o', OMap.get? objs' i = some o' → ∃ o, OMap.get? objs i = some o ∧ SameObject o o') :
    once obs vs objs' = once obs vs objs := by
  unfold once
  rw [flatMap_keys (fun o => Spec.Objects.allObjObs o obs vs) hs,
    flatMap_keys (fun o => Spec.Objects.allObjObs o obs vs) hs', hk]
  apply List.flatMap_congr
  intro i hi
  rw [← hk] at hi
  obtain ⟨o', ho'⟩ := OMap.mem_keys.1 hi
  obtain ⟨o, ho, h⟩ := hso i o' ho'
  rw [ho, ho', Option.map_some, Option.map_some, allObjObs_same obs vs h]

section
variable [Group G] [SMul G Pt] [DecidableEq P] (nCam nBoard : Nat) (l : List (Insertion P Path))
  (hl : ∀ a ∈ l, a.obs.cam < nCam ∧ a.obs.board < nBoard) (s : Store P Path)
  (hs : Store.run nCam nBoard l = .ok s) (obs : List (BoardObs P))
  (hobs : Spec.Objects.SameViews s.obs obs) (bpts : List (List Pt)) (hb : bpts.length = nBoard)
  (n : Numerics V G)

/-- What a merge of objects establishes besides consistency. -/
structure Joins (s : Store P Path) (obs : List (BoardObs P)) (st : State G Pt P) : Prop where
  boards : BoardsIn obs st.objs
  seen : ∀ i g, OMap.get? st.t.groups i = some g → g.objObs ≠ [] → ∃ o ∈ st.oo, o.cam ∈ OMap.keys g.cameras
  shape : st.oo = (List.replicate st.objs.length (once obs (OMap.keys s.camObs) st.objs)).flatten

include hl hs hobs in
theorem joinObjects_joins (k : Nat) (st st' : State G Pt P) (h : Consistent bpts (OMap.keys s.frames) obs st)
    (hB : BoardsIn obs st.objs) (hst : joinObjects n k bpts s obs st = .ok st') : Joins s obs st' := by
  obtain ⟨st1, p1, p2, p3, _, _, cs, m4, m5, m3, m6⟩ :=
    joinObjects_ok nCam nBoard l hl s hs obs hobs bpts n k st h
  rw [hst] at p1
  simp only [Outcome.ok.injEq] at p1
  subst p1
  unfold joinObjects at hst
  obtain ⟨m, q1, hst⟩ := Outcome.bind_eq_ok.1 hst
  obtain ⟨all, q2, hst⟩ := Outcome.bind_eq_ok.1 hst
  obtain ⟨t, q3, hst⟩ := Outcome.bind_eq_ok.1 hst
  simp only [Outcome.pure_eq, Outcome.ok.injEq] at hst
  subst hst
  have hget : ∀ i, OMap.get? (forget st.t.groups) i = (OMap.get? st.t.groups i).map fun g => { g with objObs := [] } :=
    fun i => get?_mapVal (B := CamGroup G) (fun _ (g : CamGroup G) => { g with objObs := [] }) st.t.groups i
  have hforget : Collection (forget st.t.groups) :=
    groups_congr (fun _ g => { g with objObs := [] }) (fun _ g => forget_same g) _ h.groups
  have hnd := (frames_sorted nCam nBoard l hl s hs).imp Nat.ne_of_lt
  obtain ⟨e1, _, e3, _⟩ := regroup_exact all (OMap.keys s.frames) hnd
    { st.t with groups := forget st.t.groups } hforget (by
      intro i g hg
      dsimp only at hg
      rw [hget] at hg
      obtain ⟨g0, h0, rfl⟩ := Option.map_eq_some_iff.1 hg
      exact h.lists.sorted i g0 h0) t q3
  refine ⟨?_, ?_, ?_⟩
  · intro bo hbo hp
    obtain ⟨j, oj, hj, hmem⟩ := hB bo hbo hp
    obtain ⟨o, ho, ho1, _⟩ := (h.sees j bo.cam bo.frame).2 ⟨oj, hj, bo, hbo, rfl, rfl, hmem, hp⟩
    have hjo : j ∈ observedObjects st.objs st.oo := by
      unfold observedObjects
      rw [List.mem_filter, List.any_eq_true]
      exact ⟨OMap.mem_keys.2 ⟨oj, hj⟩, o, ho, by simpa using ho1⟩
    obtain ⟨c, hc, hjc⟩ := List.mem_flatten.1 (m4.perm.symm.subset hjo)
    obtain ⟨i, hi⟩ := List.getElem?_of_mem hc
    obtain ⟨o', ho', hbo'⟩ := m6 i c hi
    exact ⟨i, o', ho', (hbo' bo.board).2 ⟨j, hjc, oj, hj, hmem⟩⟩
  · intro i g hg hne
    have hi : i ∈ OMap.keys t.groups := OMap.mem_keys.2 ⟨g, hg⟩
    rw [e1] at hi
    obtain ⟨g0, hg0⟩ := OMap.mem_keys.1 hi
    refine e3 i g g0 hg hg0 ?_ hne
    dsimp only at hg0
    rw [hget] at hg0
    obtain ⟨g1, _, rfl⟩ := Option.map_eq_some_iff.1 hg0
    rfl
  · obtain ⟨all', o', r1, r2, r3, _⟩ := Props.Objects.C25_duplicates nCam nBoard l hl s hs obs hobs bpts m p2.objs
    rw [q2] at r1
    simp only [Outcome.ok.injEq] at r1
    subst r1
    rw [Props.Objects.C16_observations nCam nBoard l hl s hs obs hobs bpts m p2.objs] at r2
    simp only [Outcome.ok.injEq] at r2
    subst r2
    exact r3

omit [DecidableEq P] in
theorem refineAll_joins (k : Nat) (st st' : State G Pt P) (h : Consistent bpts (OMap.keys s.frames) obs st)
    (hJ : Joins s obs st) (hst : refineAll n k bpts st = .ok st') : Joins s obs st' := by
  obtain ⟨st1, r1, r2, r3, r4, r5, r6⟩ := refineAll_ok (frames := OMap.keys s.frames) (obs := obs) n k st h
  rw [hst] at r1
  simp only [Outcome.ok.injEq] at r1
  subst r1
  obtain ⟨i1, i2⟩ := refineAll_inv hst
  refine ⟨?_, ?_, ?_⟩
  · intro bo hbo hp
    obtain ⟨i, o, ho, hmem⟩ := hJ.boards bo hbo hp
    have hi : i ∈ OMap.keys st'.objs := by rw [r5]; exact OMap.mem_keys.2 ⟨o, ho⟩
    obtain ⟨o', ho'⟩ := OMap.mem_keys.1 hi
    obtain ⟨o2, ho2, hso⟩ := r6 i o' ho'
    rw [ho] at ho2
    simp only [Option.some.injEq] at ho2
    subst ho2
    exact ⟨i, o', ho', by rw [hso.boards]; exact hmem⟩
  · intro i g hg hne
    rw [i2] at hg
    dsimp only at hg
    rw [get?_refineGroups] at hg
    obtain ⟨g0, hg0, rfl⟩ := Option.map_eq_some_iff.1 hg
    rw [i1]
    exact hJ.seen i g0 hg0 hne
  · rw [i1, hJ.shape, once_same obs _ h.objs.sorted r2.objs.sorted r5 r6]
    have : st'.objs.length = st.objs.length := by
      have := congrArg List.length r5
      simpa [OMap.keys] using this
    rw [this]

include hl hs hobs in
theorem mergeStage_joins (k : Nat) (st st' : State G Pt P) (h : Consistent bpts (OMap.keys s.frames) obs st)
    (hB : BoardsIn obs st.objs) (hst : mergeStage n k bpts s obs st = .ok st') : Joins s obs st' := by
  obtain ⟨st1, p1, p2, _⟩ := joinObjects_ok nCam nBoard l hl s hs obs hobs bpts n k st h
  have hJ := joinObjects_joins nCam nBoard l hl s hs obs hobs bpts n k st st1 h hB p1
  unfold mergeStage at hst
  rw [p1, Outcome.bind_ok] at hst
  exact refineAll_joins s obs bpts n k st1 st' p2 hJ hst

omit [DecidableEq P] in
include hl hs hobs in
/-- A board observation stems from a stored detection. -/
theorem stored (bo : BoardObs P) (hbo : bo ∈ obs) :
    bo.board ∈ Spec.Objects.observedBoards nBoard l ∧ bo.cam ∈ observingCams nCam l := by
  have hd := store_desc nCam nBoard l hl s hs
  have hk : (bo.cam, bo.frame, bo.board) ∈ s.obs.map fun o => (o.cam, o.frame, o.board) := by
    rw [← hobs.keys]; exact List.mem_map.2 ⟨bo, hbo, rfl⟩
  obtain ⟨o1, ho1, he⟩ := List.mem_map.1 hk
  rw [hd.obs] at ho1
  obtain ⟨ins, hins, rfl⟩ := List.mem_map.1 ho1
  simp only [Prod.mk.injEq] at he
  constructor
  · unfold Spec.Objects.observedBoards
    rw [List.mem_filter, List.mem_range, List.any_eq_true]
    exact ⟨by rw [← he.2.2]; exact (hl ins hins).2, ins, hins, by simpa using he.2.2⟩
  · unfold observingCams
    rw [List.mem_filter, List.mem_range, List.any_eq_true]
    exact ⟨by rw [← he.1]; exact (hl ins hins).1, ins, hins, by simpa using he.1⟩

include hl hs hobs hb in
theorem overlapping_joins (st : State G Pt P) (hst : overlapping n bpts s obs = .ok st) :
    Consistent bpts (OMap.keys s.frames) obs st ∧ Joins s obs st ∧ CamsIn obs st.t.groups ∧
      CamsFrom (observingCams nCam l) st.t.groups := by
  obtain ⟨st0, a1, a2, a3⟩ := C52_overlapping nCam nBoard l hl s hs obs hobs bpts hb n
  rw [hst] at a1
  simp only [Outcome.ok.injEq] at a1
  subst a1
  refine ⟨a2, ?_, ?_, fun i g hg c hc => a3.perm.subset (List.mem_flatten.2 ⟨_, List.mem_map.2 ⟨(i, OMap.keys g.cameras),
    List.mem_map.2 ⟨(i, g), (OMap.get?_eq_some a2.groups.sorted).1 hg, rfl⟩, rfl⟩, hc⟩)⟩
  · obtain ⟨r, h1, h2, _, h4, objs, h5, h6, h7, h8⟩ :=
      calibrateObjects_ok nCam nBoard l hl s hs obs hobs bpts hb n
    obtain ⟨st1, g1, g2, _, _, g5, g6⟩ := calibrateGroups_ok nCam nBoard l hl s hs obs hobs bpts n objs r.1 r.2
      h5 h6 h2 h7 h8
    unfold overlapping at hst
    rw [h1, Outcome.bind_ok, g1, Outcome.bind_ok] at hst
    refine mergeStage_joins nCam nBoard l hl s hs obs hobs bpts n 2 st1 st g2 ?_ hst
    intro bo hbo _
    obtain ⟨c, hc, hbc⟩ := List.mem_flatten.1
      (h4.perm.symm.subset (stored nCam nBoard l hl s hs obs hobs bo hbo).1)
    obtain ⟨⟨i, o⟩, ho, rfl⟩ := List.mem_map.1 hc
    have hi : i ∈ OMap.keys st1.objs := by rw [g5]; exact List.mem_map.2 ⟨(i, o), ho, rfl⟩
    obtain ⟨o', ho'⟩ := OMap.mem_keys.1 hi
    obtain ⟨o2, ho2, hso⟩ := g6 i o' ho'
    rw [(OMap.get?_eq_some h2.sorted).2 ho] at ho2
    simp only [Option.some.injEq] at ho2
    subst ho2
    exact ⟨i, o', ho', by rw [hso.boards]; exact hbc⟩
  · intro bo hbo _
    rw [mem_groupCams a2.groups.sorted]
    obtain ⟨c, hc, hbc⟩ := List.mem_flatten.1
      (a3.perm.symm.subset (stored nCam nBoard l hl s hs obs hobs bo hbo).2)
    obtain ⟨e, he, rfl⟩ := List.mem_map.1 hc
    exact ⟨e, he, hbc⟩

omit [DecidableEq P] in
include hl hs hobs in
/-- A group whose camera saw a corner has an observation listed. -/
theorem listed {st : State G Pt P} (h : Consistent bpts (OMap.keys s.frames) obs st) {i : Nat} {g : CamGroup G}
    (hg : OMap.get? st.t.groups i = some g) {o : ObjObs P} (ho : o ∈ st.oo) (hc : o.cam ∈ OMap.keys g.cameras) :
    g.objObs ≠ [] := by
  obtain ⟨ob, _, hsee⟩ := (h.sees o.obj o.cam o.frame).1 ⟨o, ho, rfl, rfl, rfl⟩
  have hf := sees_frame nCam nBoard l hl s hs obs hobs ob o.cam o.frame hsee
  obtain ⟨k, hk⟩ := List.getElem?_of_mem ho
  refine h.lists.objObs i g o.frame (Spec.Store.positions
    (fun x : ObjObs P => x.frame == o.frame && decide (x.cam ∈ OMap.keys g.cameras)) st.oo) hg
    ((h.groupObs.obs _ _ _).2 ⟨g, hg, hf, ?_, rfl⟩)
  have : k ∈ Spec.Store.positions
      (fun x : ObjObs P => x.frame == o.frame && decide (x.cam ∈ OMap.keys g.cameras)) st.oo :=
    (Props.Store.positions_get _ _ _).2 ⟨o, hk, by simpa using hc⟩
  exact List.ne_nil_of_mem this

include hl hs hobs in
theorem afterMerge_joins (st st' : State G Pt P) (h : Consistent bpts (OMap.keys s.frames) obs st)
    (hJ : Joins s obs st) (hCam : CamsIn obs st.t.groups) (C : List Nat) (hF : CamsFrom C st.t.groups)
    (pp : PairPoses G) (hpp : nonOverlapping n st = .ok pp) (hst : afterMerge n bpts s obs pp st = .ok st') :
    Consistent bpts (OMap.keys s.frames) obs st' ∧ Joins s obs st' ∧ CamsIn obs st'.t.groups ∧
      (∃ k, OMap.keys st'.t.groups = List.range k) ∧
      (∀ i g, OMap.get? st'.t.groups i = some g → ∃ o ∈ st'.oo, o.cam ∈ OMap.keys g.cameras) ∧
      CamsFrom C st'.t.groups := by
  rcases C52_merge nCam nBoard l hl s hs obs hobs bpts n st h pp hpp with ⟨st1, cs, a1, a2, a3, a4, a5⟩ | ⟨a1, _⟩
  swap
  · rw [hst] at a1; cases a1
  rw [hst] at a1
  simp only [Outcome.ok.injEq] at a1
  subst a1
  have hJ' : Joins s obs st' := by
    have hfr := frames_sorted nCam nBoard l hl s hs
    unfold afterMerge mergeGroups1 at hst
    obtain ⟨st2, q1, hst⟩ := Outcome.bind_eq_ok.1 hst
    obtain ⟨gs, q2, q1⟩ := Outcome.bind_eq_ok.1 q1
    obtain ⟨t, q3, q1⟩ := Outcome.bind_eq_ok.1 q1
    simp only [Outcome.pure_eq, Outcome.ok.injEq] at q1
    subst q1
    rcases C23_merge st.oo (OMap.keys s.frames) hfr st.t h.groups h.groupObs h.lists st.objs n.ofVec _ n.he []
      List.Pairwise.nil pp hpp (n.choose 3) with ⟨m, hm, hM⟩ | ⟨hthrow, _⟩
    swap
    · rw [q2] at hthrow; cases hthrow
    rw [q2] at hm
    simp only [Outcome.ok.injEq] at hm
    subst hm
    obtain ⟨t', k1, k2, k3, k4, k5, k6⟩ := regroup_ok (Pt := Pt) st.oo (OMap.keys s.frames)
      (hfr.imp Nat.ne_of_lt) { st.t with groups := gs } hM.collection (by
        intro i g hg
        rw [(hM.bare i g hg).2]
        exact List.Pairwise.nil)
    rw [q3] at k1
    simp only [Outcome.ok.injEq] at k1
    subst k1
    exact mergeStage_joins nCam nBoard l hl s hs obs hobs bpts n 4 { st with t := t } st'
      ⟨h.objs, h.sees, k2, k3, k4⟩ hJ.boards hst
  have hview : ∀ c f, (∃ o ∈ st.oo, o.cam = c ∧ o.frame = f) → ∃ o ∈ st'.oo, o.cam = c ∧ o.frame = f := by
    intro c f
    rw [views h hJ.boards, views a2 hJ'.boards]
    exact id
  have hclass : ∀ i g, OMap.get? st.t.groups i = some g → g.objObs ≠ [] →
      ∃ i' g', OMap.get? st'.t.groups i' = some g' ∧ ∀ q ∈ OMap.keys g.cameras, q ∈ OMap.keys g'.cameras := by
    intro i g hg hne
    have hi : i ∈ observingGroups st.t.groups := by
      unfold observingGroups
      rw [List.mem_filter]
      exact ⟨OMap.mem_keys.2 ⟨g, hg⟩, by rw [hg]; simpa using hne⟩
    obtain ⟨c, hc, hic⟩ := List.mem_flatten.1 (a3.perm.symm.subset hi)
    obtain ⟨i', hi'⟩ := List.getElem?_of_mem hc
    obtain ⟨g', hg', hq⟩ := a5 i' c hi'
    exact ⟨i', g', hg', fun q hq' => (hq q).2 ⟨i, hic, g, hg, hq'⟩⟩
  refine ⟨a2, hJ', ?_, ⟨_, a4⟩, ?_, ?_⟩
  · intro bo hbo hp
    obtain ⟨i, g, hg, hmem⟩ := hCam bo hbo hp
    obtain ⟨o, ho, h1, _⟩ := (views h hJ.boards bo.cam bo.frame).2 ⟨bo, hbo, rfl, rfl, hp⟩
    have hne := listed nCam nBoard l hl s hs obs hobs bpts h hg ho (by rw [h1]; exact hmem)
    obtain ⟨i', g', hg', hq⟩ := hclass i g hg hne
    exact ⟨i', g', hg', hq _ hmem⟩
  · intro i g hg
    have hi : i ∈ OMap.keys st'.t.groups := OMap.mem_keys.2 ⟨g, hg⟩
    rw [a4, List.mem_range] at hi
    obtain ⟨g', hg', hq⟩ := a5 i cs[i] (List.getElem?_eq_getElem hi)
    rw [hg] at hg'
    simp only [Option.some.injEq] at hg'
    subst hg'
    have hmem : cs[i] ∈ cs := List.getElem_mem hi
    obtain ⟨j, hj⟩ := List.exists_mem_of_ne_nil _ (a3.nonempty _ hmem)
    have hjo : j ∈ observingGroups st.t.groups := a3.perm.subset (List.mem_flatten.2 ⟨_, hmem, hj⟩)
    unfold observingGroups at hjo
    obtain ⟨hj1, hj2⟩ := List.mem_filter.1 hjo
    obtain ⟨gj, hgj⟩ := OMap.mem_keys.1 hj1
    rw [hgj] at hj2
    obtain ⟨o, ho, hoc⟩ := hJ.seen j gj hgj (by simpa using hj2)
    obtain ⟨o', ho', h1, _⟩ := hview o.cam o.frame ⟨o, ho, rfl, rfl⟩
    exact ⟨o', ho', by rw [h1]; exact (hq _).2 ⟨j, hj, gj, hgj, hoc⟩⟩
  · intro i g hg c hc
    have hi : i ∈ OMap.keys st'.t.groups := OMap.mem_keys.2 ⟨g, hg⟩
    rw [a4, List.mem_range] at hi
    obtain ⟨g', hg', hq⟩ := a5 i cs[i] (List.getElem?_eq_getElem hi)
    rw [hg] at hg'
    simp only [Option.some.injEq] at hg'
    subst hg'
    obtain ⟨j, _, gj, hgj, hqj⟩ := (hq c).1 hc
    exact hF j gj hgj c hqj

/-- The tables at the end. -/
structure Ends (C : List Nat) (s : Store P Path) (obs : List (BoardObs P)) (bpts : List (List Pt)) (st : State G Pt P) : Prop where
  consistent : Consistent bpts (OMap.keys s.frames) obs st
  joins : Joins s obs st
  cams : CamsIn obs st.t.groups
  numbered : ∃ k, OMap.keys st.t.groups = List.range k
  frameGroups : ∀ f, (OMap.get? st.t.frameGroups f).getD [] = (OMap.keys st.t.groups).filter fun i =>
    (OMap.get? st.t.groupObs (i, f)).isSome
  frames : ∀ i g, OMap.get? st.t.groups i = some g → ∀ f, f ∈ OMap.keys g.frames ↔
    (OMap.get? st.t.groupObs (i, f)).isSome
  observed : ∀ i g, OMap.get? st.t.groups i = some g → ∃ o ∈ st.oo, o.cam ∈ OMap.keys g.cameras
  known : CamsFrom C st.t.groups

include hl hs hobs in
theorem mergeGroups2_ends (st0 st st' : State G Pt P) (h0 : Consistent bpts (OMap.keys s.frames) obs st0)
    (pp : PairPoses G) (hpp : nonOverlapping n st0 = .ok pp) (h : Consistent bpts (OMap.keys s.frames) obs st)
    (hJ : Joins s obs st) (hCam : CamsIn obs st.t.groups) (hk : ∃ k, OMap.keys st.t.groups = List.range k)
    (hobsd : ∀ i g, OMap.get? st.t.groups i = some g → ∃ o ∈ st.oo, o.cam ∈ OMap.keys g.cameras)
    (C : List Nat) (hF : CamsFrom C st.t.groups) (hst : mergeGroups2 n s pp st = .ok st') : Ends C s obs bpts st' := by
  have hfr := frames_sorted nCam nBoard l hl s hs
  have hne : ∀ a b, (a, b) ∈ OMap.keys pp.pose → a ≠ b := fun a b hab =>
    (((C22_recorded st0.oo (OMap.keys s.frames) hfr st0.t h0.groups h0.groupObs h0.lists st0.objs n.ofVec _ n.he []
      pp List.Pairwise.nil hpp a b).1).1 hab).1
  unfold mergeGroups2 at hst
  obtain ⟨gs, q2, hst⟩ := Outcome.bind_eq_ok.1 hst
  obtain ⟨t, q3, hst⟩ := Outcome.bind_eq_ok.1 hst
  simp only [Outcome.pure_eq, Outcome.ok.injEq] at hst
  subst hst
  obtain ⟨k, hk⟩ := hk
  obtain ⟨m1, m2, m3, m4, m5, m6⟩ := Lemmas.Finish.merged_collection h.groups pp hne (n.choose 5) k hk (by
    intro i g hg
    obtain ⟨o, ho, hc⟩ := hobsd i g hg
    exact listed nCam nBoard l hl s hs obs hobs bpts h hg ho hc) gs q2
  have hsort : ∀ i g, OMap.get? gs i = some g → OMap.Sorted g.frames := by
    intro i g hg
    rw [(m2 i g hg).2]
    exact List.Pairwise.nil
  obtain ⟨t', k1, k2, k3, k4, k5, k6⟩ := regroup_ok (Pt := Pt) st.oo (OMap.keys s.frames)
    (hfr.imp Nat.ne_of_lt) { st.t with groups := gs } m1 hsort
  rw [q3] at k1
  simp only [Outcome.ok.injEq] at k1
  subst k1
  obtain ⟨e1, e2, e3, e4⟩ := regroup_exact st.oo (OMap.keys s.frames) (hfr.imp Nat.ne_of_lt)
    { st.t with groups := gs } m1 hsort t q3
  have hback : ∀ i g, OMap.get? t.groups i = some g → ∃ g0, OMap.get? gs i = some g0 ∧ g.cameras = g0.cameras := by
    intro i g hg
    have := k6 i
    rw [hg] at this
    obtain ⟨g0, h0', he⟩ := Option.map_eq_some_iff.1 this.symm
    simp only [Prod.mk.injEq] at he
    exact ⟨g0, h0', he.2.1.symm⟩
  refine ⟨⟨h.objs, h.sees, k2, k3, k4⟩, ⟨hJ.boards, ?_, hJ.shape⟩, ?_, ?_, e2, ?_, ?_,
    camsFrom_congr m1.sorted k2.sorted k5 fun i g hg c hc => by
      obtain ⟨j, gj, hgj, hq⟩ := m6 i g c hg hc
      exact hF j gj hgj c hq⟩
  · intro i g hg hne'
    obtain ⟨g0, hg0, _⟩ := hback i g hg
    exact e3 i g g0 hg hg0 (m2 i g0 hg0).1 hne'
  · refine camsIn_congr m1.sorted k2.sorted k5 ?_
    intro bo hbo hp
    obtain ⟨i, g, hg, hmem⟩ := hCam bo hbo hp
    exact m3 i g bo.cam hg hmem
  · obtain ⟨k', hk'⟩ := m5
    exact ⟨k', e1.trans hk'⟩
  · intro i g hg
    obtain ⟨g0, hg0, _⟩ := hback i g hg
    exact e4 i g g0 hg hg0 (m2 i g0 hg0).2
  · intro i g hg
    obtain ⟨g0, hg0, he⟩ := hback i g hg
    obtain ⟨j, gj, hgj, hq⟩ := m4 i g0 hg0
    obtain ⟨o, ho, hc⟩ := hobsd j gj hgj
    exact ⟨o, ho, by rw [he]; exact hq _ hc⟩

omit [DecidableEq P] in
theorem refineAll_ends {C : List Nat} (k : Nat) (st st' : State G Pt P) (h : Ends C s obs bpts st)
    (hst : refineAll n k bpts st = .ok st') : Ends C s obs bpts st' := by
  obtain ⟨st1, r1, r2, r3, r4, r5, r6⟩ :=
    refineAll_ok (frames := OMap.keys s.frames) (obs := obs) n k st h.consistent
  rw [hst] at r1
  simp only [Outcome.ok.injEq] at r1
  subst r1
  obtain ⟨i1, i2⟩ := refineAll_inv hst
  have hkeys : OMap.keys st'.t.groups = OMap.keys st.t.groups := by
    rw [i2]
    exact keys_mapVal (fun i g => refineGroup (n.cam k i) g) _
  have hback : ∀ i g, OMap.get? st'.t.groups i = some g → ∃ g0, OMap.get? st.t.groups i = some g0 ∧
      g = refineGroup (n.cam k i) g0 := by
    intro i g hg
    rw [i2] at hg
    dsimp only at hg
    rw [get?_refineGroups] at hg
    obtain ⟨g0, hg0, rfl⟩ := Option.map_eq_some_iff.1 hg
    exact ⟨g0, hg0, rfl⟩
  refine ⟨r2, refineAll_joins s obs bpts n k st st' h.consistent h.joins hst,
    camsIn_congr h.consistent.groups.sorted r2.groups.sorted r3 h.cams, ?_, ?_, ?_, ?_,
    camsFrom_congr h.consistent.groups.sorted r2.groups.sorted r3 h.known⟩
  · rw [hkeys]; exact h.numbered
  · intro f
    rw [hkeys, i2]
    exact h.frameGroups f
  · intro i g hg f
    obtain ⟨g0, hg0, rfl⟩ := hback i g hg
    rw [i2]
    exact h.frames i g0 hg0 f
  · intro i g hg
    obtain ⟨g0, hg0, rfl⟩ := hback i g hg
    rw [i1]
    exact h.observed i g0 hg0

include hl hs hobs hb in
/-- The end of a successful run. -/
theorem run_ends (fix : Int) (r : State G Pt P × OMap (Nat × Nat) (OMap Nat V))
    (hr : Finish.run n fix bpts s obs = .ok r) :
    ∃ st, Ends (observingCams nCam l) s obs bpts st ∧ Finish.finalStage n fix bpts st = .ok r := by
  unfold Finish.run at hr
  obtain ⟨st, h1, hr⟩ := Outcome.bind_eq_ok.1 hr
  obtain ⟨pp, h2, hr⟩ := Outcome.bind_eq_ok.1 hr
  obtain ⟨st1, h3, hr⟩ := Outcome.bind_eq_ok.1 hr
  obtain ⟨st2, h4, hr⟩ := Outcome.bind_eq_ok.1 hr
  obtain ⟨a1, a2, a3, a4⟩ := overlapping_joins nCam nBoard l hl s hs obs hobs bpts hb n st h1
  obtain ⟨b1, b2, b3, b4, b5, b6⟩ := afterMerge_joins nCam nBoard l hl s hs obs hobs bpts n st st1 a1 a2 a3 _ a4
    pp h2 h3
  exact ⟨st2, mergeGroups2_ends nCam nBoard l hl s hs obs hobs bpts n st st1 st2 a1 pp h2 b1 b2 b3 b4 b5
    _ b6 h4, hr⟩

/-- Every object observation has a pose of its object in its group and frame. -/
def PosesIn (st : State G Pt P) (op : OMap (Nat × Nat) (OMap Nat V)) : Prop :=
  ∀ o ∈ st.oo, ∀ i g, OMap.get? st.t.groups i = some g → o.cam ∈ OMap.keys g.cameras →
    ∃ m v, OMap.get? op (i, o.frame) = some m ∧ OMap.get? m o.obj = some v

omit [DecidableEq P] in
include hl hs hobs in
theorem objectPoses_in {st : State G Pt P} (h : Consistent bpts (OMap.keys s.frames) obs st) (pose : Nat → G) :
    PosesIn st (objectPoses n.toVec n.avgV st.t st.oo pose) := by
  intro o ho i g hg hc
  obtain ⟨ob, _, hsee⟩ := (h.sees o.obj o.cam o.frame).1 ⟨o, ho, rfl, rfl, rfl⟩
  have hf := sees_frame nCam nBoard l hl s hs obs hobs ob o.cam o.frame hsee
  obtain ⟨k, hk⟩ := List.getElem?_of_mem ho
  have hmem : k ∈ Spec.Store.positions
      (fun x : ObjObs P => x.frame == o.frame && decide (x.cam ∈ OMap.keys g.cameras)) st.oo :=
    (Props.Store.positions_get _ _ _).2 ⟨o, hk, by simpa using hc⟩
  have hobs' := (h.groupObs.obs i o.frame _).2 ⟨g, hg, hf, List.ne_nil_of_mem hmem, rfl⟩
  generalize Spec.Store.positions
      (fun x : ObjObs P => x.frame == o.frame && decide (x.cam ∈ OMap.keys g.cameras)) st.oo = is at hmem hobs'
  have hget : OMap.get? (objectPoses n.toVec n.avgV st.t st.oo pose) (i, o.frame) =
      some (computeObjectsPose n.avgV g.refCam [] (entries n.toVec g st.oo pose is)).1 := by
    unfold objectPoses
    refine (Props.GroupPose.get?_mapKey (fun (q : Nat × Nat) (is : List Nat) => match OMap.get? st.t.groups q.1 with
      | some g => (computeObjectsPose n.avgV g.refCam [] (entries n.toVec g st.oo pose is)).1
      | none => []) _ _).trans ?_
    rw [hobs']
    simp only [Option.map_some, hg]
  obtain ⟨v, hv⟩ := (Props.GroupPose.C26_update n.avgV g.refCam [] List.Pairwise.nil
    (entries n.toVec g st.oo pose is)).2.1 o.obj (by
      refine List.mem_map.2 ⟨⟨o.cam, o.obj, poseInGroup n.toVec g o.cam (pose k)⟩, ?_, rfl⟩
      unfold entries
      exact List.mem_filterMap.2 ⟨k, hmem, by rw [hk]; rfl⟩)
  exact ⟨_, v, hget, hv⟩

omit [Group G] [SMul G Pt] [DecidableEq P] in
theorem refinePoses_in {st : State G Pt P} {op : OMap (Nat × Nat) (OMap Nat V)} (f : Nat → Nat → Nat → V)
    (h : PosesIn st op) : PosesIn st (refinePoses f op) := by
  intro o ho i g hg hc
  obtain ⟨m, v, h1, h2⟩ := h o ho i g hg hc
  refine ⟨m.map fun p => (p.1, f i o.frame p.1), f i o.frame o.obj, ?_, ?_⟩
  · unfold refinePoses
    refine (Props.GroupPose.get?_mapKey (fun (q : Nat × Nat) (m : OMap Nat V) =>
      m.map fun p => (p.1, f q.1 q.2 p.1)) op (i, o.frame)).trans ?_
    rw [h1]
    rfl
  · refine (Props.GroupPose.get?_mapKey (fun (q : Nat) (_ : V) => f i o.frame q) m o.obj).trans ?_
    rw [h2]
    rfl

omit [DecidableEq P] in
theorem refineAll_poses (k : Nat) (st st' : State G Pt P) {op : OMap (Nat × Nat) (OMap Nat V)} (h : PosesIn st op)
    (hst : refineAll n k bpts st = .ok st') : PosesIn st' op := by
  obtain ⟨i1, i2⟩ := refineAll_inv hst
  intro o ho i g hg hc
  rw [i1] at ho
  rw [i2] at hg
  dsimp only at hg
  rw [get?_refineGroups] at hg
  obtain ⟨g0, hg0, rfl⟩ := Option.map_eq_some_iff.1 hg
  exact h o ho i g0 hg0 hc

omit [DecidableEq P] in
include hl hs hobs in
theorem finalStage_ends {C : List Nat} (fix : Int) (st : State G Pt P) (h : Ends C s obs bpts st)
    (r : State G Pt P × OMap (Nat × Nat) (OMap Nat V)) (hr : Finish.finalStage n fix bpts st = .ok r) :
    Ends C s obs bpts r.1 ∧ PosesIn r.1 r.2 := by
  unfold Finish.finalStage at hr
  obtain ⟨st1, h1, hr⟩ := Outcome.bind_eq_ok.1 hr
  have e1 := refineAll_ends s obs bpts n 5 st st1 h h1
  have p1 := refineAll_poses bpts n 5 st st1 (refinePoses_in (n.inGroup 5)
    (objectPoses_in nCam nBoard l hl s hs obs hobs bpts n h.consistent (n.objPose 5))) h1
  unfold Finish.lastRefine at hr
  split at hr
  · obtain ⟨st2, h2, hr⟩ := Outcome.bind_eq_ok.1 hr
    simp only [Outcome.pure_eq, Outcome.ok.injEq] at hr
    subst hr
    exact ⟨refineAll_ends s obs bpts n 6 st1 st2 e1 h2,
      refineAll_poses bpts n 6 st1 st2 (refinePoses_in (n.inGroup 6) p1) h2⟩
  · simp only [Outcome.ok.injEq] at hr
    subst hr
    exact ⟨e1, p1⟩

omit [DecidableEq P] in
/-- Each object observation is, as specified, that of its object by a camera in a frame. -/
theorem mem_oo {C : List Nat} {st : State G Pt P} (h : Ends C s obs bpts st) {o : ObjObs P} (ho : o ∈ st.oo) :
    ∃ ob, OMap.get? st.objs o.obj = some ob ∧ o = Spec.Objects.objObs ob obs o.cam o.frame ∧ o.pts ≠ [] := by
  rw [h.joins.shape] at ho
  obtain ⟨x, hx, hox⟩ := List.mem_flatten.1 ho
  obtain ⟨_, rfl⟩ := List.mem_replicate.1 hx
  unfold once at hox
  obtain ⟨⟨i, ob⟩, he, hoe⟩ := List.mem_flatMap.1 hox
  unfold Spec.Objects.allObjObs at hoe
  obtain ⟨hm, hp⟩ := List.mem_filter.1 hoe
  obtain ⟨v, _, rfl⟩ := List.mem_map.1 hm
  have hg := (OMap.get?_eq_some h.consistent.objs.sorted).2 he
  refine ⟨ob, ?_, rfl, by simpa using hp⟩
  show OMap.get? st.objs ob.id = some ob
  rw [h.consistent.objs.id i ob hg]
  exact hg

omit [DecidableEq P] in
include hobs in
theorem ids_ok {C : List Nat} {st : State G Pt P} (h : Ends C s obs bpts st)
    (hids : ∀ bo ∈ obs, ∀ k ∈ bo.ids, k < Spec.Objects.cornerCount bpts bo.board) {o : ObjObs P} (ho : o ∈ st.oo) :
    ∃ ob, OMap.get? st.objs o.obj = some ob ∧ o.pts.length = o.ids.length ∧ o.ids ≠ [] ∧
      ∀ k ∈ o.ids, k < ob.pts.length := by
  obtain ⟨ob, h1, h2, h3⟩ := mem_oo s obs bpts h ho
  have hn := (h.consistent.objs.good _ ob h1).numbering
  have hsel : ∀ bo ∈ (Spec.Objects.seenOf ob obs o.cam o.frame).filterMap (fun i => obs[i]?),
      bo ∈ obs ∧ bo.board ∈ OMap.keys ob.boards := by
    intro bo hbo
    obtain ⟨i, hi, he⟩ := List.mem_filterMap.1 hbo
    obtain ⟨bo', hbo', hp⟩ := (Props.Store.positions_get _ _ _).1 hi
    rw [he] at hbo'
    simp only [Option.some.injEq] at hbo'
    subst hbo'
    simp only [Bool.and_eq_true, beq_iff_eq, decide_eq_true_eq] at hp
    exact ⟨List.mem_of_getElem? he, hp.2⟩
  have hlen : o.pts.length = o.ids.length := by
    rw [h2]
    unfold Spec.Objects.objObs
    simp only [List.length_flatMap, List.length_map]
    congr 1
    apply List.map_congr_left
    intro bo hbo
    exact hobs.aligned bo (hsel bo hbo).1
  refine ⟨ob, h1, hlen, ?_, ?_⟩
  · intro h0
    rw [h0] at hlen
    exact h3 (List.length_eq_zero_iff.1 hlen)
  · intro k hk
    rw [h2] at hk
    unfold Spec.Objects.objObs at hk
    obtain ⟨bo, hbo, hk⟩ := List.mem_flatMap.1 hk
    obtain ⟨j, hj, rfl⟩ := List.mem_map.1 hk
    obtain ⟨m1, m2⟩ := hsel bo hbo
    have : (bo.board, j) ∈ ob.o2b := (hn.mem bo.board j).2 ⟨m2, hids bo m1 j hj⟩
    unfold Spec.Objects.objNumber
    rw [if_pos this, hn.pts_length]
    exact List.idxOf_lt_length_iff.2 this

end

end Verif.Lemmas.FinishRun
