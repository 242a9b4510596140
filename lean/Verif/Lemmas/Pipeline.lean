import Verif.Spec.Pipeline
import Verif.Props.NonOverlap
import Verif.Props.Groups

namespace Verif.Lemmas.Pipeline
open Verif Verif.Structure Verif.Objects Verif.Groups Verif.GroupPose Verif.NonOverlap Verif.Pipeline
open Verif.Spec.Groups Verif.Spec.Structure Verif.Spec.NonOverlap Verif.Spec.Pipeline Verif.Spec.Store
open Verif.Lemmas.GroupPose

variable {V G Pt P Path : Type}

theorem foldlM_values {A B : Type} (f : Nat → A → Outcome B) (R : Nat → A → B → Prop) (l : OMap Nat A)
    (hl : OMap.Sorted l) (h : ∀ e ∈ l, ∃ v, f e.1 e.2 = .ok v ∧ R e.1 e.2 v) :
    ∃ m, Outcome.foldlM (fun (m : OMap Nat B) (e : Nat × A) =>
        f e.1 e.2 >>= fun v => pure (OMap.set m e.1 v)) [] l = .ok m ∧
      OMap.Sorted m ∧ OMap.keys m = OMap.keys l ∧
      ∀ i v, OMap.get? m i = some v → ∃ a, OMap.get? l i = some a ∧ R i a v := by
  induction l using List.reverseRecOn with
  | nil => exact ⟨[], rfl, List.Pairwise.nil, rfl, by simp⟩
  | append_singleton l e ih =>
    have hl' := hl
    unfold OMap.Sorted at hl'
    rw [List.pairwise_append] at hl'
    obtain ⟨hl1, _, hl3⟩ := hl'
    obtain ⟨m, hm, hs, hk, hget⟩ := ih hl1 fun x hx => h x (by simp [hx])
    obtain ⟨v, hv, hR⟩ := h e (by simp)
    have hlt : ∀ k ∈ OMap.keys m, k < e.1 := by
      intro k hkm
      rw [hk] at hkm
      obtain ⟨x, hx, rfl⟩ := List.mem_map.1 hkm
      simpa [Key.lt] using hl3 x hx e (by simp)
    refine ⟨OMap.set m e.1 v, ?_, OMap.sorted_set _ _ _ hs, ?_, ?_⟩
    · rw [Outcome.foldlM_append, hm, Outcome.bind_ok, Outcome.foldlM_cons, hv]
      rfl
    · rw [Lemmas.Objects.set_snoc m e.1 v hlt]
      unfold OMap.keys at hk ⊢
      rw [List.map_append, List.map_append, hk]
      rfl
    · intro i w hw
      rw [OMap.get?_set _ _ _ _ hs] at hw
      split at hw
      · rename_i hi
        simp only [Option.some.injEq] at hw
        subst hw hi
        exact ⟨e.2, (OMap.get?_eq_some hl).2 (by simp), hR⟩
      · obtain ⟨a, ha, hR'⟩ := hget i w hw
        exact ⟨a, (OMap.get?_eq_some hl).2 (List.mem_append_left _ ((OMap.get?_eq_some hl1).1 ha)), hR'⟩

theorem get?_mapVal {A B : Type} (f : Nat → A → B) (m : OMap Nat A) (i : Nat) :
    OMap.get? (m.map fun e => (e.1, f e.1 e.2) : OMap Nat B) i = (OMap.get? m i).map (f i) := by
  induction m with
  | nil => rfl
  | cons e m ih =>
    simp only [List.map_cons, OMap.get?]
    split
    · rename_i h; subst h; rfl
    · exact ih

theorem sorted_mapVal {A B : Type} (f : Nat → A → B) (m : OMap Nat A) (h : OMap.Sorted m) :
    OMap.Sorted (m.map fun e => (e.1, f e.1 e.2) : OMap Nat B) := by
  unfold OMap.Sorted at h ⊢
  rw [List.pairwise_map]
  exact h

theorem keys_mapVal {A B : Type} (f : Nat → A → B) (m : OMap Nat A) :
    OMap.keys (m.map fun e => (e.1, f e.1 e.2) : OMap Nat B) = OMap.keys m := by
  unfold OMap.keys
  rw [List.map_map]
  rfl

/-- What a refinement leaves unchanged in an object. -/
structure SameObject (o o' : Object G Pt) : Prop where
  id : o'.id = o.id
  ref : o'.refBoard = o.refBoard
  nb : o'.nbBoards = o.nbBoards
  boards : o'.boards = o.boards
  o2b : o'.o2b = o.o2b
  refPose : OMap.get? o'.poses o.refBoard = OMap.get? o.poses o.refBoard

theorem refineObject_ok [Group G] [SMul G Pt] {bpts : List (List Pt)} (f : Nat → G) (o : Object G Pt)
    (h : Spec.Objects.Good bpts o) :
    ∃ o', refineObject bpts f o = .ok o' ∧ Spec.Objects.Good bpts o' ∧ SameObject o o' ∧
      OMap.keys o'.poses = OMap.keys o.poses ∧
      ∀ b ∈ OMap.keys o.poses, b ≠ o.refBoard → OMap.get? o'.poses b = some (f b) := by
  let g : Nat → G → G := fun b x => if b = o.refBoard then x else f b
  obtain ⟨pts', h1, h2⟩ := Lemmas.Objects.updateObjectPts_good o h (o.poses.map fun e => (e.1, g e.1 e.2))
    (sorted_mapVal g _ h.poses_sorted) (keys_mapVal g _)
  refine ⟨_, h1, h2, ⟨rfl, rfl, rfl, rfl, rfl, ?_⟩, keys_mapVal g _, ?_⟩
  · show OMap.get? (o.poses.map fun e => (e.1, g e.1 e.2)) _ = _
    rw [get?_mapVal g]
    cases OMap.get? o.poses o.refBoard with
    | none => rfl
    | some x => simp [g]
  · intro b hb hne
    show OMap.get? (o.poses.map fun e => (e.1, g e.1 e.2)) _ = _
    rw [get?_mapVal g]
    obtain ⟨x, hx⟩ := OMap.mem_keys.1 hb
    rw [hx]
    simp [g, hne]

theorem refineObjects_ok [Group G] [SMul G Pt] {bpts : List (List Pt)} (f : Nat → Nat → G)
    (objs : OMap Nat (Object G Pt)) (hC : Spec.Objects.Collection bpts objs) :
    ∃ objs', refineObjects bpts f objs = .ok objs' ∧ Spec.Objects.Collection bpts objs' ∧
      OMap.keys objs' = OMap.keys objs ∧
      ∀ i o', OMap.get? objs' i = some o' → ∃ o, OMap.get? objs i = some o ∧ SameObject o o' := by
  obtain ⟨m, h1, h2, h3, h4⟩ := foldlM_values (fun i o => refineObject bpts (f i) o)
    (fun _ o o' => Spec.Objects.Good bpts o' ∧ SameObject o o') objs hC.sorted (by
      intro e he
      obtain ⟨o', k1, k2, k3, _⟩ := refineObject_ok (f e.1) e.2
        (hC.good e.1 e.2 ((OMap.get?_eq_some hC.sorted).2 he))
      exact ⟨o', k1, k2, k3⟩)
  refine ⟨m, h1, ?_, h3, fun i o' ho => ?_⟩
  · refine ⟨h2, fun i o h => ?_, fun i o h => ?_, fun i j o o' h h' => ?_, fun i o h => ?_, fun i o h => ?_,
      fun i o h => ?_, fun i j o o' h h' => ?_, fun i o h => ?_⟩
    · obtain ⟨a, _, hg, _⟩ := h4 i o h; exact hg
    · obtain ⟨a, ha, _, hs⟩ := h4 i o h; rw [hs.id]; exact hC.id i a ha
    · obtain ⟨a, ha, _, hs⟩ := h4 i o h
      obtain ⟨a', ha', _, hs'⟩ := h4 j o' h'
      rw [hs.boards, hs'.boards]
      exact hC.disjoint i j a a' ha ha'
    · obtain ⟨a, ha, _, hs⟩ := h4 i o h; rw [hs.ref, hs.boards]; exact hC.ref_mem i a ha
    · obtain ⟨a, ha, _, hs⟩ := h4 i o h; rw [hs.ref, hs.boards]; exact hC.ref_least i a ha
    · obtain ⟨a, ha, _, hs⟩ := h4 i o h; rw [hs.ref, hs.refPose]; exact hC.ref_pose i a ha
    · obtain ⟨a, ha, _, hs⟩ := h4 i o h
      obtain ⟨a', ha', _, hs'⟩ := h4 j o' h'
      rw [hs.ref, hs'.ref]
      exact hC.ref_incr i j a a' ha ha'
    · obtain ⟨a, ha, _, hs⟩ := h4 i o h; rw [hs.nb, hs.boards]; exact hC.nb i a ha
  · obtain ⟨a, ha, _, hs⟩ := h4 i o' ho
    exact ⟨a, ha, hs⟩

/-- Sightings depend on the boards of an object only. -/
theorem sees_congr {objs objs' : OMap Nat (Object G Pt)} (hk : OMap.keys objs' = OMap.keys objs)
    (hs : ∀ i o', OMap.get? objs' i = some o' → ∃ o, OMap.get? objs i = some o ∧ SameObject o o')
    (obs : List (BoardObs P)) (i c f : Nat) :
    (∃ o, OMap.get? objs' i = some o ∧ Sees obs o c f) ↔ ∃ o, OMap.get? objs i = some o ∧ Sees obs o c f := by
  constructor
  · rintro ⟨o', ho', h⟩
    obtain ⟨o, ho, hso⟩ := hs i o' ho'
    refine ⟨o, ho, ?_⟩
    unfold Sees at h ⊢
    rw [hso.boards] at h
    exact h
  · rintro ⟨o, ho, h⟩
    have : i ∈ OMap.keys objs' := by rw [hk]; exact OMap.mem_keys.2 ⟨o, ho⟩
    obtain ⟨o', ho'⟩ := OMap.mem_keys.1 this
    obtain ⟨o2, ho2, hso⟩ := hs i o' ho'
    rw [ho] at ho2
    simp only [Option.some.injEq] at ho2
    subst ho2
    refine ⟨o', ho', ?_⟩
    unfold Sees at h ⊢
    rw [hso.boards]
    exact h

/-- Change of the groups that keeps numbers, cameras and reference poses. -/
theorem groups_congr [Group G] (h : Nat → CamGroup G → CamGroup G)
    (hid : ∀ i g, (h i g).id = g.id ∧ (h i g).refCam = g.refCam ∧ (h i g).cameras = g.cameras ∧
      (h i g).camIdx = g.camIdx ∧ OMap.keys (h i g).poses = OMap.keys g.poses ∧
      (OMap.Sorted g.poses → OMap.Sorted (h i g).poses) ∧
      OMap.get? (h i g).poses g.refCam = OMap.get? g.poses g.refCam)
    (gs : OMap Nat (CamGroup G)) (hC : Collection gs) :
    Collection (gs.map fun e => (e.1, h e.1 e.2) : OMap Nat (CamGroup G)) := by
  have hget : ∀ i g, OMap.get? (gs.map fun e => (e.1, h e.1 e.2) : OMap Nat (CamGroup G)) i = some g →
      ∃ g0, OMap.get? gs i = some g0 ∧ g = h i g0 := by
    intro i g hg
    rw [get?_mapVal h] at hg
    obtain ⟨g0, h0, rfl⟩ := Option.map_eq_some_iff.1 hg
    exact ⟨g0, h0, rfl⟩
  refine ⟨sorted_mapVal h gs hC.sorted, ?_, ?_, ?_, ?_, ?_, ?_, ?_, ?_, ?_, ?_⟩
  · intro i g hg; obtain ⟨g0, h0, rfl⟩ := hget i g hg; rw [(hid i g0).1]; exact hC.id i g0 h0
  · intro i g hg; obtain ⟨g0, h0, rfl⟩ := hget i g hg
    rw [(hid i g0).2.2.1]; exact hC.cameras_sorted i g0 h0
  · intro i g hg; obtain ⟨g0, h0, rfl⟩ := hget i g hg
    exact (hid i g0).2.2.2.2.2.1 (hC.poses_sorted i g0 h0)
  · intro i g hg; obtain ⟨g0, h0, rfl⟩ := hget i g hg
    rw [(hid i g0).2.2.1, (hid i g0).2.2.2.2.1]; exact hC.poses i g0 h0
  · intro i g hg; obtain ⟨g0, h0, rfl⟩ := hget i g hg
    rw [(hid i g0).2.2.1, (hid i g0).2.2.2.1]; exact hC.camIdx i g0 h0
  · intro i j g g' hg hg'
    obtain ⟨g0, h0, rfl⟩ := hget i g hg
    obtain ⟨g0', h0', rfl⟩ := hget j g' hg'
    rw [(hid i g0).2.2.1, (hid j g0').2.2.1]; exact hC.disjoint i j g0 g0' h0 h0'
  · intro i g hg; obtain ⟨g0, h0, rfl⟩ := hget i g hg
    rw [(hid i g0).2.2.1, (hid i g0).2.1]; exact hC.ref_mem i g0 h0
  · intro i g hg; obtain ⟨g0, h0, rfl⟩ := hget i g hg
    rw [(hid i g0).2.2.1, (hid i g0).2.1]; exact hC.ref_least i g0 h0
  · intro i g hg; obtain ⟨g0, h0, rfl⟩ := hget i g hg
    rw [(hid i g0).2.1, (hid i g0).2.2.2.2.2.2]; exact hC.ref_pose i g0 h0
  · intro i j g g' hg hg'
    obtain ⟨g0, h0, rfl⟩ := hget i g hg
    obtain ⟨g0', h0', rfl⟩ := hget j g' hg'
    rw [(hid i g0).2.1, (hid j g0').2.1]; exact hC.ref_incr i j g0 g0' h0 h0'

theorem refineGroup_same [Group G] (f : Nat → Nat → G) (i : Nat) (g : CamGroup G) :
    (refineGroup (f i) g).id = g.id ∧ (refineGroup (f i) g).refCam = g.refCam ∧
      (refineGroup (f i) g).cameras = g.cameras ∧ (refineGroup (f i) g).camIdx = g.camIdx ∧
      OMap.keys (refineGroup (f i) g).poses = OMap.keys g.poses ∧
      (OMap.Sorted g.poses → OMap.Sorted (refineGroup (f i) g).poses) ∧
      OMap.get? (refineGroup (f i) g).poses g.refCam = OMap.get? g.poses g.refCam := by
  let k : Nat → G → G := fun c x => if c = g.refCam then x else f i c
  refine ⟨rfl, rfl, rfl, rfl, keys_mapVal k _, sorted_mapVal k _, ?_⟩
  show OMap.get? (g.poses.map fun e => (e.1, k e.1 e.2)) _ = _
  rw [get?_mapVal k]
  cases OMap.get? g.poses g.refCam with
  | none => rfl
  | some x => simp [k]

theorem forget_same [Group G] (g : CamGroup G) :
    ({ g with objObs := [] } : CamGroup G).id = g.id ∧ ({ g with objObs := [] } : CamGroup G).refCam = g.refCam ∧
      ({ g with objObs := [] } : CamGroup G).cameras = g.cameras ∧
      ({ g with objObs := [] } : CamGroup G).camIdx = g.camIdx ∧
      OMap.keys ({ g with objObs := [] } : CamGroup G).poses = OMap.keys g.poses ∧
      (OMap.Sorted g.poses → OMap.Sorted ({ g with objObs := [] } : CamGroup G).poses) ∧
      OMap.get? ({ g with objObs := [] } : CamGroup G).poses g.refCam = OMap.get? g.poses g.refCam :=
  ⟨rfl, rfl, rfl, rfl, rfl, id, rfl⟩

theorem get?_refineGroups (f : Nat → Nat → G) (gs : OMap Nat (CamGroup G)) (i : Nat) :
    OMap.get? (refineGroups f gs) i = (OMap.get? gs i).map (refineGroup (f i)) :=
  get?_mapVal (fun i g => refineGroup (f i) g) gs i

theorem refineGroups_obs (f : Nat → Nat → G) (oo : List (ObjObs P)) (frames : List Nat)
    (t : GroupTables G) (h : GroupObsOf oo frames t) :
    GroupObsOf oo frames { t with groups := refineGroups f t.groups } := by
  refine ⟨h.sorted, fun i fr is => ?_⟩
  rw [h.obs]
  constructor
  · rintro ⟨g, hg, h2, h3, h4⟩
    exact ⟨refineGroup (f i) g, by rw [get?_refineGroups, hg]; rfl, h2, h3, h4⟩
  · rintro ⟨g, hg, h2, h3, h4⟩
    rw [get?_refineGroups] at hg
    obtain ⟨g0, h0, rfl⟩ := Option.map_eq_some_iff.1 hg
    exact ⟨g0, h0, h2, h3, h4⟩

theorem refineGroups_lists (f : Nat → Nat → G) (t : GroupTables G) (h : ListsCover t) :
    ListsCover { t with groups := refineGroups f t.groups } := by
  have hget : ∀ i g, OMap.get? (refineGroups f t.groups) i = some g → ∃ g0, OMap.get? t.groups i = some g0 ∧
      g = refineGroup (f i) g0 := by
    intro i g hg
    rw [get?_refineGroups] at hg
    obtain ⟨g0, h0, rfl⟩ := Option.map_eq_some_iff.1 hg
    exact ⟨g0, h0, rfl⟩
  refine ⟨fun i g hg => ?_, fun i g fr is hg => ?_, fun i g fr is hg => ?_⟩
  · obtain ⟨g0, h0, rfl⟩ := hget i g hg
    exact h.sorted i g0 h0
  · obtain ⟨g0, h0, rfl⟩ := hget i g hg
    exact h.frames i g0 fr is h0
  · obtain ⟨g0, h0, rfl⟩ := hget i g hg
    exact h.objObs i g0 fr is h0

theorem groupCams_mapVal (h : Nat → CamGroup G → CamGroup G) (hh : ∀ i g, (h i g).cameras = g.cameras)
    (gs : OMap Nat (CamGroup G)) :
    groupCams (gs.map fun e => (e.1, h e.1 e.2) : OMap Nat (CamGroup G)) = groupCams gs := by
  unfold groupCams
  rw [List.map_map]
  apply List.map_congr_left
  intro e _
  show (e.1, OMap.keys (h e.1 e.2).cameras) = _
  rw [hh]

/-- Refinement keeps the tables consistent. -/
theorem refineAll_ok [Group G] [SMul G Pt] (n : Numerics V G) (k : Nat) {bpts : List (List Pt)}
    {frames : List Nat} {obs : List (BoardObs P)} (st : State G Pt P) (h : Consistent bpts frames obs st) :
    ∃ st', refineAll n k bpts st = .ok st' ∧ Consistent bpts frames obs st' ∧
      groupCams st'.t.groups = groupCams st.t.groups ∧ st'.oo = st.oo ∧
      OMap.keys st'.objs = OMap.keys st.objs ∧
      ∀ i o', OMap.get? st'.objs i = some o' → ∃ o, OMap.get? st.objs i = some o ∧ SameObject o o' := by
  obtain ⟨objs', h1, h2, h3, h4⟩ := refineObjects_ok (n.board k) st.objs h.objs
  refine ⟨{ objs := objs', oo := st.oo, t := { st.t with groups := refineGroups (n.cam k) st.t.groups } }, ?_,
    ⟨h2, ?_, ?_, ?_, ?_⟩, ?_, rfl, h3, h4⟩
  · unfold refineAll
    rw [h1]
    rfl
  · intro i c f
    rw [sees_congr h3 h4]
    exact h.sees i c f
  · exact groups_congr (fun i g => refineGroup (n.cam k i) g) (refineGroup_same (n.cam k)) _ h.groups
  · exact refineGroups_obs _ _ _ _ h.groupObs
  · exact refineGroups_lists _ _ h.lists
  · exact groupCams_mapVal (fun i g => refineGroup (n.cam k i) g) (fun _ _ => rfl) _

/-- Group observations after a (re)initialisation. -/
theorem regroup_ok [Group G] [SMul G Pt] (oo : List (ObjObs P)) (frames : List Nat) (hnd : frames.Nodup)
    (t0 : GroupTables G) (hC : Collection t0.groups)
    (hfs : ∀ i g, OMap.get? t0.groups i = some g → OMap.Sorted g.frames) :
    ∃ t, mergeAllCameraGroupObs oo frames t0 = .ok t ∧ Collection t.groups ∧ GroupObsOf oo frames t ∧
      ListsCover t ∧ groupCams t.groups = groupCams t0.groups ∧
      (∀ i, (OMap.get? t.groups i).map (fun g => (g.refCam, g.cameras, g.poses)) =
        (OMap.get? t0.groups i).map (fun g => (g.refCam, g.cameras, g.poses))) := by
  obtain ⟨t, h1, h2, h3, h4, h5⟩ := merge_groupObsOf oo frames hnd t0 hC hfs
  refine ⟨t, h1, h2, h3, Lemmas.NonOverlap.merge_listsCover oo frames hnd t0 t hC hfs h1, ?_, h4⟩
  have hkeys : OMap.keys t.groups = OMap.keys t0.groups := by
    apply OMap.sorted_keys_ext (OMap.keys_sorted h2.sorted) (OMap.keys_sorted hC.sorted)
    intro i
    rw [OMap.mem_keys, OMap.mem_keys]
    have := h4 i
    constructor
    · rintro ⟨g, hg⟩
      rw [hg] at this
      obtain ⟨g0, h0, _⟩ := Option.map_eq_some_iff.1 this.symm
      exact ⟨g0, h0⟩
    · rintro ⟨g, hg⟩
      rw [hg] at this
      obtain ⟨g0, h0, _⟩ := Option.map_eq_some_iff.1 this
      exact ⟨g0, h0⟩
  have hform : ∀ gs : OMap Nat (CamGroup G), OMap.Sorted gs → groupCams gs = (OMap.keys gs).map fun i =>
      (i, ((OMap.get? gs i).map fun g => OMap.keys g.cameras).getD []) := by
    intro gs hs
    unfold groupCams OMap.keys
    rw [List.map_map]
    apply List.map_congr_left
    intro e he
    show _ = (e.1, _)
    rw [(OMap.get?_eq_some hs).2 (show (e.1, e.2) ∈ gs from he)]
    rfl
  rw [hform _ h2.sorted, hform _ hC.sorted, hkeys]
  apply List.map_congr_left
  intro i _
  have := h4 i
  congr 1
  cases hg : OMap.get? t.groups i with
  | none =>
    rw [hg] at this
    cases hg0 : OMap.get? t0.groups i with
    | none => rfl
    | some g0 => rw [hg0] at this; cases this
  | some g =>
    rw [hg] at this
    cases hg0 : OMap.get? t0.groups i with
    | none => rw [hg0] at this; cases this
    | some g0 =>
      rw [hg0] at this
      simp only [Option.map_some, Option.some.injEq, Prod.mk.injEq] at this
      simp [this.2.1]

section
variable [Group G] [SMul G Pt] (nCam nBoard : Nat) (l : List (Insertion P Path))
  (hl : ∀ a ∈ l, a.obs.cam < nCam ∧ a.obs.board < nBoard) (s : Store P Path)
  (hs : Store.run nCam nBoard l = .ok s) (obs : List (BoardObs P))
  (hobs : Spec.Objects.SameViews s.obs obs) (bpts : List (List Pt)) (hb : bpts.length = nBoard)
  (n : Numerics V G)

theorem store_desc (nCam nBoard : Nat) (l : List (Insertion P Path))
    (hl : ∀ a ∈ l, a.obs.cam < nCam ∧ a.obs.board < nBoard) (s : Store P Path)
    (hs : Store.run nCam nBoard l = .ok s) : Describes nCam nBoard l s := by
  obtain ⟨s', h1, h2⟩ := Props.Store.C06_indexes nCam nBoard l hl
  rw [hs] at h1
  simp only [Outcome.ok.injEq] at h1
  subst h1
  exact h2

include hl hs in
theorem frames_sorted : (OMap.keys s.frames).Pairwise (· < ·) :=
  Lemmas.NonOverlap.keys_lt (store_desc nCam nBoard l hl s hs).frames_sorted

include hl hs hobs in
theorem sees_frame (o : Object G Pt) (c f : Nat) (h : Sees obs o c f) : f ∈ OMap.keys s.frames := by
  obtain ⟨bo, hbo, _, h2, _⟩ := h
  have hk : (bo.cam, bo.frame, bo.board) ∈ s.obs.map fun o => (o.cam, o.frame, o.board) := by
    rw [← hobs.keys]; exact List.mem_map.2 ⟨bo, hbo, rfl⟩
  obtain ⟨o1, ho1, he⟩ := List.mem_map.1 hk
  have hd := store_desc nCam nBoard l hl s hs
  rw [hd.obs] at ho1
  obtain ⟨a, ha, rfl⟩ := List.mem_map.1 ho1
  simp only [Prod.mk.injEq] at he
  exact (hd.frame_key f).2 ⟨a, ha, he.2.1.trans h2⟩

include hl hs hobs hb in
theorem calibrateObjects_ok :
    ∃ r, calibrateObjects n bpts s obs = .ok r ∧ Spec.Objects.Collection bpts r.1 ∧
      (∀ i c f, (∃ o ∈ r.2, o.obj = i ∧ o.cam = c ∧ o.frame = f) ↔
        ∃ o, OMap.get? r.1 i = some o ∧ Sees obs o c f) ∧
      IsPartition (Spec.Objects.CoSeen l) (Spec.Objects.observedBoards nBoard l)
        (r.1.map fun e => OMap.keys e.2.boards) ∧
      ∃ objs, Spec.Objects.Collection bpts objs ∧
        initAllObjectObs { s with obs := obs } objs [] = .ok r.2 ∧
        OMap.keys r.1 = OMap.keys objs ∧
        ∀ i o', OMap.get? r.1 i = some o' → ∃ o, OMap.get? objs i = some o ∧ SameObject o o' := by
  obtain ⟨objs, h1, hp⟩ := Props.Objects.C11_partition nCam nBoard l hl s hs n.boardPose n.avg bpts hb
    (n.choose 0)
  have hC := Props.Objects.C24_initial nCam nBoard l hl s hs n.boardPose n.avg bpts hb (n.choose 0) objs h1
  have h2 := Props.Objects.C16_observations nCam nBoard l hl s hs obs hobs bpts objs hC
  obtain ⟨objs', h3, h4, h5, h6⟩ := refineObjects_ok (n.board 0) objs hC
  have hiff := (Props.Objects.C16_iff nCam nBoard l hl s hs obs hobs bpts objs hC _ h2).2
  refine ⟨(objs', _), ?_, h4, ?_, ?_, objs, hC, h2, h5, h6⟩
  · unfold calibrateObjects
    rw [h1, Outcome.bind_ok, h2, Outcome.bind_ok, h3]
    rfl
  · intro i c f
    rw [sees_congr h5 h6]
    exact hiff i c f
  · have hmap : (objs'.map fun e => OMap.keys e.2.boards) = objs.map fun e => OMap.keys e.2.boards := by
      have hform : ∀ m : OMap Nat (Object G Pt), OMap.Sorted m → (m.map fun e => OMap.keys e.2.boards) =
          (OMap.keys m).map fun i => ((OMap.get? m i).map fun o => OMap.keys o.boards).getD [] := by
        intro m hm
        unfold OMap.keys
        rw [List.map_map]
        apply List.map_congr_left
        intro e he
        show _ = ((OMap.get? m e.1).map _).getD _
        rw [(OMap.get?_eq_some hm).2 (show (e.1, e.2) ∈ m from he)]
        rfl
      rw [hform _ h4.sorted, hform _ hC.sorted, h5]
      apply List.map_congr_left
      intro i hi
      rw [← h5] at hi
      obtain ⟨o', ho'⟩ := OMap.mem_keys.1 hi
      obtain ⟨o, ho, hso⟩ := h6 i o' ho'
      rw [ho', ho]
      simp [hso.boards]
    rw [hmap]
    exact hp

include hl hs hobs in
/-- The groups before their refinement. -/
theorem placeGroups_ok (objs0 objs : OMap Nat (Object G Pt)) (oo : List (ObjObs P))
    (hC0 : Spec.Objects.Collection bpts objs0)
    (hoo : initAllObjectObs { s with obs := obs } objs0 [] = .ok oo)
    (hC : Spec.Objects.Collection bpts objs)
    (hk : OMap.keys objs = OMap.keys objs0)
    (hso : ∀ i o', OMap.get? objs i = some o' → ∃ o, OMap.get? objs0 i = some o ∧ SameObject o o') :
    ∃ st, placeGroups n s objs oo = .ok st ∧ Consistent bpts (OMap.keys s.frames) obs st ∧
      IsPartition (Props.Groups.BothSee obs objs0) (observingCams nCam l)
        ((groupCams st.t.groups).map (·.2)) ∧
      st.oo = oo ∧ st.objs = objs ∧
      ∃ gs, buildGroups s oo (n.objPose 1) n.avg (n.choose 1) = .ok gs ∧
        ∀ i, (OMap.get? st.t.groups i).map (fun g => (g.refCam, g.cameras, g.poses)) =
          (OMap.get? gs i).map (fun g => (g.refCam, g.cameras, g.poses)) := by
  have hd := store_desc nCam nBoard l hl s hs
  have hf := Props.Groups.fromBoards nCam nBoard l hl s hs obs hobs bpts objs0 hC0 oo hoo
  obtain ⟨gs, pl, h1, hcol, hnum, hpl, hp, hmade⟩ := Lemmas.Groups.buildGroups_ok hl hd hf (n.objPose 1) n.avg
    (n.choose 1)
  obtain ⟨gs', h1', hpart⟩ := Props.Groups.C18_partition nCam nBoard l hl s hs obs hobs bpts objs0 hC0 oo hoo
    (n.objPose 1) n.avg (n.choose 1)
  rw [h1] at h1'
  simp only [Outcome.ok.injEq] at h1'
  subst h1'
  have hnd := (frames_sorted nCam nBoard l hl s hs).imp Nat.ne_of_lt
  obtain ⟨t, k1, k2, k3, k4, k5, k6⟩ := regroup_ok (Pt := Pt) oo (OMap.keys s.frames) hnd { groups := gs } hcol (by
    intro i g hg
    rw [(hmade i g hg).filled.frames]
    exact List.Pairwise.nil)
  have hiff := (Props.Objects.C16_iff nCam nBoard l hl s hs obs hobs bpts objs0 hC0 oo hoo).2
  refine ⟨{ objs := objs, oo := oo, t := t }, ?_, ⟨hC, (by
      intro i c f
      show _ ↔ ∃ o, OMap.get? objs i = some o ∧ Sees obs o c f
      rw [sees_congr hk hso]
      exact hiff i c f), k2, k3, k4⟩, ?_, rfl, rfl, gs, h1, k6⟩
  · unfold placeGroups
    rw [h1, Outcome.bind_ok, k1]
    rfl
  · show IsPartition _ _ ((groupCams t.groups).map (·.2))
    rw [k5]
    unfold groupCams
    rw [List.map_map]
    exact hpart

include hl hs hobs in
theorem calibrateGroups_ok (objs0 objs : OMap Nat (Object G Pt)) (oo : List (ObjObs P))
    (hC0 : Spec.Objects.Collection bpts objs0)
    (hoo : initAllObjectObs { s with obs := obs } objs0 [] = .ok oo)
    (hC : Spec.Objects.Collection bpts objs)
    (hk : OMap.keys objs = OMap.keys objs0)
    (hso : ∀ i o', OMap.get? objs i = some o' → ∃ o, OMap.get? objs0 i = some o ∧ SameObject o o') :
    ∃ st, calibrateGroups n bpts s objs oo = .ok st ∧ Consistent bpts (OMap.keys s.frames) obs st ∧
      IsPartition (Props.Groups.BothSee obs objs0) (observingCams nCam l)
        ((groupCams st.t.groups).map (·.2)) ∧
      st.oo = oo ∧ OMap.keys st.objs = OMap.keys objs ∧
      ∀ i o', OMap.get? st.objs i = some o' → ∃ o, OMap.get? objs i = some o ∧ SameObject o o' := by
  obtain ⟨st1, p1, p2, p3, p4, p5, _⟩ := placeGroups_ok nCam nBoard l hl s hs obs hobs bpts n objs0 objs oo
    hC0 hoo hC hk hso
  obtain ⟨st, r1, r2, r3, r4, r5, r6⟩ := refineAll_ok (frames := OMap.keys s.frames) (obs := obs) n 1 st1 p2
  rw [p4] at r4
  rw [p5] at r5 r6
  refine ⟨st, ?_, r2, ?_, r4, r5, r6⟩
  · unfold calibrateGroups
    rw [p1, Outcome.bind_ok]
    exact r1
  · rw [r3]
    exact p3

include hl hs hobs in
/-- The merge of objects before its refinement. -/
theorem joinObjects_ok [DecidableEq P] (k : Nat) (st : State G Pt P)
    (h : Consistent bpts (OMap.keys s.frames) obs st) :
    ∃ st', joinObjects n k bpts s obs st = .ok st' ∧ Consistent bpts (OMap.keys s.frames) obs st' ∧
      groupCams st'.t.groups = groupCams st.t.groups ∧
      (∀ i, (OMap.get? st'.t.groups i).map (fun g => (g.refCam, g.cameras, g.poses)) =
        (OMap.get? st.t.groups i).map (fun g => (g.refCam, g.cameras, g.poses))) ∧
      merge3DObjects n.toVec n.ofVec n.avgV n.avg (n.choose k) bpts st.objs st.t st.oo (n.objPose k) =
        .ok st'.objs ∧
      ∃ cs, IsPartition (SeenTogether st.t.groups st.oo) (observedObjects st.objs st.oo) cs ∧
        cs.length = st'.objs.length ∧ OMap.keys st'.objs = List.range st'.objs.length ∧
        ∀ i c, cs[i]? = some c → ∃ o, OMap.get? st'.objs i = some o ∧
          ∀ b, b ∈ OMap.keys o.boards ↔
            ∃ j ∈ c, ∃ oj, OMap.get? st.objs j = some oj ∧ b ∈ OMap.keys oj.boards := by
  have hfr : ∀ o ∈ st.oo, o.frame ∈ OMap.keys s.frames := by
    intro o ho
    obtain ⟨ob, _, hsee⟩ := (h.sees o.obj o.cam o.frame).1 ⟨o, ho, rfl, rfl, rfl⟩
    exact sees_frame nCam nBoard l hl s hs obs hobs ob o.cam o.frame hsee
  have hob : ∀ o ∈ st.oo, o.obj ∈ OMap.keys st.objs := by
    intro o ho
    obtain ⟨ob, hob, _⟩ := (h.sees o.obj o.cam o.frame).1 ⟨o, ho, rfl, rfl, rfl⟩
    exact OMap.mem_keys.2 ⟨ob, hob⟩
  obtain ⟨m, m1, m2, m3, cs, m4, m5, m6⟩ := Props.GroupPose.C24_workflow n.ofVec st.oo (OMap.keys s.frames) st.t
    h.groupObs hfr h.objs hob n.toVec n.avgV n.avg (n.choose k) (n.objPose k)
  obtain ⟨all, once, o1, o2, o3, _⟩ := Props.Objects.C25_duplicates nCam nBoard l hl s hs obs hobs bpts m m2
  have hiff := (Props.Objects.C16_iff nCam nBoard l hl s hs obs hobs bpts m m2 once o2).2
  have hnd := (frames_sorted nCam nBoard l hl s hs).imp Nat.ne_of_lt
  have hforget : Collection (forget st.t.groups) :=
    groups_congr (fun _ g => { g with objObs := [] }) (fun _ g => forget_same g) _ h.groups
  obtain ⟨t, k1, k2, k3, k4, k5, k6⟩ := regroup_ok (Pt := Pt) all (OMap.keys s.frames) hnd
    { st.t with groups := forget st.t.groups } hforget (by
      intro i g hg
      have : OMap.get? (forget st.t.groups) i = (OMap.get? st.t.groups i).map fun g => { g with objObs := [] } :=
        get?_mapVal (B := CamGroup G) (fun _ (g : CamGroup G) => { g with objObs := [] }) st.t.groups i
      rw [this] at hg
      obtain ⟨g0, h0, rfl⟩ := Option.map_eq_some_iff.1 hg
      exact h.lists.sorted i g0 h0)
  have hsees : ∀ i c f, (∃ o ∈ all, o.obj = i ∧ o.cam = c ∧ o.frame = f) ↔
      ∃ o, OMap.get? m i = some o ∧ Sees obs o c f := by
    intro i c f
    have hi := hiff i c f
    constructor
    · rintro ⟨o, ho, h123⟩
      apply hi.1
      rw [o3] at ho
      obtain ⟨x, hx, hox⟩ := List.mem_flatten.1 ho
      obtain ⟨_, rfl⟩ := List.mem_replicate.1 hx
      exact ⟨o, hox, h123⟩
    · intro hm
      obtain ⟨o, ho, h123⟩ := hi.2 hm
      obtain ⟨ob, hob', _⟩ := hm
      refine ⟨o, ?_, h123⟩
      rw [o3]
      refine List.mem_flatten.2 ⟨once, List.mem_replicate.2 ⟨?_, rfl⟩, ho⟩
      intro h0
      have hm0 : m = [] := List.length_eq_zero_iff.1 h0
      rw [hm0] at hob'
      cases hob'
  refine ⟨{ objs := m, oo := all, t := t }, ?_, ⟨m2, hsees, k2, k3, k4⟩, ?_, ?_, m1, cs, m4, m5, m3, m6⟩
  · unfold joinObjects
    rw [m1, Outcome.bind_ok, o1, Outcome.bind_ok, k1]
    rfl
  · show groupCams t.groups = _
    rw [k5]
    exact groupCams_mapVal (fun _ g => { g with objObs := [] }) (fun _ _ => rfl) _
  · intro i
    have hget : OMap.get? (forget st.t.groups) i = (OMap.get? st.t.groups i).map fun g => { g with objObs := [] } :=
      get?_mapVal (B := CamGroup G) (fun _ (g : CamGroup G) => { g with objObs := [] }) st.t.groups i
    refine (k6 i).trans ?_
    show (OMap.get? (forget st.t.groups) i).map _ = _
    rw [hget, Option.map_map]
    rfl

include hl hs hobs in
/-- Merging objects keeps the tables consistent and the groups' cameras. -/
theorem mergeStage_ok [DecidableEq P] (k : Nat) (st : State G Pt P)
    (h : Consistent bpts (OMap.keys s.frames) obs st) :
    ∃ st', mergeStage n k bpts s obs st = .ok st' ∧ Consistent bpts (OMap.keys s.frames) obs st' ∧
      groupCams st'.t.groups = groupCams st.t.groups ∧
      ∃ cs, IsPartition (SeenTogether st.t.groups st.oo) (observedObjects st.objs st.oo) cs ∧
        cs.length = st'.objs.length ∧ OMap.keys st'.objs = List.range st'.objs.length ∧
        ∀ i c, cs[i]? = some c → ∃ o, OMap.get? st'.objs i = some o ∧
          ∀ b, b ∈ OMap.keys o.boards ↔
            ∃ j ∈ c, ∃ oj, OMap.get? st.objs j = some oj ∧ b ∈ OMap.keys oj.boards := by
  obtain ⟨st1, p1, p2, p3, _, _, cs, m4, m5, m3, m6⟩ := joinObjects_ok nCam nBoard l hl s hs obs hobs bpts n k st h
  obtain ⟨st', r1, r2, r3, r4, r5, r6⟩ := refineAll_ok (frames := OMap.keys s.frames) (obs := obs) n k st1 p2
  have hlen : st'.objs.length = st1.objs.length := by
    have := congrArg List.length r5
    simpa [OMap.keys] using this
  refine ⟨st', ?_, r2, r3.trans p3, cs, m4, by rw [m5, hlen], by rw [r5, hlen, ← m3], ?_⟩
  · unfold mergeStage
    rw [p1, Outcome.bind_ok]
    exact r1
  · intro i c hc
    obtain ⟨o, ho, hbo⟩ := m6 i c hc
    have : i ∈ OMap.keys st'.objs := by rw [r5]; exact OMap.mem_keys.2 ⟨o, ho⟩
    obtain ⟨o', ho'⟩ := OMap.mem_keys.1 this
    obtain ⟨o2, ho2, hso⟩ := r6 i o' ho'
    rw [ho] at ho2
    simp only [Option.some.injEq] at ho2
    subst ho2
    refine ⟨o', ho', fun b => ?_⟩
    rw [hso.boards]
    exact hbo b

end

end Verif.Lemmas.Pipeline
