import Verif.Lemmas.Lifetime

/-!
C71: no expired reference is ever followed.  The objects, groups and observations that references point to are
destroyed and replaced while the calibration runs; whatever the numerical parts find, every reference that is followed
is alive, and leads to the thing listed under the number stored beside it.
-/
namespace Verif.Props.Lifetime
open Verif Verif.Lifetime Verif.Spec.Lifetime Verif.Lemmas.Lifetime

theorem calibrateObjects_ok (sc : Scene) (c : Choices) :
    ∃ m, calibrate3DObjects sc c {} = .ok m ∧ Inv m ∧ m.gobs = [] := by
  obtain ⟨h1, h2, h3, _⟩ := newObjs_ok (List.range c.nObj) inv_empty rfl
  obtain ⟨m, k1, k2, _, _, k5⟩ := initAllObs_ok h1 sc c.sees
  refine ⟨m, ?_, k2, k5.trans h3⟩
  unfold calibrate3DObjects
  rw [show init3DObjects c.nObj {} = (List.range c.nObj).foldl newObj {} from rfl, k1, Outcome.bind_ok]
  simp only [readAllObs_ok k2, readObjs_ok k2, Outcome.bind_ok]
  rfl

theorem calibrateGroups_ok {m : Mem} (h : Inv m) (hg : m.gobs = []) (sc : Scene) (hnd : sc.frames.Nodup) (c : Choices) :
    ∃ m', calibrateCameraGroup sc c m = .ok m' ∧ Inv m' := by
  obtain ⟨h1, h2⟩ := newGrps_ok (List.range c.nGrp) h hg
  obtain ⟨m', k1, k2⟩ := initGroupObs_ok sc hnd c.member h1 h2
  refine ⟨m', ?_, k2⟩
  unfold calibrateCameraGroup
  rw [pairs_ok h sc, Outcome.bind_ok, show initCameraGroup c.nGrp m = (List.range c.nGrp).foldl newGrp m from rfl, k1,
    Outcome.bind_ok]
  simp only [computeAll_ok k2, refineGroups_ok k2, Outcome.bind_ok]
  rfl

theorem mergeObjects_ok {m : Mem} (h : Inv m) (sc : Scene) (hnd : sc.frames.Nodup) (c : Choices) :
    ∃ m', merge3DObjects sc c m = .ok m' ∧ Inv m' := by
  obtain ⟨m1, h1, h2⟩ := mergeObs_ok h sc c.sees c.nObj
  obtain ⟨m2, k1, k2⟩ := regroup_ok h2 sc hnd c.member
  refine ⟨m2, ?_, k2⟩
  unfold merge3DObjects
  simp only [readAllObs_ok h, computeAll_ok h, readAllGObs_ok h, readGroups_ok h, h1, k1, readAllObs_ok k2, computeAll_ok k2,
    refineGroups_ok k2, readGroups_ok k2, Outcome.bind_ok]
  rfl

theorem reached_inv {sc : Scene} (hnd : sc.frames.Nodup) {m : Mem} (h : Reached sc m) : Inv m := by
  induction h with
  | calibrated c d h1 h2 =>
    obtain ⟨m1, k1, k2, k3⟩ := calibrateObjects_ok sc c
    rw [k1] at h1
    cases h1
    obtain ⟨m2, k4, k5⟩ := calibrateGroups_ok k2 k3 sc hnd d
    rw [k4] at h2
    cases h2
    exact k5
  | objects c _ h2 ih =>
    obtain ⟨m2, k4, k5⟩ := mergeObjects_ok ih sc hnd c
    rw [k4] at h2
    cases h2
    exact k5
  | groups c _ h2 ih =>
    obtain ⟨m2, k4, k5⟩ := mergeGroups_ok ih sc hnd c
    rw [k4] at h2
    cases h2
    exact k5

section
variable (sc : Scene) (hnd : sc.frames.Nodup)
include hnd

/-- The whole run: whatever the numerical parts find, no expired reference is followed, and none is left at the end. -/
theorem C71_workflow (c : Nat → Choices) : ∃ m, workflow sc c = .ok m ∧ NoDangling m ∧ Reached sc m := by
  obtain ⟨m0, a1, a2, a3⟩ := calibrateObjects_ok sc (c 0)
  obtain ⟨m1, b1, b2⟩ := calibrateGroups_ok a2 a3 sc hnd (c 1)
  obtain ⟨m2, c1, c2⟩ := mergeObjects_ok b2 sc hnd (c 2)
  obtain ⟨m3, d1, d2⟩ := mergeGroups_ok c2 sc hnd (c 3)
  obtain ⟨m4, e1, e2⟩ := mergeObjects_ok d2 sc hnd (c 4)
  obtain ⟨m5, f1, f2⟩ := mergeGroups_ok e2 sc hnd (c 5)
  refine ⟨m5, ?_, f2.toNoDangling,
    .groups (c 5) (.objects (c 4) (.groups (c 3) (.objects (c 2) (.calibrated (c 0) (c 1) a1 b1) c1) d1) e1) f1⟩
  unfold workflow
  simp only [a1, b1, c1, d1, e1, f1, readGroups_ok c2, readAllObs_ok f2, computeAll_ok f2, refineGroups_ok f2,
    readGroups_ok f2, saveImages_ok f2 sc, readObjs_ok f2, Outcome.bind_ok]
  rfl

/-- Merging objects and groups may be repeated in any order: it always succeeds, and leaves no dangling reference. -/
theorem C71_any_order {m : Mem} (h : Reached sc m) (c : Choices) :
    NoDangling m ∧ (∃ m', merge3DObjects sc c m = .ok m') ∧ ∃ m', mergeGroups sc c m = .ok m' :=
  ⟨(reached_inv hnd h).toNoDangling, (mergeObjects_ok (reached_inv hnd h) sc hnd c).imp fun _ h => h.1,
    (mergeGroups_ok (reached_inv hnd h) sc hnd c).imp fun _ h => h.1⟩

/-- Everything that only reads can be called between any two of these calls. -/
theorem C71_reads {m : Mem} (h : Reached sc m) :
    readGroups m = .ok () ∧ readAllObs m = .ok () ∧ readObjs m = .ok () ∧ readAllGObs m = .ok () ∧
      computeCamerasPairPose sc m = .ok () ∧ saveImages sc m = .ok () :=
  have h := reached_inv hnd h
  ⟨readGroups_ok h, readAllObs_ok h, readObjs_ok h, readAllGObs_ok h, pairs_ok h sc, saveImages_ok h sc⟩

/-- Following the reference of an observation gives the object listed under the number stored beside it, and that of a
group observation the group listed under its number. -/
theorem C71_same {m : Mem} (h : Reached sc m) :
    (∀ o ∈ m.oo, ∃ x, lockObj m o.obj = .ok x ∧ OMap.get? m.objs o.num = some x) ∧
      ∀ i f g, OMap.get? m.gobs (i, f) = some g → ∃ x, lockGrp m g.grp = .ok x ∧ OMap.get? m.grps i = some x := by
  have h := reached_inv hnd h
  refine ⟨fun o ho => ?_, fun i f g hg => ?_⟩
  · obtain ⟨x, hx, e⟩ := h.obsObj o ho
    exact ⟨x, e ▸ lockObj_ok h hx, hx⟩
  · obtain ⟨x, hx, e⟩ := h.gobsGrp i f g hg
    exact ⟨x, e ▸ lockGrp_ok h hx, hx⟩

omit hnd in
theorem news_old (is : List Nat) (m : Mem) (k : Nat) (hk : k ≤ m.next) (ho : ∀ e ∈ m.objs, k ≤ e.2.addr) :
    ∀ e ∈ (is.foldl newObj m).objs, k ≤ e.2.addr := by
  induction is generalizing m with
  | nil => exact ho
  | cons i is ih =>
    refine ih (newObj m i) (Nat.le_succ_of_le hk) ?_
    intro e he
    have : ∀ (t : OMap Nat Obj) (v : Obj), (∀ e ∈ t, k ≤ e.2.addr) → k ≤ v.addr → ∀ e ∈ OMap.set t i v, k ≤ e.2.addr := by
      intro t v ht hv
      induction t with
      | nil => intro e he; rw [List.mem_singleton.1 (show e ∈ [(i, v)] from he)]; exact hv
      | cons q t iht =>
        obtain ⟨q, x⟩ := q
        intro e he
        simp only [OMap.set] at he
        split at he
        · rcases List.mem_cons.1 he with rfl | he
          · exact hv
          · exact ht e he
        · split at he
          · rcases List.mem_cons.1 he with rfl | he
            · exact hv
            · exact ht e (List.mem_cons_of_mem _ he)
          · rcases List.mem_cons.1 he with rfl | he
            · exact ht _ (by simp)
            · exact iht (fun e he => ht e (List.mem_cons_of_mem _ he)) e he
    exact this m.objs _ ho hk e he

omit hnd in
theorem newsG_old (is : List Nat) (m : Mem) (k : Nat) (hk : k ≤ m.next) (ho : ∀ e ∈ m.grps, k ≤ e.2.addr) :
    ∀ e ∈ (is.foldl newGrp m).grps, k ≤ e.2.addr := by
  induction is generalizing m with
  | nil => exact ho
  | cons i is ih =>
    refine ih (newGrp m i) (Nat.le_succ_of_le hk) ?_
    intro e he
    have : ∀ (t : OMap Nat Grp) (v : Grp), (∀ e ∈ t, k ≤ e.2.addr) → k ≤ v.addr → ∀ e ∈ OMap.set t i v, k ≤ e.2.addr := by
      intro t v ht hv
      induction t with
      | nil => intro e he; rw [List.mem_singleton.1 (show e ∈ [(i, v)] from he)]; exact hv
      | cons q t iht =>
        obtain ⟨q, x⟩ := q
        intro e he
        simp only [OMap.set] at he
        split at he
        · rcases List.mem_cons.1 he with rfl | he
          · exact hv
          · exact ht e he
        · split at he
          · rcases List.mem_cons.1 he with rfl | he
            · exact hv
            · exact ht e (List.mem_cons_of_mem _ he)
          · rcases List.mem_cons.1 he with rfl | he
            · exact ht _ (by simp)
            · exact iht (fun e he => ht e (List.mem_cons_of_mem _ he)) e he
    exact this m.grps _ ho hk e he

/-- The order matters: between the merge of the objects and that of their observations, every observation's reference to
its object has expired. -/
theorem C71_objects_first {m : Mem} (h : Reached sc m) (n : Nat) :
    ∀ o ∈ (mergeObjects n m).oo, lockObj (mergeObjects n m) o.obj = .ub := by
  have h := reached_inv hnd h
  have hoo : ∀ (is : List Nat) (m : Mem), (is.foldl newObj m).oo = m.oo := by
    intro is
    induction is with
    | nil => intro m; rfl
    | cons i is ih => intro m; rw [List.foldl_cons, ih]; rfl
  intro o ho
  have ho' : o ∈ m.oo := by
    have := hoo (List.range n) { m with objs := [] }
    rw [show (mergeObjects n m).oo = ((List.range n).foldl newObj { m with objs := [] }).oo from rfl, this] at ho
    exact ho
  obtain ⟨x, hx, e⟩ := h.obsObj o ho'
  have hlt := h.lObj _ x hx
  have hold := news_old (List.range n) { m with objs := [] } m.next (Nat.le_refl _) (by intro e he; cases he)
  unfold lockObj
  rw [List.find?_eq_none.2]
  · rfl
  · intro q hq
    have := hold q hq
    simp only [beq_iff_eq]
    omega

/-- Likewise for the groups. -/
theorem C71_groups_first {m : Mem} (h : Reached sc m) (n : Nat) :
    ∀ i f g, OMap.get? (mergeCameraGroup n m).gobs (i, f) = some g → lockGrp (mergeCameraGroup n m) g.grp = .ub := by
  have h := reached_inv hnd h
  have hgo : ∀ (is : List Nat) (m : Mem), (is.foldl newGrp m).gobs = m.gobs := by
    intro is
    induction is with
    | nil => intro m; rfl
    | cons i is ih => intro m; rw [List.foldl_cons, ih]; rfl
  intro i f g hg
  have hg' : OMap.get? m.gobs (i, f) = some g := by
    have := hgo (List.range n) { m with grps := [] }
    rw [show (mergeCameraGroup n m).gobs = ((List.range n).foldl newGrp { m with grps := [] }).gobs from rfl, this] at hg
    exact hg
  obtain ⟨x, hx, e⟩ := h.gobsGrp i f g hg'
  have hlt := h.lGrp _ x hx
  have hold := newsG_old (List.range n) { m with grps := [] } m.next (Nat.le_refl _) (by intro e he; cases he)
  unfold lockGrp
  rw [List.find?_eq_none.2]
  · rfl
  · intro q hq
    have := hold q hq
    simp only [beq_iff_eq]
    omega

end

namespace Example

/-- Two cameras, three frames; two objects, each seen by one camera, are found, then merged into one. -/
def sc : Scene := ⟨[(0, 0), (0, 1), (1, 1), (1, 2)], [0, 1, 2]⟩

def first : Choices := ⟨2, fun i im => i == im.1, 2, fun g c => g == c⟩
def merged : Choices := ⟨1, fun _ _ => true, 1, fun _ _ => true⟩
def choices (k : Nat) : Choices := if k < 2 then first else merged

theorem frames : sc.frames.Nodup := by decide +kernel

/-- Observations (object reference, camera), objects (number, address), group observations (group, frame, observations
seen). -/
def summary (m : Mem) : List (Nat × Nat) × List (Nat × Nat) × List ((Nat × Nat) × Nat) :=
  (m.oo.map fun o => (o.obj, o.cam), m.objs.map fun e => (e.1, e.2.addr), m.gobs.map fun e => (e.1, e.2.obs.length))

/-- The hypotheses are met by a run that ends with four observations of one object, created in the middle of the run,
and three group observations. -/
theorem run : (workflow sc choices >>= fun m => pure (summary m)) =
    .ok ([(33, 0), (33, 0), (33, 1), (33, 1)], [(0, 33)], [((0, 0), 1), ((0, 1), 2), ((0, 2), 1)]) := by decide +kernel

example : ∃ m, workflow sc choices = .ok m ∧ NoDangling m ∧ Reached sc m := C71_workflow sc frames choices

end Example

end Verif.Props.Lifetime
