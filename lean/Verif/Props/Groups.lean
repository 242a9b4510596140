import Verif.Lemmas.GroupObs
import Verif.Props.Objects

/-!
C17 (cameras), C18-C20: camera groups.

`l` is the list of stored board observations, `obs'` the observations after outlier removal, `objs` the
3D objects, `oo` the object observations, `pose i` the pose of the `i`-th object observation.
-/
namespace Verif.Props.Groups
open Verif Verif.Objects Verif.Groups Verif.Structure Verif.Spec.Groups Verif.Spec.Structure
open Verif.Spec.Store Verif.Lemmas.Objects Verif.Lemmas.Groups Verif.Lemmas.Structure Relation
open Verif.Props.Objects (Averages)

variable {G Pt P Path : Type}

private theorem desc (nCam nBoard : Nat) (l : List (Insertion P Path))
    (hl : ∀ a ∈ l, a.obs.cam < nCam ∧ a.obs.board < nBoard) (s : Store P Path)
    (hs : Store.run nCam nBoard l = .ok s) : Describes nCam nBoard l s := by
  obtain ⟨s', h1, h2⟩ := Props.Store.C06_indexes nCam nBoard l hl
  rw [hs] at h1
  simp only [Outcome.ok.injEq] at h1
  subst h1
  exact h2

/-- Cameras `a`, `b` both saw a corner of one and the same object in one frame. -/
def BothSee (obs' : List (BoardObs P)) (objs : OMap Nat (Object G Pt)) (a b : Nat) : Prop :=
  a ≠ b ∧ ∃ f i o, OMap.get? objs i = some o ∧ Sees obs' o a f ∧ Sees obs' o b f

section
variable [Group G] [SMul G Pt] (nCam nBoard : Nat) (l : List (Insertion P Path))
  (hl : ∀ a ∈ l, a.obs.cam < nCam ∧ a.obs.board < nBoard) (s : Store P Path)
  (hs : Store.run nCam nBoard l = .ok s) (obs' : List (BoardObs P))
  (hobs : Spec.Objects.SameViews s.obs obs')
  (bpts : List (List Pt)) (objs : OMap Nat (Object G Pt)) (hC : Spec.Objects.Collection bpts objs)
  (oo : List (ObjObs P)) (hoo : initAllObjectObs { s with obs := obs' } objs [] = .ok oo)
  (pose : Nat → G) (avg : List G → G) (choose : Nat → Nat → Graph.DState → Nat)

include hl hs hobs hC hoo in
/-- Object observations stem from board observations. -/
theorem fromBoards : FromBoards l oo := by
  intro o ho
  obtain ⟨_, h2⟩ := Props.Objects.C16_iff nCam nBoard l hl s hs obs' hobs bpts objs hC oo hoo
  obtain ⟨_, _, bo, hbo, h3, h4, _⟩ := (h2 o.obj o.cam o.frame).1 ⟨o, ho, rfl, rfl, rfl⟩
  have hk : (bo.cam, bo.frame, bo.board) ∈ s.obs.map fun o => (o.cam, o.frame, o.board) := by
    rw [← hobs.keys]; exact List.mem_map.2 ⟨bo, hbo, rfl⟩
  obtain ⟨o1, ho1, he⟩ := List.mem_map.1 hk
  rw [(desc nCam nBoard l hl s hs).obs] at ho1
  obtain ⟨a, ha, rfl⟩ := List.mem_map.1 ho1
  simp only [Prod.mk.injEq] at he
  exact ⟨a, ha, he.1.trans h3, he.2.1.trans h4⟩

include hl hs hobs hC hoo in
private theorem share_iff : ShareObject oo = BothSee obs' objs := by
  obtain ⟨_, h2⟩ := Props.Objects.C16_iff nCam nBoard l hl s hs obs' hobs bpts objs hC oo hoo
  funext a b
  apply propext
  constructor
  · rintro ⟨hne, x, hx, y, hy, h3, h4, rfl, rfl⟩
    obtain ⟨o, ho, hsx⟩ := (h2 x.obj x.cam x.frame).1 ⟨x, hx, rfl, rfl, rfl⟩
    obtain ⟨o', ho', hsy⟩ := (h2 x.obj y.cam x.frame).1 ⟨y, hy, h4.symm, rfl, h3.symm⟩
    rw [ho] at ho'
    simp only [Option.some.injEq] at ho'
    subst ho'
    exact ⟨hne, x.frame, x.obj, o, ho, hsx, hsy⟩
  · rintro ⟨hne, f, i, o, ho, hsa, hsb⟩
    obtain ⟨x, hx, x1, x2, x3⟩ := (h2 i a f).2 ⟨o, ho, hsa⟩
    obtain ⟨y, hy, y1, y2, y3⟩ := (h2 i b f).2 ⟨o, ho, hsb⟩
    exact ⟨hne, x, hx, y, hy, x3.trans y3.symm, x1.trans y1.symm, x2, y2⟩

include hl hs hobs hC hoo in
/-- C18: building the camera groups succeeds, and their sets of cameras are the partition of the
cameras with an observation into classes linked by frames in which two cameras saw the same object. -/
theorem C18_partition :
    ∃ gs, buildGroups s oo pose avg choose = .ok gs ∧
      IsPartition (BothSee obs' objs) (observingCams nCam l)
        (gs.map fun e => OMap.keys e.2.cameras) := by
  obtain ⟨gs, _, h1, _, _, _, h4, _⟩ := buildGroups_ok hl (desc nCam nBoard l hl s hs)
    (fromBoards nCam nBoard l hl s hs obs' hobs bpts objs hC oo hoo) pose avg choose
  rw [share_iff nCam nBoard l hl s hs obs' hobs bpts objs hC oo hoo] at h4
  exact ⟨gs, h1, h4⟩

include hl hs hobs hC hoo in
/-- C18 spelled out: each camera with an observation is in exactly one group, other cameras in none,
and two cameras share a group iff they are linked. -/
theorem C18_member (gs : OMap Nat (CamGroup G)) (hg : buildGroups s oo pose avg choose = .ok gs) :
    (∀ c, (∃ a ∈ l, a.obs.cam = c) → ∃ i g, OMap.get? gs i = some g ∧ c ∈ OMap.keys g.cameras ∧
      ∀ j g', OMap.get? gs j = some g' → c ∈ OMap.keys g'.cameras → j = i) ∧
    (∀ i g, OMap.get? gs i = some g → ∀ c ∈ OMap.keys g.cameras, ∃ a ∈ l, a.obs.cam = c) ∧
    (∀ i g, OMap.get? gs i = some g → ∀ a ∈ OMap.keys g.cameras, ∀ b,
      b ∈ OMap.keys g.cameras ↔ ReflTransGen (BothSee obs' objs) a b) := by
  obtain ⟨gs', _, h1, hcol, _, _, h4, _⟩ := buildGroups_ok hl (desc nCam nBoard l hl s hs)
    (fromBoards nCam nBoard l hl s hs obs' hobs bpts objs hC oo hoo) pose avg choose
  rw [hg] at h1
  simp only [Outcome.ok.injEq] at h1
  subst h1
  rw [share_iff nCam nBoard l hl s hs obs' hobs bpts objs hC oo hoo] at h4
  have hin : ∀ i g, OMap.get? gs i = some g →
      OMap.keys g.cameras ∈ gs.map fun e => OMap.keys e.2.cameras := fun i g hi =>
    List.mem_map.2 ⟨(i, g), (OMap.get?_eq_some hcol.sorted).1 hi, rfl⟩
  refine ⟨?_, ?_, fun i g hi a ha b => h4.linked _ (hin i g hi) a ha b⟩
  · rintro c ⟨a, ha, rfl⟩
    have hmem : a.obs.cam ∈ (gs.map fun e => OMap.keys e.2.cameras).flatten :=
      h4.perm.symm.subset (mem_observingCams.2 ⟨(hl a ha).1, a, ha, rfl⟩)
    obtain ⟨c, hc, hbc⟩ := List.mem_flatten.1 hmem
    obtain ⟨⟨i, g⟩, he, rfl⟩ := List.mem_map.1 hc
    have hio := (OMap.get?_eq_some hcol.sorted).2 he
    exact ⟨i, g, hio, hbc, fun j g' hj hbj => hcol.disjoint j i g' g hj hio _ hbj hbc⟩
  · intro i g hi c hc
    exact (mem_observingCams.1 (h4.perm.subset (List.mem_flatten.2 ⟨_, hin i g hi, hc⟩))).2

include hl hs hobs hC hoo in
/-- C18: groups are numbered 0, 1, …; the reference camera of a group is its least camera and has the
identity pose; every camera of the group has exactly one pose. -/
theorem C18_reference (gs : OMap Nat (CamGroup G))
    (hg : buildGroups s oo pose avg choose = .ok gs) :
    OMap.keys gs = List.range gs.length ∧
    (∀ i g, OMap.get? gs i = some g → g.id = i ∧ g.refCam ∈ OMap.keys g.cameras ∧
      (∀ c ∈ OMap.keys g.cameras, g.refCam ≤ c) ∧ OMap.get? g.poses g.refCam = some 1 ∧
      OMap.keys g.poses = OMap.keys g.cameras) ∧
    ∀ i j g g', OMap.get? gs i = some g → OMap.get? gs j = some g' → i < j →
      g.refCam < g'.refCam := by
  obtain ⟨gs', _, h1, hcol, h3, _, _, _⟩ := buildGroups_ok hl (desc nCam nBoard l hl s hs)
    (fromBoards nCam nBoard l hl s hs obs' hobs bpts objs hC oo hoo) pose avg choose
  rw [hg] at h1
  simp only [Outcome.ok.injEq] at h1
  subst h1
  exact ⟨h3, fun i g hi => ⟨hcol.id i g hi, hcol.ref_mem i g hi, hcol.ref_least i g hi,
    hcol.ref_pose i g hi, hcol.poses i g hi⟩, hcol.ref_incr⟩

include hl hs hobs hC hoo in
/-- C17 for cameras: along the path to each camera of a group all pairwise transforms are in the table,
in the orientation looked up. -/
theorem C17_cameras (r c : Nat) (hr : r ∈ observingCams nCam l)
    (hrc : ReflTransGen (BothSee obs' objs) r c) (ch : Graph.DState → Nat) :
    ∃ p, (cameraGraph s (cameraPairs s oo pose)).shortestPathBetween ch r c = .ok p ∧
      IsPath (BothSee obs' objs) r c p ∧
      ∀ e ∈ p.zip p.tail, ∃ x, OMap.get? (interTransform avg (cameraPairs s oo pose)) e = some x := by
  have hd := desc nCam nBoard l hl s hs
  have hf := fromBoards nCam nBoard l hl s hs obs' hobs bpts objs hC oo hoo
  have hT := cams_tableOk hl hd hf pose
  rw [← share_iff nCam nBoard l hl s hs obs' hobs bpts objs hC oo hoo] at hrc ⊢
  rw [← measured_cams hd hf pose] at hrc
  obtain ⟨p, h1, h2, _⟩ := hT.placement id avg ch hr hrc
  have hg : cameraGraph s (cameraPairs s oo pose) = Graph.run (graphCalls (observingCams nCam l)
      (tableEdges (cameraPairs s oo pose))) := by
    unfold cameraGraph; rw [cameraVertices_eq hd]
  refine ⟨p, by rw [hg]; exact h1, by rw [← measured_cams hd hf pose]; exact h2, fun e he => ?_⟩
  obtain ⟨zs, hz⟩ := OMap.mem_keys.1 (isChain_consecutive h2.chain e he)
  exact ⟨avg zs, by rw [interTransform_get?, hz]; rfl⟩

include hl hs hobs hC hoo in
/-- C19, what the code computes from exact measurements (`C c` the true pose of camera `c`: a world
point has coordinates `C c • X` in it, hence object `o` at world pose `W f o` is seen at
`C c * W f o`): the pose of camera `c` is the product, in path order, of the true relative poses
`C y * (C x)⁻¹` of consecutive cameras of the chosen path. -/
theorem C19_formula (havg : Averages avg) (C : Nat → G) (W : Nat → Nat → G)
    (hexact : ∀ (i : Nat) o, oo[i]? = some o → pose i = C o.cam * W o.frame o.obj)
    (gs : OMap Nat (CamGroup G)) (hg : buildGroups s oo pose avg choose = .ok gs)
    (i : Nat) (g : CamGroup G) (hi : OMap.get? gs i = some g) (c : Nat)
    (hc : c ∈ OMap.keys g.cameras) :
    ∃ p, (cameraGraph s (cameraPairs s oo pose)).shortestPathBetween (choose g.refCam c) g.refCam c
        = .ok p ∧ IsPath (BothSee obs' objs) g.refCam c p ∧
      OMap.get? g.poses c = some ((p.zip p.tail).map fun e => C e.2 * (C e.1)⁻¹).prod := by
  have hd := desc nCam nBoard l hl s hs
  have hf := fromBoards nCam nBoard l hl s hs obs' hobs bpts objs hC oo hoo
  obtain ⟨gs', pl, h1, hcol, h3, hpl, h4, h5⟩ := buildGroups_ok hl hd hf pose avg choose
  rw [hg] at h1
  simp only [Outcome.ok.injEq] at h1
  subst h1
  have hm := h5 i g hi
  have hin : OMap.keys g.cameras ∈ gs.map fun e => OMap.keys e.2.cameras :=
    List.mem_map.2 ⟨(i, g), (OMap.get?_eq_some hcol.sorted).1 hi, rfl⟩
  have hmem : g.refCam ∈ observingCams nCam l := h4.perm.subset (List.mem_flatten.2
    ⟨_, hin, mem_of_head? hm.ref⟩)
  have hlink := (h4.linked _ hin g.refCam (mem_of_head? hm.ref) c).1 hc
  have e1 := hpl _ hmem c hlink
  rw [← measured_cams hd hf pose] at hlink
  obtain ⟨p, q1, q2, q3⟩ := (cams_tableOk hl hd hf pose).placement id avg (choose g.refCam c) hmem hlink
  have hgr : cameraGraph s (cameraPairs s oo pose) = Graph.run (graphCalls (observingCams nCam l)
      (tableEdges (cameraPairs s oo pose))) := by
    unfold cameraGraph; rw [cameraVertices_eq hd]
  refine ⟨p, by rw [hgr]; exact q1, ?_, ?_⟩
  · rw [← share_iff nCam nBoard l hl s hs obs' hobs bpts objs hC oo hoo, ← measured_cams hd hf pose]
    exact q2
  · rw [q3] at e1
    simp only [Outcome.ok.injEq] at e1
    rw [hm.filled.poses, if_pos hc, ← e1]
    congr 2
    apply List.map_congr_left
    rintro ⟨x, y⟩ he
    obtain ⟨zs, hz⟩ := OMap.mem_keys.1 (isChain_consecutive q2.chain _ he)
    rw [hz]
    obtain ⟨hne, hzs⟩ := get?_cameraPairs hd hf pose hz
    apply havg zs _ hne
    intro z hzz
    obtain ⟨i, j, a, b, r1, r2, r3, r4, rfl, rfl, rfl⟩ := hzs z hzz
    rw [hexact i a r1, hexact j b r2, r3, r4]
    group

include hl hs hobs hC hoo in
/-- C19 for a camera placed by a path of at most one edge: its pose is its true pose relative to the
reference camera. -/
theorem C19_direct (havg : Averages avg) (C : Nat → G) (W : Nat → Nat → G)
    (hexact : ∀ (i : Nat) o, oo[i]? = some o → pose i = C o.cam * W o.frame o.obj)
    (gs : OMap Nat (CamGroup G)) (hg : buildGroups s oo pose avg choose = .ok gs)
    (i : Nat) (g : CamGroup G) (hi : OMap.get? gs i = some g) (c : Nat)
    (hc : c ∈ OMap.keys g.cameras) (p : List Nat)
    (hp : (cameraGraph s (cameraPairs s oo pose)).shortestPathBetween (choose g.refCam c) g.refCam c
        = .ok p) (hlen : p.length ≤ 2) :
    OMap.get? g.poses c = some (C c * (C g.refCam)⁻¹) := by
  obtain ⟨p', h1, h2, h3⟩ := C19_formula nCam nBoard l hl s hs obs' hobs bpts objs hC oo hoo
    pose avg choose havg C W hexact gs hg i g hi c hc
  rw [hp] at h1
  simp only [Outcome.ok.injEq] at h1
  subst h1
  rw [h3]
  have hh := h2.head
  have hla := h2.last
  match p, hlen, hh, hla with
  | [x], _, hh, hla =>
    simp only [List.head?_cons, List.getLast?_singleton, Option.some.injEq] at hh hla
    rw [← hh, ← hla]
    simp
  | [x, y], _, hh, hla =>
    simp only [List.head?_cons, List.getLast?_cons_cons, List.getLast?_singleton,
      Option.some.injEq] at hh hla
    rw [← hh, ← hla]
    simp

include hl hs hobs hC hoo in
/-- C19 for groups of at most two cameras: all poses are true. -/
theorem C19_two_cameras (havg : Averages avg) (C : Nat → G) (W : Nat → Nat → G)
    (hexact : ∀ (i : Nat) o, oo[i]? = some o → pose i = C o.cam * W o.frame o.obj)
    (gs : OMap Nat (CamGroup G)) (hg : buildGroups s oo pose avg choose = .ok gs)
    (i : Nat) (g : CamGroup G) (hi : OMap.get? gs i = some g) (hlen : g.cameras.length ≤ 2) (c : Nat)
    (hc : c ∈ OMap.keys g.cameras) :
    OMap.get? g.poses c = some (C c * (C g.refCam)⁻¹) := by
  obtain ⟨p, h1, h2, _⟩ := C19_formula nCam nBoard l hl s hs obs' hobs bpts objs hC oo hoo
    pose avg choose havg C W hexact gs hg i g hi c hc
  apply C19_direct nCam nBoard l hl s hs obs' hobs bpts objs hC oo hoo
    pose avg choose havg C W hexact gs hg i g hi c hc p h1
  have href := ((C18_reference nCam nBoard l hl s hs obs' hobs bpts objs hC oo hoo pose avg choose gs
    hg).2.1 i g hi).2.1
  have hlink := (C18_member nCam nBoard l hl s hs obs' hobs bpts objs hC oo hoo pose avg choose gs
    hg).2.2 i g hi g.refCam href
  have hsub : p ⊆ OMap.keys g.cameras := by
    intro x hx
    rw [hlink]
    exact path_linked p g.refCam h2.head h2.chain x hx
  have := (List.subperm_of_subset h2.nodup hsub).length_le
  simp only [OMap.keys, List.length_map] at this
  omega

include hl hs hobs hC hoo in
/-- C19 for commuting poses (for instance pure translations): all poses are true. -/
theorem C19_commuting (hcomm : ∀ a b : G, a * b = b * a) (havg : Averages avg) (C : Nat → G)
    (W : Nat → Nat → G)
    (hexact : ∀ (i : Nat) o, oo[i]? = some o → pose i = C o.cam * W o.frame o.obj)
    (gs : OMap Nat (CamGroup G)) (hg : buildGroups s oo pose avg choose = .ok gs)
    (i : Nat) (g : CamGroup G) (hi : OMap.get? gs i = some g) (c : Nat)
    (hc : c ∈ OMap.keys g.cameras) :
    OMap.get? g.poses c = some (C c * (C g.refCam)⁻¹) := by
  obtain ⟨p, _, h2, h3⟩ := C19_formula nCam nBoard l hl s hs obs' hobs bpts objs hC oo hoo
    pose avg choose havg C W hexact gs hg i g hi c hc
  rw [h3, hcomm (C c), ← prod_telescope C p g.refCam c h2.head h2.last]
  congr 2
  apply List.map_congr_left
  rintro ⟨x, y⟩ _
  exact hcomm _ _

include hl hs hobs hC hoo in
/-- C19, when the code is right: exactly when multiplying the relative poses of the chosen path in path
order gives the same as in the opposite order (the right one). -/
theorem C19_true_iff (havg : Averages avg) (C : Nat → G) (W : Nat → Nat → G)
    (hexact : ∀ (i : Nat) o, oo[i]? = some o → pose i = C o.cam * W o.frame o.obj)
    (gs : OMap Nat (CamGroup G)) (hg : buildGroups s oo pose avg choose = .ok gs)
    (i : Nat) (g : CamGroup G) (hi : OMap.get? gs i = some g) (c : Nat)
    (hc : c ∈ OMap.keys g.cameras) :
    ∃ p, (cameraGraph s (cameraPairs s oo pose)).shortestPathBetween (choose g.refCam c) g.refCam c
        = .ok p ∧ IsPath (BothSee obs' objs) g.refCam c p ∧
      (OMap.get? g.poses c = some (C c * (C g.refCam)⁻¹) ↔
        ((p.zip p.tail).map fun e => C e.2 * (C e.1)⁻¹).prod =
        ((p.zip p.tail).map fun e => C e.2 * (C e.1)⁻¹).reverse.prod) := by
  obtain ⟨p, h1, h2, h3⟩ := C19_formula nCam nBoard l hl s hs obs' hobs bpts objs hC oo hoo
    pose avg choose havg C W hexact gs hg i g hi c hc
  refine ⟨p, h1, h2, ?_⟩
  have ht := prod_telescope (fun x => (C x)⁻¹) p g.refCam c h2.head h2.last
  have hr : ((p.zip p.tail).map fun e => C e.2 * (C e.1)⁻¹).reverse.prod = C c * (C g.refCam)⁻¹ := by
    have e := List.prod_inv_reverse ((p.zip p.tail).map fun e => ((C e.1)⁻¹)⁻¹ * (C e.2)⁻¹)
    have ht' : ((p.zip p.tail).map fun e => ((C e.1)⁻¹)⁻¹ * (C e.2)⁻¹).prod =
      ((C g.refCam)⁻¹)⁻¹ * (C c)⁻¹ := ht
    rw [ht', List.map_map] at e
    have e2 : ((p.zip p.tail).map fun e => C e.2 * (C e.1)⁻¹) =
        (p.zip p.tail).map ((fun x : G => x⁻¹) ∘ fun e => ((C e.1)⁻¹)⁻¹ * (C e.2)⁻¹) := by
      apply List.map_congr_left
      intro e _
      simp
    rw [e2, ← e]
    simp
  rw [h3, hr, Option.some.injEq]

include hl hs hobs hC hoo in
/-- C19, when the code is right on a path of two edges: exactly when the two relative poses commute. -/
theorem C19_two_edges_iff (havg : Averages avg) (C : Nat → G) (W : Nat → Nat → G)
    (hexact : ∀ (i : Nat) o, oo[i]? = some o → pose i = C o.cam * W o.frame o.obj)
    (gs : OMap Nat (CamGroup G)) (hg : buildGroups s oo pose avg choose = .ok gs)
    (i : Nat) (g : CamGroup G) (hi : OMap.get? gs i = some g) (a c : Nat)
    (hc : c ∈ OMap.keys g.cameras)
    (hp : (cameraGraph s (cameraPairs s oo pose)).shortestPathBetween (choose g.refCam c) g.refCam c
        = .ok [g.refCam, a, c]) :
    OMap.get? g.poses c = some (C c * (C g.refCam)⁻¹) ↔
      Commute (C a * (C g.refCam)⁻¹) (C c * (C a)⁻¹) := by
  obtain ⟨p', h1, h2, h3⟩ := C19_formula nCam nBoard l hl s hs obs' hobs bpts objs hC oo hoo
    pose avg choose havg C W hexact gs hg i g hi c hc
  rw [hp] at h1
  simp only [Outcome.ok.injEq] at h1
  subst h1
  rw [h3]
  simp only [List.tail_cons, List.zip_cons_cons, List.zip_nil_right, List.map_cons, List.map_nil,
    List.prod_cons, List.prod_nil, mul_one, Option.some.injEq]
  unfold Commute SemiconjBy
  have : C c * (C a)⁻¹ * (C a * (C g.refCam)⁻¹) = C c * (C g.refCam)⁻¹ := by group
  rw [this]

end

/-! ### Group observations -/

/-- C20: after (re)building the group observations of a collection of camera groups from the object
observations `oo` and the frames `frames`, there is a group observation for (group, frame) iff a camera
of the group saw an object in the frame, and it lists each of these object observations exactly once,
in order. -/
theorem C20_groupObs [Group G] (oo : List (ObjObs P)) (frames : List Nat) (hnd : frames.Nodup)
    (gs : OMap Nat (CamGroup G)) (hC : Collection gs)
    (hfs : ∀ i g, OMap.get? gs i = some g → OMap.Sorted g.frames)
    (t0 : GroupTables G) (ht0 : t0.groups = gs) :
    ∃ t, mergeAllCameraGroupObs oo frames t0 = .ok t ∧
      (∀ i f is, OMap.get? t.groupObs (i, f) = some is ↔
        ∃ g, OMap.get? gs i = some g ∧ f ∈ frames ∧ is ≠ [] ∧
          is = positions (fun o : ObjObs P => o.frame == f && decide (o.cam ∈ OMap.keys g.cameras)) oo) ∧
      (∀ i f is, OMap.get? t.groupObs (i, f) = some is → is.Nodup ∧
        ∀ k : Nat, k ∈ is ↔ ∃ o g, oo[k]? = some o ∧ OMap.get? gs i = some g ∧ o.frame = f ∧
          o.cam ∈ OMap.keys g.cameras) ∧
      (∀ f, (OMap.get? t.frameGroups f).getD [] = (OMap.keys gs).filter fun i =>
        (OMap.get? t.groupObs (i, f)).isSome) := by
  have hid : ∀ e ∈ gs, e.2.id = e.1 := fun e he => hC.id e.1 e.2 ((OMap.get?_eq_some hC.sorted).2 he)
  obtain ⟨t, h1, h2⟩ := groupsDone oo frames hnd gs hC.sorted hfs (OMap.keys gs)
    (OMap.keys_nodup hC.sorted) fun i hi => hi
  have hsees : ∀ i g, OMap.get? gs i = some g → ∀ f, groupSees oo g.camIdx f =
      positions (fun o : ObjObs P => o.frame == f && decide (o.cam ∈ OMap.keys g.cameras)) oo := by
    intro i g hi f
    rw [groupSees_eq]
    congr 1
    funext o
    congr 1
    exact decide_eq_decide.2 ((hC.camIdx i g hi).mem_iff)
  have hobs : ∀ i f is, OMap.get? t.groupObs (i, f) = some is ↔
        ∃ g, OMap.get? gs i = some g ∧ f ∈ frames ∧ is ≠ [] ∧
          is = positions (fun o : ObjObs P => o.frame == f && decide (o.cam ∈ OMap.keys g.cameras)) oo := by
    intro i f is
    rw [h2.obs]
    constructor
    · rintro ⟨_, g, q1, q2, q3, q4⟩
      exact ⟨g, q1, q2, q4, by rw [← hsees i g q1]; exact q3⟩
    · rintro ⟨g, q1, q2, q3, q4⟩
      exact ⟨OMap.mem_keys.2 ⟨g, q1⟩, g, q1, q2, by rw [hsees i g q1]; exact q4, q3⟩
  refine ⟨t, ?_, hobs, ?_, ?_⟩
  · unfold mergeAllCameraGroupObs
    rw [ht0] at *
    rw [initAllCameraGroupObs_eq oo frames _ (by rw [ht0]; exact hid), ht0]
    exact h1
  · intro i f is his
    obtain ⟨g, q1, q2, q3, rfl⟩ := (hobs i f is).1 his
    refine ⟨List.Nodup.filter _ List.nodup_range, fun k => ?_⟩
    rw [Props.Store.positions_get]
    constructor
    · rintro ⟨o, ho, hp⟩
      simp only [Bool.and_eq_true, beq_iff_eq, decide_eq_true_eq] at hp
      exact ⟨o, g, ho, q1, hp.1, hp.2⟩
    · rintro ⟨o, g', ho, hg', hf, hc⟩
      rw [q1] at hg'
      simp only [Option.some.injEq] at hg'
      subst hg'
      exact ⟨o, ho, by simp [hf, hc]⟩
  · intro f
    rw [h2.fg]
    apply List.filter_congr
    intro i hi
    obtain ⟨g, hg⟩ := OMap.mem_keys.1 hi
    rw [hg, Option.any_some, Bool.eq_iff_iff, decide_eq_true_iff, Option.isSome_iff_exists]
    constructor
    · rintro ⟨q1, q2⟩
      exact ⟨_, (h2.obs i f _).2 ⟨hi, g, hg, q1, rfl, q2⟩⟩
    · rintro ⟨is, his⟩
      obtain ⟨_, g', hg', q1, rfl, q2⟩ := (h2.obs i f _).1 his
      rw [hg] at hg'
      simp only [Option.some.injEq] at hg'
      subst hg'
      exact ⟨q1, q2⟩

/-- C20: the group's own list of object observations is extended by the observations of its cameras,
frame by frame. -/
theorem C20_groupObjObs [Group G] (oo : List (ObjObs P)) (frames : List Nat) (hnd : frames.Nodup)
    (gs : OMap Nat (CamGroup G)) (hC : Collection gs)
    (hfs : ∀ i g, OMap.get? gs i = some g → OMap.Sorted g.frames)
    (t0 t : GroupTables G) (ht0 : t0.groups = gs) (ht : mergeAllCameraGroupObs oo frames t0 = .ok t)
    (i : Nat) (g g' : CamGroup G) (hg : OMap.get? gs i = some g) (hg' : OMap.get? t.groups i = some g') :
    g'.objObs = g.objObs ++ frames.flatMap (fun f =>
      positions (fun o : ObjObs P => o.frame == f && decide (o.cam ∈ OMap.keys g.cameras)) oo) ∧
    g'.cameras = g.cameras ∧ g'.poses = g.poses ∧ g'.refCam = g.refCam := by
  have hid : ∀ e ∈ gs, e.2.id = e.1 := fun e he => hC.id e.1 e.2 ((OMap.get?_eq_some hC.sorted).2 he)
  obtain ⟨t', h1, h2⟩ := groupsDone oo frames hnd gs hC.sorted hfs (OMap.keys gs)
    (OMap.keys_nodup hC.sorted) fun i hi => hi
  unfold mergeAllCameraGroupObs at ht
  rw [initAllCameraGroupObs_eq oo frames _ (by rw [ht0]; exact hid), ht0, h1] at ht
  simp only [Outcome.ok.injEq] at ht
  subst ht
  have := h2.groups i
  rw [hg', hg] at this
  simp only [Option.map_some, OMap.mem_keys.2 ⟨g, hg⟩, if_true, Option.getD_some,
    Option.some.injEq] at this
  rw [this]
  refine ⟨?_, rfl, rfl, rfl⟩
  dsimp only
  congr 2
  funext f
  rw [groupSees_eq]
  congr 1
  funext o
  congr 1
  exact decide_eq_decide.2 ((hC.camIdx i g hg).mem_iff)

/-! ### Concrete cases

One board, three cameras: frame 0 is seen by cameras 0 and 1, frame 1 by cameras 1 and 2, frame 2 by
camera 3 alone.  Poses are permutations of three points. -/

/-- Board observations. -/
def demo : List (Insertion Nat Nat) :=
  [⟨⟨0, 0, 0, [7], [0]⟩, 0⟩, ⟨⟨1, 0, 0, [8], [0]⟩, 0⟩, ⟨⟨1, 1, 0, [9], [0]⟩, 0⟩,
   ⟨⟨2, 1, 0, [5], [0]⟩, 0⟩, ⟨⟨3, 2, 0, [5], [0]⟩, 0⟩]

/-- As `demo`, with cameras 0, 1 and 1, 2 seeing two more frames and 0, 2 together one frame. -/
def demoTriangle : List (Insertion Nat Nat) :=
  demo ++ [⟨⟨0, 3, 0, [7], [0]⟩, 0⟩, ⟨⟨1, 3, 0, [8], [0]⟩, 0⟩, ⟨⟨1, 4, 0, [9], [0]⟩, 0⟩,
   ⟨⟨2, 4, 0, [5], [0]⟩, 0⟩, ⟨⟨0, 5, 0, [5], [0]⟩, 0⟩, ⟨⟨2, 5, 0, [5], [0]⟩, 0⟩]

/-- True camera poses. -/
def demoC : Nat → Equiv.Perm (Fin 3)
  | 1 => Equiv.swap 0 1
  | 2 => Equiv.swap 1 2
  | _ => 1

/-- The single object, made of the board. -/
def demoObjs : OMap Nat (Object (Equiv.Perm (Fin 3)) (Fin 3)) :=
  [(0, { id := 0, refBoard := 0, nbBoards := 1, boards := [(0, ())], poses := [(0, 1)],
         pts := [0], o2b := [(0, 0)], b2o := [((0, 0), 0)], nbPts := 1 })]

/-- Tables, object observations and camera groups of a list of insertions, with exact poses: the board
at the identity pose in the world. -/
def demoRun (l : List (Insertion Nat Nat)) :
    Outcome (Store Nat Nat × List (ObjObs Nat) × OMap Nat (CamGroup (Equiv.Perm (Fin 3)))) := do
  let s ← Store.run 4 1 l
  let oo ← initAllObjectObs s demoObjs []
  let gs ← buildGroups s oo (fun i => demoC (((oo[i]?).map (·.cam)).getD 0)) Props.Objects.firstOr
    fun _ _ _ => 0
  pure (s, oo, gs)

/-- What the concrete cases show of the groups: members and poses. -/
def demoShow (l : List (Insertion Nat Nat)) : List (Nat × List (Nat × Equiv.Perm (Fin 3))) :=
  match demoRun l with
  | .ok (_, _, gs) => gs.map fun e => (e.2.refCam, e.2.poses)
  | _ => []

/-- The hypotheses of C17-C19 are met by `demo` (with exact poses for any true camera poses). -/
example (C : Nat → Equiv.Perm (Fin 3)) : (∀ a ∈ demo, a.obs.cam < 4 ∧ a.obs.board < 1) ∧
    ∃ (s : Store Nat Nat) (objs : OMap Nat (Object (Equiv.Perm (Fin 3)) (Fin 3)))
      (oo : List (ObjObs Nat)) (pose : Nat → Equiv.Perm (Fin 3)), Store.run 4 1 demo = .ok s ∧ Spec.Objects.SameViews s.obs s.obs ∧
      Spec.Objects.Collection ([[0]] : List (List (Fin 3))) objs ∧
      initAllObjectObs { s with obs := s.obs } objs [] = .ok oo ∧
      (∀ (i : Nat) o, oo[i]? = some o → pose i = C o.cam * 1) ∧
      ∃ gs, buildGroups s oo pose Props.Objects.firstOr (fun _ _ _ => 0) = .ok gs := by
  have hl : ∀ a ∈ demo, a.obs.cam < 4 ∧ a.obs.board < 1 := by decide
  refine ⟨hl, ?_⟩
  obtain ⟨s, hs, hd⟩ := Props.Store.C06_indexes 4 1 demo hl
  have hsv : Spec.Objects.SameViews s.obs s.obs := by
    refine ⟨rfl, ?_⟩
    rw [hd.obs]
    decide
  obtain ⟨objs, ho, _⟩ := Props.Objects.C11_partition 4 1 demo hl s hs (fun _ => (1 : Equiv.Perm (Fin 3)))
    Props.Objects.firstOr ([[0]] : List (List (Fin 3))) rfl (fun _ _ _ => 0)
  have hC := Props.Objects.C24_initial 4 1 demo hl s hs (fun _ => (1 : Equiv.Perm (Fin 3)))
    Props.Objects.firstOr ([[0]] : List (List (Fin 3))) rfl (fun _ _ _ => 0) objs ho
  have hoo := Props.Objects.C16_observations 4 1 demo hl s hs s.obs hsv _ objs hC
  obtain ⟨gs, hg, _⟩ := C18_partition 4 1 demo hl s hs s.obs hsv _ objs hC _ hoo
    (fun i => C ((((objs.flatMap fun e => Spec.Objects.allObjObs e.2 s.obs
      (OMap.keys s.camObs))[i]?).map (·.cam)).getD 0)) Props.Objects.firstOr (fun _ _ _ => 0)
  refine ⟨s, objs, _, _, hs, hsv, hC, hoo, ?_, gs, hg⟩
  intro i o hi
  rw [hi, Option.map_some, Option.getD_some, mul_one]

/-- A collection of two groups meets the hypotheses of C20; the frame with a seeing camera gets an
observation. -/
example : (match mergeAllCameraGroupObs
      ([⟨0, 0, 5, [0], [0], [1], [0]⟩, ⟨0, 2, 5, [1], [0], [1], [0]⟩, ⟨1, 1, 6, [2], [1], [1], [0]⟩] : List (ObjObs Nat))
      [5, 6, 7] ({ groups := [(0, { id := 0, refCam := 0, cameras := [(0, ()), (1, ())], camIdx := [0, 1], poses := [(0, 1), (1, 1)] }),
        (1, { id := 1, refCam := 2, cameras := [(2, ())], camIdx := [2], poses := [(2, 1)] })] } : GroupTables (Equiv.Perm (Fin 3))) with
    | .ok t => t.groupObs
    | _ => []) = [((0, 5), [0]), ((0, 6), [2]), ((1, 5), [1])] := by
  decide +kernel

/-- C19 fails for a chain of two edges: camera 2 gets `T(0,1) T(1,2)`, not its true pose. -/
theorem C19_chain_wrong : demoShow demo =
      [(0, [(0, 1), (1, demoC 1), (2, demoC 1 * (demoC 2 * (demoC 1)⁻¹))]), (3, [(3, 1)])] ∧
    demoC 1 * (demoC 2 * (demoC 1)⁻¹) ≠ demoC 2 * (demoC 0)⁻¹ := by
  constructor <;> decide +kernel

/-- C19 even fails for a camera that saw the object together with the reference camera: cameras 0, 2
share one frame only (weight 1), the detour over camera 1 (two frames each, integer weight 0) is
preferred, and the pose is the same wrong one. -/
theorem C19_adjacent_wrong : demoShow demoTriangle =
      [(0, [(0, 1), (1, demoC 1), (2, demoC 1 * (demoC 2 * (demoC 1)⁻¹))]), (3, [(3, 1)])] := by
  decide +kernel

end Verif.Props.Groups
