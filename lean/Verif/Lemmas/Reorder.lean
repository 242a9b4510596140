import Verif.Spec.Reorder
import Verif.Lemmas.Trust
import Verif.Lemmas.Units
import Verif.Props.Trust

/-! The tables of pairs do not depend on the order of the images. -/
namespace Verif.Lemmas.Reorder
open Verif Verif.Objects Verif.Groups Verif.Structure Verif.Spec.Store Verif.Spec.Trust Verif.Spec.Reorder Verif.Spec.Schedule
open Verif.Lemmas.Objects Verif.Lemmas.Groups Verif.Lemmas.Structure Verif.Lemmas.Trust
open Verif.Spec.Units (values)
open Verif.Props.Trust (Unordered)

variable {G Pt P Path : Type}

theorem values_sorted {K A B : Type} [DecidableEq K] [Key K] (F : A → B) {m : OMap K A} (h : OMap.Sorted m) : OMap.Sorted (values F m) := by
  unfold OMap.Sorted values at *
  exact List.pairwise_map.2 h

/-- Tables with the same entries up to order. -/
theorem values_perm {B : Type} {t t' : PairTable G} (hs : OMap.Sorted t) (hs' : OMap.Sorted t')
    (hne : ∀ k zs, OMap.get? t k = some zs → zs ≠ []) (hne' : ∀ k zs, OMap.get? t' k = some zs → zs ≠ [])
    (hp : ∀ k, ((OMap.get? t' k).getD []).Perm ((OMap.get? t k).getD []))
    (F : List G → B) (hF : ∀ zs zs', zs.Perm zs' → F zs = F zs') : values F t' = values F t := by
  refine OMap.ext (values_sorted F hs') (values_sorted F hs) fun k => ?_
  rw [Units.get_values, Units.get_values]
  have h := hp k
  rcases h1 : OMap.get? t k with _ | zs <;> rcases h2 : OMap.get? t' k with _ | zs' <;> simp only [h1, h2] at h
  · rfl
  · exact absurd (List.perm_nil.1 h) (hne' k _ h2)
  · exact absurd (List.nil_perm.1 h) (hne k _ h1)
  · exact congrArg some (hF _ _ h)

theorem tables_same {t t' : PairTable G} (hs : OMap.Sorted t) (hs' : OMap.Sorted t')
    (hne : ∀ k zs, OMap.get? t k = some zs → zs ≠ []) (hne' : ∀ k zs, OMap.get? t' k = some zs → zs ≠ [])
    (hp : ∀ k, ((OMap.get? t' k).getD []).Perm ((OMap.get? t k).getD []))
    (avg : List G → G) (ha : Unordered avg) :
    interTransform avg t' = interTransform avg t ∧ tableEdges t' = tableEdges t := by
  constructor
  · exact values_perm hs hs' hne hne' hp avg ha
  · have e : ∀ t : PairTable G, tableEdges t = (values List.length t).map fun e => (e.1.1, e.1.2, 1 / (e.2 : Rat)) := by
      intro t
      unfold tableEdges values
      rw [List.map_map]
      rfl
    rw [e, e, values_perm hs hs' hne hne' hp List.length fun _ _ h => h.length_eq]

/-! ### Boards -/

/-- What the measurements of boards depend on. -/
def boardMeasuresOf [Group G] (L : List (BoardObs P × G)) (a b : Nat) : List G :=
  L.flatMap fun x => L.filterMap fun y =>
    if x.1.cam = y.1.cam ∧ x.1.frame = y.1.frame ∧ x.1.board = a ∧ y.1.board = b then some (y.2⁻¹ * x.2) else none

theorem measures_of [Group G] (l : List (Insertion P Path)) (q : BoardObs P → G) (pose : Nat → G)
    (hp : ∀ i a, l[i]? = some a → pose i = q a.obs) (a b : Nat) :
    boardMeasures l pose a b = boardMeasuresOf (l.map fun x => (x.obs, q x.obs)) a b := by
  have e : (l.map fun x => (x.obs, q x.obs)) = l.zipIdx.map fun x => (x.1.obs, pose x.2) := by
    conv_lhs => rw [← List.zipIdx_map_fst 0 l, List.map_map]
    apply List.map_congr_left
    rintro ⟨x, i⟩ hx
    rw [Function.comp_apply, hp i x (List.mem_zipIdx_iff_getElem?.1 hx)]
  unfold boardMeasures boardMeasuresOf
  rw [e, List.flatMap_map]
  apply List.flatMap_congr
  intro x _
  rw [List.filterMap_map]
  rfl

theorem boardMeasures_perm [Group G] {L L' : List (BoardObs P × G)} (h : L'.Perm L) (a b : Nat) :
    (boardMeasuresOf L' a b).Perm (boardMeasuresOf L a b) := by
  unfold boardMeasuresOf
  exact (h.flatMap_right _).trans (List.Perm.flatMap_left _ fun x _ => h.filterMap _)

theorem boardMeasures_renamed [Group G] (σ : Equiv.Perm Nat) (L : List (BoardObs P × G)) (a b : Nat) :
    boardMeasuresOf (L.map fun x => (renamed σ x.1, x.2)) a b = boardMeasuresOf L a b := by
  unfold boardMeasuresOf
  rw [List.flatMap_map]
  apply List.flatMap_congr
  intro x _
  rw [List.filterMap_map]
  apply List.filterMap_congr
  intro y _
  simp only [Function.comp_apply, renamed, σ.injective.eq_iff]

/-- Reordered images hold the same detections. -/
theorem perm_of_reordered {σ : Equiv.Perm Nat} {l l' : List (Insertion P Path)} (h : Reordered σ l l') :
    (l'.map (·.obs)).Perm (l.map fun a => renamed σ a.obs) := by
  classical
  let g : BoardObs P → Nat × Nat := fun o => (o.cam, o.frame)
  let L' := l'.map (·.obs)
  let L := l.map fun a => renamed σ a.obs
  let ks := ((L' ++ L).map g).dedup
  have hk : ∀ x ∈ L' ++ L, g x ∈ ks := fun x hx => List.mem_dedup.2 (List.mem_map.2 ⟨x, hx, rfl⟩)
  have h1 := grouped_perm g ks (List.nodup_dedup _) L' fun x hx => hk x (List.mem_append_left _ hx)
  have h2 := grouped_perm g ks (List.nodup_dedup _) L fun x hx => hk x (List.mem_append_right _ hx)
  refine h1.symm.trans ((List.Perm.of_eq ?_).trans h2)
  apply List.flatMap_congr
  rintro ⟨c, f⟩ _
  have := h c (σ.symm f)
  rw [Equiv.apply_symm_apply] at this
  have e1 : L'.filter (fun x => decide (g x = (c, f))) = (l'.filter (byCamFrame c f)).map (·.obs) := by
    show List.filter _ (l'.map _) = _
    rw [List.filter_map]
    congr 1
    apply List.filter_congr
    intro x _
    rw [Bool.eq_iff_iff]
    simp [g, byCamFrame]
  have e2 : L.filter (fun x => decide (g x = (c, f))) = (l.filter (byCamFrame c (σ.symm f))).map fun a => renamed σ a.obs := by
    show List.filter _ (l.map _) = _
    rw [List.filter_map]
    congr 1
    apply List.filter_congr
    intro x _
    rw [Bool.eq_iff_iff]
    simp [g, byCamFrame, renamed, Equiv.eq_symm_apply]
  rw [e1, e2, this]

theorem posesOf_obs [Group G] {nCam nBoard : Nat} {l : List (Insertion P Path)} {s : Store P Path}
    (d : Describes nCam nBoard l s) (q : BoardObs P → G) (i : Nat) (a : Insertion P Path) (hi : l[i]? = some a) :
    posesOf s q i = q a.obs := by
  unfold posesOf
  rw [d.obs, List.getElem?_map, hi]
  rfl

/-- The entries of the tables of boards of two runs. -/
theorem boards_entries [Group G] {nCam nBoard : Nat} {σ : Equiv.Perm Nat} {l l' : List (Insertion P Path)} {s s' : Store P Path}
    (hs : Describes nCam nBoard l s) (hs' : Describes nCam nBoard l' s') (h : Reordered σ l l')
    (q : BoardObs P → G) (hq : ∀ o, q (renamed σ o) = q o) (k : Nat × Nat) :
    ((OMap.get? (boardPairs s' (posesOf s' q)) k).getD []).Perm ((OMap.get? (boardPairs s (posesOf s q)) k).getD []) := by
  obtain ⟨a, b⟩ := k
  by_cases hab : a = b
  · subst hab
    have hn : ∀ {l : List (Insertion P Path)} {s : Store P Path}, Describes nCam nBoard l s →
        OMap.get? (boardPairs s (posesOf s q)) (a, a) = none := by
      intro l s hs
      rw [OMap.get?_eq_none, mem_keys_boardPairs hs]
      rintro ⟨hne, _⟩
      exact hne rfl
    rw [hn hs, hn hs']
  · refine (boards_perm hs' _ a b hab).trans (List.Perm.trans ?_ (boards_perm hs _ a b hab).symm)
    rw [measures_of l' q _ (posesOf_obs hs' q), measures_of l q _ (posesOf_obs hs q)]
    rw [← boardMeasures_renamed σ (l.map _)]
    apply boardMeasures_perm
    have := (perm_of_reordered h).map fun o => (o, q o)
    rw [List.map_map, List.map_map] at this
    rw [List.map_map]
    refine this.trans (List.Perm.of_eq ?_)
    apply List.map_congr_left
    intro x _
    show (_, q (renamed σ x.obs)) = _
    rw [hq]
    rfl

theorem mem_obs {σ : Equiv.Perm Nat} {l l' : List (Insertion P Path)} (h : Reordered σ l l') (p : BoardObs P → Bool)
    (hp : ∀ o, p (renamed σ o) = p o) : l'.any (fun a => p a.obs) = l.any fun a => p a.obs := by
  have e := (perm_of_reordered h).any_eq (f := p)
  rw [List.any_map, List.any_map] at e
  refine e.trans ?_
  congr 1
  funext a
  exact hp _

/-- The initial objects do not depend on the order of the images. -/
theorem objects_same [Group G] [SMul G Pt] {nCam nBoard : Nat} {σ : Equiv.Perm Nat} {l l' : List (Insertion P Path)}
    {s s' : Store P Path} (hs : Describes nCam nBoard l s) (hs' : Describes nCam nBoard l' s') (h : Reordered σ l l')
    (q : BoardObs P → G) (hq : ∀ o, q (renamed σ o) = q o) (avg : List G → G) (ha : Unordered avg) (bpts : List (List Pt))
    (choose : Nat → Nat → Graph.DState → Nat) :
    buildObjects s' (posesOf s' q) avg bpts choose = buildObjects s (posesOf s q) avg bpts choose := by
  have ht := tables_same (t := boardPairs s (posesOf s q)) (t' := boardPairs s' (posesOf s' q)) (push_fold _).1 (push_fold _).1
    (fun k zs hz => (get?_boardPairs hs _ hz).1) (fun k zs hz => (get?_boardPairs hs' _ hz).1)
    (boards_entries hs hs' h q hq) avg ha
  unfold buildObjects boardGraph
  dsimp only
  rw [ht.1, ht.2, boardVertices_eq hs, boardVertices_eq hs']
  have : Spec.Objects.observedBoards nBoard l' = Spec.Objects.observedBoards nBoard l := by
    unfold Spec.Objects.observedBoards
    apply List.filter_congr
    intro b _
    exact mem_obs h (fun o => o.board == b) fun _ => rfl
  rw [this]

/-! ### Object observations -/

theorem objObs_sel (o : Object G Pt) (obs : List (BoardObs P)) (c f : Nat) :
    ((Spec.Objects.seenOf o obs c f).filterMap fun i => obs[i]?) =
      (obs.filter fun bo => bo.cam == c && bo.frame == f).filter fun bo => decide (bo.board ∈ OMap.keys o.boards) := by
  have := positions_map (fun bo : BoardObs P => bo.cam == c && bo.frame == f && decide (bo.board ∈ OMap.keys o.boards)) obs
    fun a _ => a
  unfold Spec.Objects.seenOf
  have e : (fun i => obs[i]?) = fun i : Nat => (obs[i]?).map fun a => a := by
    funext i
    cases obs[i]? <;> rfl
  rw [e, this, List.filter_filter]
  have h2 := List.filter_map (f := fun x : BoardObs P × Nat => x.1)
    (p := fun bo : BoardObs P => bo.cam == c && bo.frame == f && decide (bo.board ∈ OMap.keys o.boards)) (l := obs.zipIdx)
  rw [List.zipIdx_map_fst] at h2
  refine Eq.trans ?_ (h2.symm.trans ?_)
  · rfl
  · apply List.filter_congr
    intro x _
    rw [Bool.and_comm]

/-- One object observation in the two runs. -/
theorem objObs_same {σ : Equiv.Perm Nat} {l l' : List (Insertion P Path)} (h : Reordered σ l l') (out : BoardObs P → BoardObs P)
    (hout : ∀ o, out (renamed σ o) = renamed σ (out o)) (hview : ∀ o, (out o).cam = o.cam ∧ (out o).frame = o.frame)
    (o : Object G Pt) (c f : Nat) :
    unnumbered (Spec.Objects.objObs o (l'.map fun a => out a.obs) c (σ f)) =
      unnumbered (renamedObj σ (Spec.Objects.objObs o (l.map fun a => out a.obs) c f)) := by
  have hf : ∀ (l : List (Insertion P Path)) f, ((l.map fun a => out a.obs).filter fun bo => bo.cam == c && bo.frame == f) =
      ((l.filter (byCamFrame c f)).map (·.obs)).map out := by
    intro l f
    rw [List.filter_map, List.map_map]
    congr 1
    apply List.filter_congr
    intro x _
    simp only [Function.comp_apply, (hview x.obs).1, (hview x.obs).2, byCamFrame]
  have hsel : ((Spec.Objects.seenOf o (l'.map fun a => out a.obs) c (σ f)).filterMap fun i => (l'.map fun a => out a.obs)[i]?) =
      ((Spec.Objects.seenOf o (l.map fun a => out a.obs) c f).filterMap fun i => (l.map fun a => out a.obs)[i]?).map (renamed σ) := by
    rw [objObs_sel, objObs_sel, hf, hf, h c f, List.map_map, ← List.map_map, List.map_map, List.map_map]
    rw [List.filter_map, List.filter_map, List.map_map]
    have e : ∀ a : Insertion P Path, out (renamed σ a.obs) = renamed σ (out a.obs) := fun a => hout _
    simp only [Function.comp_def, e]
    rfl
  unfold unnumbered renamedObj Spec.Objects.objObs
  simp only [hsel, List.map_map, List.flatMap_map]
  rfl

theorem keys_same {nCam nBoard : Nat} {σ : Equiv.Perm Nat} {l l' : List (Insertion P Path)} {s s' : Store P Path}
    (hs : Describes nCam nBoard l s) (hs' : Describes nCam nBoard l' s') (h : Reordered σ l l') :
    (OMap.keys s'.camObs).Perm ((OMap.keys s.camObs).map fun v => (v.1, σ v.2)) := by
  have hinj : Function.Injective fun v : Nat × Nat => (v.1, σ v.2) := by
    rintro ⟨a, b⟩ ⟨c, d⟩ e
    simp only [Prod.mk.injEq, σ.injective.eq_iff] at e
    rw [e.1, e.2]
  rw [List.perm_ext_iff_of_nodup (OMap.keys_nodup hs'.camObs_sorted) ((OMap.keys_nodup hs.camObs_sorted).map hinj)]
  rintro ⟨c, f⟩
  rw [hs'.camObs_key, List.mem_map]
  have hm : (∃ a ∈ l', a.obs.cam = c ∧ a.obs.frame = f) ↔ ∃ a ∈ l, a.obs.cam = c ∧ σ a.obs.frame = f := by
    have hp := fun {x} => (perm_of_reordered h).mem_iff (a := x)
    constructor
    · rintro ⟨a, ha, rfl, rfl⟩
      obtain ⟨b, hb, e⟩ := List.mem_map.1 (hp.1 (List.mem_map.2 ⟨a, ha, rfl⟩))
      rw [← e]
      exact ⟨b, hb, rfl, rfl⟩
    · rintro ⟨b, hb, rfl, rfl⟩
      obtain ⟨a, ha, e⟩ := List.mem_map.1 (hp.2 (List.mem_map.2 ⟨b, hb, rfl⟩))
      exact ⟨a, ha, by rw [e]; exact ⟨rfl, rfl⟩⟩
  rw [hm]
  constructor
  · rintro ⟨a, ha, rfl, rfl⟩
    exact ⟨(a.obs.cam, a.obs.frame), (hs.camObs_key _ _).2 ⟨a, ha, rfl, rfl⟩, rfl⟩
  · rintro ⟨⟨c', f'⟩, hk, e⟩
    obtain ⟨a, ha, rfl, rfl⟩ := (hs.camObs_key _ _).1 hk
    simp only [Prod.mk.injEq] at e
    exact ⟨a, ha, e.1, e.2⟩

/-- All object observations of the two runs. -/
theorem allObjObs_same {nCam nBoard : Nat} {σ : Equiv.Perm Nat} {l l' : List (Insertion P Path)} {s s' : Store P Path}
    (hs : Describes nCam nBoard l s) (hs' : Describes nCam nBoard l' s') (h : Reordered σ l l') (out : BoardObs P → BoardObs P)
    (hout : ∀ o, out (renamed σ o) = renamed σ (out o)) (hview : ∀ o, (out o).cam = o.cam ∧ (out o).frame = o.frame)
    (objs : OMap Nat (Object G Pt)) :
    SameObjects σ (objs.flatMap fun e => Spec.Objects.allObjObs e.2 (l.map fun a => out a.obs) (OMap.keys s.camObs))
      (objs.flatMap fun e => Spec.Objects.allObjObs e.2 (l'.map fun a => out a.obs) (OMap.keys s'.camObs)) := by
  unfold SameObjects
  rw [List.map_flatMap, List.map_flatMap]
  refine List.Perm.flatMap_left _ fun e _ => ?_
  unfold Spec.Objects.allObjObs
  have h1 := (((keys_same hs hs' h).map fun v => Spec.Objects.objObs e.2 (l'.map fun a => out a.obs) v.1 v.2).filter
    fun oo => decide (oo.pts ≠ [])).map unnumbered
  refine h1.trans (List.Perm.of_eq ?_)
  have hf : ∀ (g : ObjObs P → ObjObs P) (L : List (ObjObs P)), (∀ x, (g x).pts = x.pts) →
      (L.filter fun oo => decide (oo.pts ≠ [])).map g = (L.map g).filter fun oo => decide (oo.pts ≠ []) := by
    intro g L hg
    rw [List.filter_map]
    congr 1
    apply List.filter_congr
    intro x _
    simp only [Function.comp_apply, hg]
  rw [hf unnumbered _ fun _ => rfl, hf (fun o => unnumbered (renamedObj σ o)) _ fun _ => rfl]
  simp only [List.map_map]
  congr 1
  apply List.map_congr_left
  rintro ⟨c, f⟩ _
  exact objObs_same h out hout hview e.2 c f

/-! ### Cameras -/

/-- What the measurements of cameras depend on. -/
def cameraMeasuresOf [Group G] (L : List (ObjObs P × G)) (a b : Nat) : List G :=
  L.flatMap fun x => L.filterMap fun y =>
    if x.1.frame = y.1.frame ∧ x.1.obj = y.1.obj ∧ x.1.cam = a ∧ y.1.cam = b then some (y.2 * x.2⁻¹) else none

theorem cameraMeasures_of [Group G] (oo : List (ObjObs P)) (q : ObjObs P → G) (a b : Nat) :
    cameraMeasures oo (objPosesOf oo q) a b = cameraMeasuresOf (oo.map fun x => (x, q x)) a b := by
  have e : (oo.map fun x => (x, q x)) = oo.zipIdx.map fun x => (x.1, objPosesOf oo q x.2) := by
    conv_lhs => rw [← List.zipIdx_map_fst 0 oo, List.map_map]
    apply List.map_congr_left
    rintro ⟨x, i⟩ hx
    rw [Function.comp_apply]
    unfold objPosesOf
    rw [List.mem_zipIdx_iff_getElem?.1 hx]
    rfl
  unfold cameraMeasures cameraMeasuresOf
  rw [e, List.flatMap_map]
  apply List.flatMap_congr
  intro x _
  rw [List.filterMap_map]
  rfl

theorem cameraMeasuresOf_perm [Group G] {L L' : List (ObjObs P × G)} (h : L'.Perm L) (a b : Nat) :
    (cameraMeasuresOf L' a b).Perm (cameraMeasuresOf L a b) := by
  unfold cameraMeasuresOf
  exact (h.flatMap_right _).trans (List.Perm.flatMap_left _ fun x _ => h.filterMap _)

theorem cameraMeasuresOf_map [Group G] (g : ObjObs P → ObjObs P)
    (hg : ∀ x y, ((g x).frame = (g y).frame ↔ x.frame = y.frame) ∧ (g x).obj = x.obj ∧ (g x).cam = x.cam)
    (L : List (ObjObs P × G)) (a b : Nat) :
    cameraMeasuresOf (L.map fun x => (g x.1, x.2)) a b = cameraMeasuresOf L a b := by
  unfold cameraMeasuresOf
  rw [List.flatMap_map]
  apply List.flatMap_congr
  intro x _
  rw [List.filterMap_map]
  apply List.filterMap_congr
  intro y _
  simp only [Function.comp_apply, (hg x.1 y.1).1, (hg x.1 y.1).2, (hg y.1 y.1).2]

/-- The entries of the tables of cameras of two runs. -/
theorem cameras_entries [Group G] {nCam nBoard : Nat} {σ : Equiv.Perm Nat} {l l' : List (Insertion P Path)} {s s' : Store P Path}
    (hs : Describes nCam nBoard l s) (hs' : Describes nCam nBoard l' s') {oo oo' : List (ObjObs P)} (hoo : FromBoards l oo)
    (hoo' : FromBoards l' oo') (h : SameObjects σ oo oo') (q : ObjObs P → G)
    (hq : ∀ o, q (unnumbered o) = q o ∧ q (renamedObj σ o) = q o) (k : Nat × Nat) :
    ((OMap.get? (cameraPairs s' oo' (objPosesOf oo' q)) k).getD []).Perm
      ((OMap.get? (cameraPairs s oo (objPosesOf oo q)) k).getD []) := by
  obtain ⟨a, b⟩ := k
  by_cases hab : a = b
  · subst hab
    have hn : ∀ {l : List (Insertion P Path)} {s : Store P Path} {oo : List (ObjObs P)}, Describes nCam nBoard l s → FromBoards l oo →
        OMap.get? (cameraPairs s oo (objPosesOf oo q)) (a, a) = none := by
      intro l s oo hs hoo
      rw [OMap.get?_eq_none, mem_keys_cameraPairs hs hoo]
      rintro ⟨hne, _⟩
      exact hne rfl
    rw [hn hs hoo, hn hs' hoo']
  · refine (cameras_perm hs' hoo' _ a b hab).trans (List.Perm.trans ?_ (cameras_perm hs hoo _ a b hab).symm)
    rw [cameraMeasures_of, cameraMeasures_of]
    rw [← cameraMeasuresOf_map unnumbered (fun _ _ => ⟨Iff.rfl, rfl, rfl⟩) (oo'.map _),
      ← cameraMeasuresOf_map (fun o => unnumbered (renamedObj σ o)) (fun _ _ => ⟨σ.injective.eq_iff, rfl, rfl⟩) (oo.map _)]
    apply cameraMeasuresOf_perm
    have h' := h.map fun o => (o, q o)
    rw [List.map_map, List.map_map] at h'
    rw [List.map_map, List.map_map]
    refine (List.Perm.of_eq ?_).trans (h'.trans (List.Perm.of_eq ?_))
    all_goals
      apply List.map_congr_left
      intro x _
      simp only [Function.comp_apply, (hq _).1, (hq x).2]

/-- The initial camera groups do not depend on the order of the images. -/
theorem groups_same [Group G] {nCam nBoard : Nat} {σ : Equiv.Perm Nat} {l l' : List (Insertion P Path)} {s s' : Store P Path}
    (hs : Describes nCam nBoard l s) (hs' : Describes nCam nBoard l' s') (h : Reordered σ l l') {oo oo' : List (ObjObs P)}
    (hoo : FromBoards l oo) (hoo' : FromBoards l' oo') (hsame : SameObjects σ oo oo') (q : ObjObs P → G)
    (hq : ∀ o, q (unnumbered o) = q o ∧ q (renamedObj σ o) = q o) (avg : List G → G) (ha : Unordered avg)
    (choose : Nat → Nat → Graph.DState → Nat) :
    buildGroups s' oo' (objPosesOf oo' q) avg choose = buildGroups s oo (objPosesOf oo q) avg choose := by
  have ht := tables_same (t := cameraPairs s oo (objPosesOf oo q)) (t' := cameraPairs s' oo' (objPosesOf oo' q))
    (push_fold _).1 (push_fold _).1
    (fun k zs hz => (get?_cameraPairs hs hoo _ hz).1) (fun k zs hz => (get?_cameraPairs hs' hoo' _ hz).1)
    (cameras_entries hs hs' hoo hoo' hsame q hq) avg ha
  unfold buildGroups cameraGraph
  dsimp only
  rw [ht.1, ht.2, cameraVertices_eq hs, cameraVertices_eq hs', hs.cams_length, hs'.cams_length]
  have : Spec.Groups.observingCams nCam l' = Spec.Groups.observingCams nCam l := by
    unfold Spec.Groups.observingCams
    apply List.filter_congr
    intro b _
    exact mem_obs h (fun o => o.cam == b) fun _ => rfl
  rw [this]

end Verif.Lemmas.Reorder
