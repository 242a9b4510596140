import Verif.Spec.Schedule
import Verif.Props.Store
import Verif.Props.Report
import Verif.Props.OutputObjects
import Verif.Lemmas.Pipeline

/-! The workflow does not look at the numbers of board observations. -/
set_option linter.unusedSectionVars false
set_option linter.unusedSimpArgs false
namespace Verif.Lemmas.Schedule
open Verif Verif.Objects Verif.Groups Verif.GroupPose Verif.NonOverlap Verif.Pipeline Verif.Structure
open Verif.Spec.Schedule

variable {V G Pt P Path : Type}

/-- `Outcome` as a functor. -/
def omap {α β : Type} (h : α → β) : Outcome α → Outcome β
  | .ok a => .ok (h a)
  | .ub => .ub
  | .throw => .throw
  | .diverge => .diverge

theorem omap_bind {α β γ : Type} (h : β → γ) (x : Outcome α) (f : α → Outcome β) :
    omap h (x >>= f) = x >>= fun a => omap h (f a) := by cases x <;> rfl

theorem bind_omap {α β γ : Type} (h : α → β) (x : Outcome α) (f : β → Outcome γ) :
    (omap h x >>= f) = x >>= fun a => f (h a) := by cases x <;> rfl

theorem foldlM_omap {σ τ α β : Type} (h : σ → τ) (k : α → β) (f : σ → α → Outcome σ)
    (g : τ → β → Outcome τ) (hfg : ∀ s x, omap h (f s x) = g (h s) (k x)) :
    ∀ (l : List α) (s : σ), omap h (Outcome.foldlM f s l) = Outcome.foldlM g (h s) (l.map k)
  | [], s => rfl
  | x :: l, s => by
    rw [List.map_cons, Outcome.foldlM_cons, Outcome.foldlM_cons, omap_bind, ← hfg, bind_omap]
    congr 1
    funext s'
    exact foldlM_omap h k f g hfg l s'

theorem result_eq (r : Outcome (State G Pt P)) : result r = omap shown r := by cases r <;> rfl

/-- A store reached by insertions is described by them. -/
theorem describes_of_run {nCam nBoard : Nat} {l : List (Insertion P Path)} {s : Store P Path}
    (h : Store.run nCam nBoard l = .ok s) : Spec.Store.Describes nCam nBoard l s ∧
      ∀ a ∈ l, a.obs.cam < nCam ∧ a.obs.board < nBoard := by
  have hl : ∀ a ∈ l, a.obs.cam < nCam ∧ a.obs.board < nBoard := by
    exact (Props.Store.C06_run_ok_iff nCam nBoard l).1 ⟨s, h⟩
  obtain ⟨s', h', d⟩ := Store.run_describes nCam nBoard l hl
  rw [h] at h'
  cases h'
  exact ⟨d, hl⟩

/-! ### Functions of the object observations -/

section
variable (oo : List (ObjObs P))

private theorem get_un (i : Nat) : (oo.map unnumbered)[i]? = (oo[i]?).map unnumbered := by
  rw [List.getElem?_map]

theorem frameObjs_un (f : Nat) : frameObjs (oo.map unnumbered) f = frameObjs oo f := by
  unfold frameObjs
  simp only [List.length_map, get_un, Option.any_map]
  rfl

theorem groupSees_un (cams : List Nat) (f : Nat) :
    groupSees (oo.map unnumbered) cams f = groupSees oo cams f := by
  unfold groupSees
  simp only [frameObjs_un, get_un, Option.any_map]
  rfl

theorem groupFrameStep_un : groupFrameStep (G := G) (oo.map unnumbered) = groupFrameStep (G := G) oo := by
  funext cams gi st f
  unfold groupFrameStep
  simp only [groupSees_un]

theorem initCameraGroupObs_un : initCameraGroupObs (G := G) (oo.map unnumbered) = initCameraGroupObs (G := G) oo := by
  funext fr t gi
  unfold initCameraGroupObs
  simp only [groupFrameStep_un]

theorem mergeAllCameraGroupObs_un :
    mergeAllCameraGroupObs (G := G) (oo.map unnumbered) = mergeAllCameraGroupObs (G := G) oo := by
  funext fr t
  unfold mergeAllCameraGroupObs initAllCameraGroupObs
  simp only [initCameraGroupObs_un]

theorem objIdx_un : objIdx (oo.map unnumbered) = objIdx oo := by
  funext is
  unfold objIdx
  simp only [get_un, Option.map_map]
  rfl

theorem entries_un [Group G] (toVec : G → V) (g : CamGroup G) (pose : Nat → G) :
    entries toVec g (oo.map unnumbered) pose = entries toVec g oo pose := by
  funext is
  unfold entries
  simp only [get_un, Option.map_map]
  rfl

theorem objectPoses_un [Group G] (toVec : G → V) (avg : List V → V) (t : GroupTables G) (pose : Nat → G) :
    objectPoses toVec avg t (oo.map unnumbered) pose = objectPoses toVec avg t oo pose := by
  unfold objectPoses
  simp only [entries_un]

theorem objectPairs_un [Group G] (ofVec : V → G) (op : OMap (Nat × Nat) (OMap Nat V)) (t : GroupTables G) :
    objectPairs ofVec op t (oo.map unnumbered) = objectPairs ofVec op t oo := by
  unfold objectPairs objectViews
  simp only [get_un, Option.map_map]
  rfl

theorem objectGraph_un (objs : OMap Nat (Object G Pt)) (t : PairTable G) :
    objectGraph objs (oo.map unnumbered) t = objectGraph objs oo t := by
  unfold objectGraph objectVertices
  simp only [List.any_map]
  rfl

theorem merge3DObjects_un [Group G] [SMul G Pt] (toVec : G → V) (ofVec : V → G) (avg : List V → V)
    (avgG : List G → G) (choose : Nat → Nat → Graph.DState → Nat) (bpts : List (List Pt))
    (objs : OMap Nat (Object G Pt)) (t : GroupTables G) (pose : Nat → G) :
    merge3DObjects toVec ofVec avg avgG choose bpts objs t (oo.map unnumbered) pose =
      merge3DObjects toVec ofVec avg avgG choose bpts objs t oo pose := by
  unfold merge3DObjects
  simp only [objectPoses_un, objectPairs_un, objectGraph_un]

theorem countStep_un : countStep (G := G) (t := t) (oo.map unnumbered) = countStep (t := t) oo := by
  funext i j m f
  unfold countStep
  simp only [objIdx_un]

theorem findPairs_un (objs : OMap Nat (Object G Pt)) (t : GroupTables G) :
    findPairs objs t (oo.map unnumbered) = findPairs objs t oo := by
  unfold findPairs
  congr 1
  funext m a
  unfold pairRow objectPairFor
  simp only [countStep_un]

theorem findPoses_un [Group G] (ofVec : V → G) (op : OMap (Nat × Nat) (OMap Nat V)) (t : GroupTables G)
    (pairs : OMap (Nat × Nat) (Nat × Nat)) (he : List (G × G) → Outcome G) (c0 : OMap (Nat × Nat) Nat) :
    findPoses ofVec op t (oo.map unnumbered) pairs he c0 = findPoses ofVec op t oo pairs he c0 := by
  unfold findPoses
  congr 1
  funext st a
  unfold initPairRow initPair framePoses
  simp only [objIdx_un]

theorem cameraPairs_un [Group G] (s : Store P Path) (pose : Nat → G) :
    cameraPairs s (oo.map unnumbered) pose = cameraPairs s oo pose := by
  unfold cameraPairs cameraViews
  simp only [frameObjs_un, get_un, Option.map_map]
  rfl

theorem buildGroups_un [Group G] (s : Store P Path) (pose : Nat → G) (avg : List G → G)
    (choose : Nat → Nat → Graph.DState → Nat) :
    buildGroups s (oo.map unnumbered) pose avg choose = buildGroups s oo pose avg choose := by
  unfold buildGroups
  simp only [cameraPairs_un]

end

/-! ### Two stores with the same frames -/

section
variable {nCam nBoard : Nat} {l₁ l₂ : List (Insertion P Path)} {s₁ s₂ : Store P Path}
  (d₁ : Spec.Store.Describes nCam nBoard l₁ s₁) (d₂ : Spec.Store.Describes nCam nBoard l₂ s₂)
  (h : SameFrames l₁ l₂)

theorem SameFrames.symm (h : SameFrames l₁ l₂) : SameFrames l₂ l₁ := fun f => (h f).symm

theorem SameFrames.mem (h : SameFrames l₁ l₂) {a : Insertion P Path} (ha : a ∈ l₁) :
    ∃ b ∈ l₂, b.obs = a.obs := by
  have : a.obs ∈ (l₁.filter (Spec.Store.byFrame a.obs.frame)).map (·.obs) :=
    List.mem_map.2 ⟨a, List.mem_filter.2 ⟨ha, by simp [Spec.Store.byFrame]⟩, rfl⟩
  rw [h] at this
  obtain ⟨b, hb, e⟩ := List.mem_map.1 this
  exact ⟨b, (List.mem_filter.1 hb).1, e⟩

/-- Selecting by frame and something else. -/
theorem SameFrames.filter (h : SameFrames l₁ l₂) (p : BoardObs P → Bool) (f : Nat) :
    (l₁.filter fun a => p a.obs && Spec.Store.byFrame f a).map (·.obs) =
    (l₂.filter fun a => p a.obs && Spec.Store.byFrame f a).map (·.obs) := by
  have e : ∀ l : List (Insertion P Path), (l.filter fun a => p a.obs && Spec.Store.byFrame f a).map (·.obs)
      = ((l.filter (Spec.Store.byFrame f)).map (·.obs)).filter p := by
    intro l
    rw [List.filter_map, List.filter_filter]
    rfl
  rw [e, e, h]

theorem SameFrames.camFrame (h : SameFrames l₁ l₂) (c f : Nat) :
    (l₁.filter (Spec.Store.byCamFrame c f)).map (·.obs) =
    (l₂.filter (Spec.Store.byCamFrame c f)).map (·.obs) :=
  SameFrames.filter h (fun o => o.cam == c) f

/-- Reading an index list through the table. -/
theorem read_positions {α β : Type} (p : α → Bool) (l : List α) (k : α → β) :
    (Spec.Store.positions p l).map (fun i => (l.map k)[i]?) = ((l.filter p).map k).map some := by
  have := congrArg (List.map (Option.map k)) (Props.Report.positions_map p l)
  simpa [Function.comp_def] using this


/-- The camera observations with what they list. -/
theorem camObs_view {nCam nBoard : Nat} {l : List (Insertion P Path)} {s : Store P Path}
    (d : Spec.Store.Describes nCam nBoard l s) {β : Type} (k : Insertion P Path → β) :
    s.camObs.map (fun e => (e.1, e.2.boards.map fun i => (l.map k)[i]?)) =
    (OMap.keys s.camObs).map fun c => (c, ((l.filter (Spec.Store.byCamFrame c.1 c.2)).map k).map some) := by
  unfold OMap.keys
  rw [List.map_map]
  apply List.map_congr_left
  rintro ⟨⟨c, f⟩, r⟩ he
  have hg := (OMap.get?_eq_some d.camObs_sorted).2 he
  simp only [Function.comp_apply]
  rw [(d.camObs c f r hg).1, read_positions]

theorem camObs_idx {nCam nBoard : Nat} {l : List (Insertion P Path)} {s : Store P Path}
    (d : Spec.Store.Describes nCam nBoard l s) {e : (Nat × Nat) × CamObsRec} (he : e ∈ s.camObs) :
    e.2.boardsIdx.length = e.2.boards.length := by
  obtain ⟨⟨c, f⟩, r⟩ := e
  have hg := (OMap.get?_eq_some d.camObs_sorted).2 he
  simp only
  rw [(d.camObs c f r hg).1, (d.camObs c f r hg).2.1, Props.OutputObjects.positions_length]
  simp [List.countP_eq_length_filter]

include d₁ d₂ h in
theorem keys_camObs : OMap.keys s₁.camObs = OMap.keys s₂.camObs := by
  apply OMap.sorted_keys_ext (OMap.keys_sorted d₁.camObs_sorted) (OMap.keys_sorted d₂.camObs_sorted)
  rintro ⟨c, f⟩
  rw [d₁.camObs_key, d₂.camObs_key]
  constructor
  · rintro ⟨a, ha, h1, h2⟩
    obtain ⟨b, hb, e⟩ := SameFrames.mem h ha
    exact ⟨b, hb, by rw [e]; exact ⟨h1, h2⟩⟩
  · rintro ⟨a, ha, h1, h2⟩
    obtain ⟨b, hb, e⟩ := SameFrames.mem (SameFrames.symm h) ha
    exact ⟨b, hb, by rw [e]; exact ⟨h1, h2⟩⟩

include d₁ d₂ h in
theorem keys_frames : OMap.keys s₁.frames = OMap.keys s₂.frames := by
  apply OMap.sorted_keys_ext (OMap.keys_sorted d₁.frames_sorted) (OMap.keys_sorted d₂.frames_sorted)
  intro f
  rw [d₁.frame_key, d₂.frame_key]
  constructor
  · rintro ⟨a, ha, h1⟩
    obtain ⟨b, hb, e⟩ := SameFrames.mem h ha
    exact ⟨b, hb, by rw [e]; exact h1⟩
  · rintro ⟨a, ha, h1⟩
    obtain ⟨b, hb, e⟩ := SameFrames.mem (SameFrames.symm h) ha
    exact ⟨b, hb, by rw [e]; exact h1⟩

include d₁ d₂ h in
/-- The same camera observations list the same detections. -/
theorem camObs_same {β : Type} (k : BoardObs P → β) :
    s₁.camObs.map (fun e => (e.1, e.2.boards.map fun i => (l₁.map (k ·.obs))[i]?)) =
    s₂.camObs.map (fun e => (e.1, e.2.boards.map fun i => (l₂.map (k ·.obs))[i]?)) := by
  rw [camObs_view d₁, camObs_view d₂, keys_camObs d₁ d₂ h]
  apply List.map_congr_left
  intro c _
  have := congrArg (List.map k) (SameFrames.camFrame h c.1 c.2)
  rw [List.map_map, List.map_map] at this
  show (c, ((l₁.filter _).map (k ∘ (·.obs))).map some) = _
  rw [this]
  rfl

theorem boardViews_eq {nCam nBoard : Nat} {l : List (Insertion P Path)} {s : Store P Path}
    (d : Spec.Store.Describes nCam nBoard l s) (pose : Nat → G) (q : BoardObs P → G)
    (hp : ∀ i a, l[i]? = some a → pose i = q a.obs) :
    boardViews s pose =
      (s.camObs.map (fun e => (e.1, e.2.boards.map fun i =>
        (l.map (fun a => (⟨a.obs.board, q a.obs⟩ : SeenBoard G)))[i]?))).map
        fun e => if e.2.length > 1 then e.2.filterMap id else [] := by
  unfold boardViews
  rw [List.map_map]
  apply List.map_congr_left
  intro e he
  simp only [Function.comp_apply, List.length_map, camObs_idx d he, List.filterMap_map, d.obs]
  congr 2
  funext i
  simp only [Function.comp_apply, id, List.getElem?_map, Option.map_map]
  cases hi : l[i]? with
  | none => rfl
  | some a => simp [hp i a hi]

theorem boardVertices_eq {nCam nBoard : Nat} {l : List (Insertion P Path)} {s : Store P Path}
    (d : Spec.Store.Describes nCam nBoard l s) :
    boardVertices s = (List.range nBoard).filter fun b => l.any (Spec.Store.byBoard b) := by
  unfold boardVertices
  rw [d.boards_length]
  apply List.filter_congr
  intro b hb
  have hb' : b < s.boards.length := by rw [d.boards_length]; exact List.mem_range.1 hb
  have e := List.getElem?_eq_getElem hb'
  rw [e]
  simp only [Option.any_some]
  rw [d.board b _ e, Props.OutputObjects.positions_length, Bool.eq_iff_iff]
  simp [List.length_pos_iff, List.filter_eq_nil_iff]

include d₁ d₂ h in
theorem buildObjects_same [Group G] [SMul G Pt] (p₁ p₂ : Nat → G) (q : BoardObs P → G)
    (h₁ : ∀ i a, l₁[i]? = some a → p₁ i = q a.obs) (h₂ : ∀ i a, l₂[i]? = some a → p₂ i = q a.obs)
    (avg : List G → G) (bpts : List (List Pt)) (choose : Nat → Nat → Graph.DState → Nat) :
    buildObjects s₁ p₁ avg bpts choose = buildObjects s₂ p₂ avg bpts choose := by
  have hv : boardViews s₁ p₁ = boardViews s₂ p₂ := by
    rw [boardViews_eq d₁ p₁ q h₁, boardViews_eq d₂ p₂ q h₂,
      camObs_same d₁ d₂ h (fun o => (⟨o.board, q o⟩ : SeenBoard G))]
  have hw : boardVertices s₁ = boardVertices s₂ := by
    rw [boardVertices_eq d₁, boardVertices_eq d₂]
    apply List.filter_congr
    intro b _
    rw [Bool.eq_iff_iff, List.any_eq_true, List.any_eq_true]
    constructor
    · rintro ⟨a, ha, h1⟩
      obtain ⟨b', hb, e⟩ := SameFrames.mem h ha
      exact ⟨b', hb, by unfold Spec.Store.byBoard at *; rw [e]; exact h1⟩
    · rintro ⟨a, ha, h1⟩
      obtain ⟨b', hb, e⟩ := SameFrames.mem (SameFrames.symm h) ha
      exact ⟨b', hb, by unfold Spec.Store.byBoard at *; rw [e]; exact h1⟩
  unfold buildObjects boardPairs boardGraph
  rw [hv, hw]

/-! ### Object observations -/

/-- `gatherStep` on the observation itself. -/
def gatherObs (o : Object G Pt) (oo : ObjObs P) (b : Option (BoardObs P)) : Outcome (ObjObs P) :=
  match b with
  | none => .ub
  | some bo =>
    if (OMap.get? o.boards bo.board).isSome then omap unnumbered (insertBoardObs o oo 0 bo) else .ok oo

theorem gatherStep_obs (s : Store P Path) (o : Object G Pt) (oo : ObjObs P) (i : Nat) :
    omap unnumbered (gatherStep s o oo i) = gatherObs o (unnumbered oo) (s.obs[i]?) := by
  unfold gatherStep gatherObs
  cases hb : s.obs[i]? with
  | none =>
    have : Outcome.idx s.obs i = .ub := by unfold Outcome.idx; rw [hb]
    rw [this]; rfl
  | some bo =>
    rw [Outcome.idx_of_getElem? hb]
    simp only [Outcome.bind_ok]
    by_cases h : (OMap.get? o.boards bo.board).isSome = true
    · simp only [h, if_true]
      unfold insertBoardObs
      split <;> rfl
    · simp only [h]; rfl

/-- `objObsOf` on the observations themselves. -/
def objObsOn (o : Object G Pt) (e : (Nat × Nat) × List (Option (BoardObs P))) :
    Outcome (Option (ObjObs P)) := do
  let oo ← Outcome.foldlM (gatherObs o) { obj := o.id, cam := e.1.1, frame := e.1.2 } e.2
  pure (if oo.ids.length > 0 then some oo else none)

theorem objObsOf_on (s : Store P Path) (o : Object G Pt) (e : (Nat × Nat) × CamObsRec) :
    omap (Option.map unnumbered) (objObsOf s o e) = objObsOn o (e.1, e.2.boards.map fun i => s.obs[i]?) := by
  unfold objObsOf objObsOn
  rw [omap_bind]
  have := foldlM_omap unnumbered (fun i : Nat => s.obs[i]?) (gatherStep s o) (gatherObs o)
    (gatherStep_obs s o) e.2.boards { obj := o.id, cam := e.1.1, frame := e.1.2 }
  rw [show unnumbered ({ obj := o.id, cam := e.1.1, frame := e.1.2 } : ObjObs P) =
    { obj := o.id, cam := e.1.1, frame := e.1.2 } from rfl] at this
  rw [← this, bind_omap]
  congr 1
  funext oo
  show Outcome.ok _ = Outcome.ok _
  unfold unnumbered
  split <;> simp_all

/-- `objObsStep` on the observations themselves. -/
def objObsStepOn (o : Object G Pt) (acc : List (ObjObs P)) (e : (Nat × Nat) × List (Option (BoardObs P))) :
    Outcome (List (ObjObs P)) := do
  let r ← objObsOn o e
  pure (acc ++ r.toList)

theorem init3DObjectObs_on (s : Store P Path) (o : Object G Pt) (acc : List (ObjObs P)) :
    omap (List.map unnumbered) (init3DObjectObs s o acc) =
      Outcome.foldlM (objObsStepOn o) (acc.map unnumbered)
        (s.camObs.map fun e => (e.1, e.2.boards.map fun i => s.obs[i]?)) := by
  unfold init3DObjectObs
  apply foldlM_omap
  intro acc e
  unfold objObsStep objObsStepOn
  rw [omap_bind, ← objObsOf_on, bind_omap]
  congr 1
  funext r
  cases r <;> simp [omap, Outcome.pure_eq]

/-- `initAllObjectObs` on the observations themselves. -/
def initAllOn (c : List ((Nat × Nat) × List (Option (BoardObs P)))) (objs : OMap Nat (Object G Pt))
    (acc : List (ObjObs P)) : Outcome (List (ObjObs P)) :=
  Outcome.foldlM (fun acc (e : Nat × Object G Pt) => Outcome.foldlM (objObsStepOn e.2) acc c) acc objs

theorem initAllObjectObs_on (s : Store P Path) (objs : OMap Nat (Object G Pt)) (acc : List (ObjObs P)) :
    omap (List.map unnumbered) (initAllObjectObs s objs acc) =
      initAllOn (s.camObs.map fun e => (e.1, e.2.boards.map fun i => s.obs[i]?)) objs
        (acc.map unnumbered) := by
  unfold initAllObjectObs initAllOn
  have := foldlM_omap (List.map unnumbered) id
    (fun acc (e : Nat × Object G Pt) => init3DObjectObs s e.2 acc)
    (fun acc (e : Nat × Object G Pt) => Outcome.foldlM (objObsStepOn e.2) acc
      (s.camObs.map fun c : (Nat × Nat) × CamObsRec => (c.1, c.2.boards.map fun i => s.obs[i]?)))
    (fun acc e => init3DObjectObs_on s e.2 acc) objs acc
  rw [List.map_id] at this
  exact this

theorem mergeAllObjectObs_on (s : Store P Path) (objs : OMap Nat (Object G Pt)) :
    omap (List.map unnumbered) (mergeAllObjectObs s objs) =
      Outcome.foldlM (fun acc (_ : Nat × Object G Pt) =>
        initAllOn (s.camObs.map fun e => (e.1, e.2.boards.map fun i => s.obs[i]?)) objs acc) [] objs := by
  unfold mergeAllObjectObs
  have := foldlM_omap (List.map unnumbered) id
    (fun acc (_ : Nat × Object G Pt) => initAllObjectObs s objs acc)
    (fun acc (_ : Nat × Object G Pt) =>
        initAllOn (s.camObs.map fun e => (e.1, e.2.boards.map fun i => s.obs[i]?)) objs acc)
    (fun acc _ => initAllObjectObs_on s objs acc) objs []
  rw [List.map_id] at this
  exact this

include d₁ d₂ h in
theorem initAllObjectObs_same (out : BoardObs P → BoardObs P) (objs : OMap Nat (Object G Pt)) :
    omap (List.map unnumbered) (initAllObjectObs { s₁ with obs := l₁.map (out ·.obs) } objs []) =
    omap (List.map unnumbered) (initAllObjectObs { s₂ with obs := l₂.map (out ·.obs) } objs []) := by
  rw [initAllObjectObs_on, initAllObjectObs_on]
  congr 1
  exact camObs_same d₁ d₂ h out

include d₁ d₂ h in
theorem mergeAllObjectObs_same (out : BoardObs P → BoardObs P) (objs : OMap Nat (Object G Pt)) :
    omap (List.map unnumbered) (mergeAllObjectObs { s₁ with obs := l₁.map (out ·.obs) } objs) =
    omap (List.map unnumbered) (mergeAllObjectObs { s₂ with obs := l₂.map (out ·.obs) } objs) := by
  rw [mergeAllObjectObs_on, mergeAllObjectObs_on]
  have := camObs_same d₁ d₂ h out
  simp only
  rw [this]

/-! ### Camera groups -/

theorem cameraVertices_eq {nCam nBoard : Nat} {l : List (Insertion P Path)} {s : Store P Path}
    (d : Spec.Store.Describes nCam nBoard l s) :
    cameraVertices s = (List.range nCam).filter fun b => l.any (Spec.Store.byCam b) := by
  unfold cameraVertices
  rw [d.cams_length]
  apply List.filter_congr
  intro b hb
  have hb' : b < s.cams.length := by rw [d.cams_length]; exact List.mem_range.1 hb
  have e := List.getElem?_eq_getElem hb'
  rw [e]
  simp only [Option.any_some]
  rw [(d.cam b _ e).1, Props.OutputObjects.positions_length, Bool.eq_iff_iff]
  simp [List.length_pos_iff, List.filter_eq_nil_iff]

theorem cameraViews_eq {nCam nBoard : Nat} {l : List (Insertion P Path)} {s : Store P Path}
    (d : Spec.Store.Describes nCam nBoard l s) (oo : List (ObjObs P)) (pose : Nat → G) :
    cameraViews s oo pose = (OMap.keys s.frames).map fun f =>
      if ((l.filter (Spec.Store.byFrame f)).map (·.obs)).length > 1 then
        (frameObjs oo f).filterMap fun i => (oo[i]?).map fun o => ⟨o.cam, o.obj, pose i⟩
      else [] := by
  unfold cameraViews OMap.keys
  rw [List.map_map]
  apply List.map_congr_left
  rintro ⟨f, r⟩ he
  have hg := (OMap.get?_eq_some d.frames_sorted).2 he
  simp only [Function.comp_apply]
  rw [(d.frame f r hg).1, Props.OutputObjects.positions_length, List.length_map,
    List.countP_eq_length_filter]

include d₁ d₂ h in
theorem buildGroups_same [Group G] (oo : List (ObjObs P)) (pose : Nat → G) (avg : List G → G)
    (choose : Nat → Nat → Graph.DState → Nat) :
    buildGroups s₁ oo pose avg choose = buildGroups s₂ oo pose avg choose := by
  have hv : cameraViews s₁ oo pose = cameraViews s₂ oo pose := by
    rw [cameraViews_eq d₁, cameraViews_eq d₂, keys_frames d₁ d₂ h]
    apply List.map_congr_left
    intro f _
    rw [h f]
  have hw : cameraVertices s₁ = cameraVertices s₂ := by
    rw [cameraVertices_eq d₁, cameraVertices_eq d₂]
    apply List.filter_congr
    intro b _
    rw [Bool.eq_iff_iff, List.any_eq_true, List.any_eq_true]
    constructor
    · rintro ⟨a, ha, h1⟩
      obtain ⟨b', hb, e⟩ := SameFrames.mem h ha
      exact ⟨b', hb, by unfold Spec.Store.byCam at *; rw [e]; exact h1⟩
    · rintro ⟨a, ha, h1⟩
      obtain ⟨b', hb, e⟩ := SameFrames.mem (SameFrames.symm h) ha
      exact ⟨b', hb, by unfold Spec.Store.byCam at *; rw [e]; exact h1⟩
  unfold buildGroups cameraPairs cameraGraph
  rw [hv, hw, d₁.cams_length, d₂.cams_length]

/-! ### Stages -/

theorem bind_same {α α' β β' : Type} (h : α → α') (k : β → β') {x₁ x₂ : Outcome α} {f₁ f₂ : α → Outcome β}
    (hx : omap h x₁ = omap h x₂) (hf : ∀ a₁ a₂, h a₁ = h a₂ → omap k (f₁ a₁) = omap k (f₂ a₂)) :
    omap k (x₁ >>= f₁) = omap k (x₂ >>= f₂) := by
  cases x₁ with
  | ok a₁ =>
    cases x₂ with
    | ok a₂ => exact hf _ _ (Outcome.ok.inj hx)
    | _ => cases hx
  | ub => cases x₂ <;> first | rfl | cases hx
  | throw => cases x₂ <;> first | rfl | cases hx
  | diverge => cases x₂ <;> first | rfl | cases hx

theorem bind_same_id {α β β' : Type} (k : β → β') {x₁ x₂ : Outcome α} {f₁ f₂ : α → Outcome β}
    (hx : x₁ = x₂) (hf : ∀ a, omap k (f₁ a) = omap k (f₂ a)) :
    omap k (x₁ >>= f₁) = omap k (x₂ >>= f₂) := by
  subst hx
  cases x₁ <;> first | exact hf _ | rfl

theorem shown_eq {a b : State G Pt P} (h : shown a = shown b) :
    a.objs = b.objs ∧ a.t = b.t ∧ a.oo.map unnumbered = b.oo.map unnumbered := by
  unfold shown at h
  injection h with h1 h2 h3
  exact ⟨h1, h3, h2⟩

theorem shown_mk {a b : State G Pt P} (h1 : a.objs = b.objs) (h2 : a.t = b.t)
    (h3 : a.oo.map unnumbered = b.oo.map unnumbered) : shown a = shown b := by
  unfold shown; rw [h1, h2, h3]

theorem refineAll_same [Group G] [SMul G Pt] {n₁ n₂ : Numerics V G} (hb : n₁.board = n₂.board)
    (hc : n₁.cam = n₂.cam) (k : Nat) (bpts : List (List Pt)) {a b : State G Pt P}
    (hab : shown a = shown b) : omap shown (refineAll n₁ k bpts a) = omap shown (refineAll n₂ k bpts b) := by
  obtain ⟨h1, h2, h3⟩ := shown_eq hab
  unfold refineAll
  apply bind_same_id
  · rw [h1, hb]
  · intro o
    show Outcome.ok _ = Outcome.ok _
    congr 1
    refine shown_mk ?_ ?_ h3
    · rfl
    · simp only [h2, hc]

variable (n : Numerics V G) (bpts : List (List Pt)) (p₁ p₂ : Nat → G) (q : BoardObs P → G)
  (out : BoardObs P → BoardObs P)

include d₁ d₂ h in
theorem calibrateObjects_same [Group G] [SMul G Pt]
    (h₁ : ∀ i a, l₁[i]? = some a → p₁ i = q a.obs) (h₂ : ∀ i a, l₂[i]? = some a → p₂ i = q a.obs) :
    omap (fun r => (r.1, r.2.map unnumbered))
      (calibrateObjects { n with boardPose := p₁ } bpts s₁ (l₁.map (out ·.obs))) =
    omap (fun r => (r.1, r.2.map unnumbered))
      (calibrateObjects { n with boardPose := p₂ } bpts s₂ (l₂.map (out ·.obs))) := by
  unfold calibrateObjects
  apply bind_same_id
  · exact buildObjects_same d₁ d₂ h p₁ p₂ q h₁ h₂ _ _ _
  · intro objs
    apply bind_same _ _ (initAllObjectObs_same d₁ d₂ h out objs)
    intro oo₁ oo₂ ho
    apply bind_same_id _ rfl
    intro o
    show Outcome.ok _ = Outcome.ok _
    simp only [ho]

include d₁ d₂ h in
theorem calibrateGroups_same [Group G] [SMul G Pt] (objs : OMap Nat (Object G Pt)) (oo₁ oo₂ : List (ObjObs P))
    (ho : oo₁.map unnumbered = oo₂.map unnumbered) :
    omap shown (calibrateGroups { n with boardPose := p₁ } bpts s₁ objs oo₁) =
    omap shown (calibrateGroups { n with boardPose := p₂ } bpts s₂ objs oo₂) := by
  unfold calibrateGroups
  refine bind_same shown shown ?_ fun a b hab => refineAll_same rfl rfl _ _ hab
  unfold placeGroups
  apply bind_same_id
  · rw [← buildGroups_un oo₁, ← buildGroups_un oo₂, ho]
    exact buildGroups_same d₁ d₂ h _ _ _ _
  · intro gs
    apply bind_same_id
    · rw [← mergeAllCameraGroupObs_un oo₁, ← mergeAllCameraGroupObs_un oo₂, ho, keys_frames d₁ d₂ h]
    · intro t
      exact congrArg Outcome.ok (shown_mk rfl rfl ho)

include d₁ d₂ h in
theorem mergeStage_same [Group G] [SMul G Pt] (k : Nat) {a b : State G Pt P} (hab : shown a = shown b) :
    omap shown (mergeStage { n with boardPose := p₁ } k bpts s₁ (l₁.map (out ·.obs)) a) =
    omap shown (mergeStage { n with boardPose := p₂ } k bpts s₂ (l₂.map (out ·.obs)) b) := by
  obtain ⟨h1, h2, h3⟩ := shown_eq hab
  unfold mergeStage
  refine bind_same shown shown ?_ fun a b hab => refineAll_same rfl rfl _ _ hab
  unfold joinObjects
  apply bind_same_id
  · rw [← merge3DObjects_un a.oo, ← merge3DObjects_un b.oo, h1, h2, h3]
  · intro objs
    apply bind_same _ _ (mergeAllObjectObs_same d₁ d₂ h out objs)
    intro oo₁ oo₂ ho
    apply bind_same_id
    · rw [← mergeAllCameraGroupObs_un oo₁, ← mergeAllCameraGroupObs_un oo₂, ho, keys_frames d₁ d₂ h, h2]
    · intro t
      exact congrArg Outcome.ok (shown_mk rfl rfl ho)

include d₁ d₂ h in
theorem overlapping_same [Group G] [SMul G Pt]
    (h₁ : ∀ i a, l₁[i]? = some a → p₁ i = q a.obs) (h₂ : ∀ i a, l₂[i]? = some a → p₂ i = q a.obs) :
    omap shown (overlapping { n with boardPose := p₁ } bpts s₁ (l₁.map (out ·.obs))) =
    omap shown (overlapping { n with boardPose := p₂ } bpts s₂ (l₂.map (out ·.obs))) := by
  unfold overlapping
  apply bind_same _ _ (calibrateObjects_same d₁ d₂ h n bpts p₁ p₂ q out h₁ h₂)
  rintro ⟨o₁, oo₁⟩ ⟨o₂, oo₂⟩ ho
  simp only [Prod.mk.injEq] at ho
  obtain ⟨rfl, ho⟩ := ho
  apply bind_same _ _ (calibrateGroups_same d₁ d₂ h n bpts p₁ p₂ o₁ oo₁ oo₂ ho)
  intro a b hab
  exact mergeStage_same d₁ d₂ h n bpts p₁ p₂ out 2 hab

theorem nonOverlapping_same [Group G] {a b : State G Pt P} (hab : shown a = shown b) :
    nonOverlapping { n with boardPose := p₁ } a = nonOverlapping { n with boardPose := p₂ } b := by
  obtain ⟨h1, h2, h3⟩ := shown_eq hab
  unfold nonOverlapping
  rw [← findPoses_un a.oo, ← findPoses_un b.oo, ← findPairs_un a.oo, ← findPairs_un b.oo,
    ← objectPoses_un a.oo, ← objectPoses_un b.oo, h1, h2, h3]

include d₁ d₂ h in
theorem mergeGroups1_same [Group G] (pp : PairPoses G) {a b : State G Pt P} (hab : shown a = shown b) :
    omap shown (mergeGroups1 { n with boardPose := p₁ } s₁ pp a) =
    omap shown (mergeGroups1 { n with boardPose := p₂ } s₂ pp b) := by
  obtain ⟨h1, h2, h3⟩ := shown_eq hab
  unfold mergeGroups1
  apply bind_same_id
  · rw [h2]
  · intro gs
    apply bind_same_id
    · rw [← mergeAllCameraGroupObs_un a.oo, ← mergeAllCameraGroupObs_un b.oo, h3, keys_frames d₁ d₂ h, h2]
    · intro t
      show Outcome.ok _ = Outcome.ok _
      congr 1
      exact shown_mk h1 rfl h3

include d₁ d₂ h in
theorem mergeGroups2_same [Group G] (pp : PairPoses G) {a b : State G Pt P} (hab : shown a = shown b) :
    omap shown (mergeGroups2 { n with boardPose := p₁ } s₁ pp a) =
    omap shown (mergeGroups2 { n with boardPose := p₂ } s₂ pp b) := by
  obtain ⟨h1, h2, h3⟩ := shown_eq hab
  unfold mergeGroups2
  apply bind_same_id
  · rw [h2]
  · intro gs
    apply bind_same_id
    · rw [← mergeAllCameraGroupObs_un a.oo, ← mergeAllCameraGroupObs_un b.oo, h3, keys_frames d₁ d₂ h, h2]
    · intro t
      show Outcome.ok _ = Outcome.ok _
      congr 1
      exact shown_mk h1 rfl h3

include d₁ d₂ h in
/-- The whole workflow. -/
theorem workflow_same [Group G] [SMul G Pt]
    (h₁ : ∀ i a, l₁[i]? = some a → p₁ i = q a.obs) (h₂ : ∀ i a, l₂[i]? = some a → p₂ i = q a.obs) :
    omap shown (workflow { n with boardPose := p₁ } bpts s₁ (l₁.map (out ·.obs))) =
    omap shown (workflow { n with boardPose := p₂ } bpts s₂ (l₂.map (out ·.obs))) := by
  unfold workflow
  apply bind_same _ _ (overlapping_same d₁ d₂ h n bpts p₁ p₂ q out h₁ h₂)
  intro a b hab
  apply bind_same_id _ (nonOverlapping_same n p₁ p₂ hab)
  intro pp
  unfold afterMerge
  apply bind_same shown
  · apply bind_same _ _ (mergeGroups1_same d₁ d₂ h n p₁ p₂ pp hab)
    intro a b hab
    exact mergeStage_same d₁ d₂ h n bpts p₁ p₂ out 4 hab
  · intro a b hab
    apply bind_same _ _ (mergeGroups2_same d₁ d₂ h n p₁ p₂ pp hab)
    intro a b hab
    exact refineAll_same rfl rfl 5 bpts hab

end

end Verif.Lemmas.Schedule
