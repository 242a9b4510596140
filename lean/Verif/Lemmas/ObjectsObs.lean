import Verif.Lemmas.Objects

namespace Verif.Lemmas.Objects
open Verif Verif.Objects Verif.Spec.Objects Verif.Spec.Store

variable {G Pt P Path : Type}

theorem b2o_objNumber {size : Nat → Nat} {o : Object G Pt} (hn : Numbering size o) (b k : Nat) :
    (OMap.get? o.b2o (b, k)).getD 0 = objNumber o b k := by
  unfold objNumber
  split
  · rename_i h
    have hlt := List.idxOf_lt_length_of_mem h
    rw [(hn.inverse (b, k) (o.o2b.idxOf (b, k))).2]
    · rfl
    · rw [List.getElem?_eq_getElem hlt, List.getElem_idxOf]
  · rename_i h
    cases hg : OMap.get? o.b2o (b, k) with
    | none => rfl
    | some i =>
      exact absurd (List.mem_of_getElem? ((hn.inverse _ i).1 hg)) h

/-- The object observation obtained from the board observations at the positions `is`. -/
def partialObs (o : Object G Pt) (obs : List (BoardObs P)) (c f : Nat) (is : List Nat) : ObjObs P :=
  let sel := is.filterMap fun i => obs[i]?
  { obj := o.id, cam := c, frame := f, boards := is, boardIds := sel.map (·.board)
    pts := sel.flatMap (·.pts)
    ids := sel.flatMap fun bo => bo.ids.map (objNumber o bo.board) }

theorem gather_ok {size : Nat → Nat} {s : Store P Path} {o : Object G Pt} (hn : Numbering size o)
    (c f : Nat) (is : List Nat)
    (h : ∀ i ∈ is, ∃ bo, s.obs[i]? = some bo ∧ bo.cam = c ∧ bo.frame = f ∧
      bo.pts.length = bo.ids.length) :
    Outcome.foldlM (gatherStep s o) { obj := o.id, cam := c, frame := f } is =
      .ok (partialObs o s.obs c f (is.filter fun i => (s.obs[i]?).any fun bo =>
        decide (bo.board ∈ OMap.keys o.boards))) := by
  induction is using List.reverseRecOn with
  | nil => rfl
  | append_singleton is i ih =>
    rw [Outcome.foldlM_append, ih (fun j hj => h j (by simp [hj])), Outcome.bind_ok,
      Outcome.foldlM_cons]
    obtain ⟨bo, h1, h2, h3, h4⟩ := h i (by simp)
    unfold gatherStep
    rw [Outcome.idx_of_getElem? h1, Outcome.bind_ok, List.filter_append]
    by_cases hb : bo.board ∈ OMap.keys o.boards
    · rw [if_pos (OMap.get?_isSome.2 hb)]
      unfold insertBoardObs
      rw [if_neg (by omega), Outcome.bind_ok]
      have : List.filter (fun i => (s.obs[i]?).any fun bo => decide (bo.board ∈ OMap.keys o.boards)) [i]
          = [i] := by simp [h1, hb]
      rw [this]
      simp only [Outcome.foldlM_nil, Outcome.ok.injEq]
      unfold partialObs
      simp only [List.filterMap_append, List.filterMap_cons, h1, List.filterMap_nil, List.map_append,
        List.map_cons, List.map_nil, List.flatMap_append, List.flatMap_cons, List.flatMap_nil,
        List.append_nil, h2, h3, h4, List.take_length]
      congr 3
      funext k
      exact b2o_objNumber hn _ _
    · rw [if_neg (by rw [OMap.get?_isSome]; exact hb)]
      have : List.filter (fun i => (s.obs[i]?).any fun bo => decide (bo.board ∈ OMap.keys o.boards)) [i]
          = [] := by simp [h1, hb]
      rw [this, List.append_nil]
      rfl

theorem seenOf_eq (o : Object G Pt) (obs : List (BoardObs P)) (c f : Nat) :
    (positions (fun bo : BoardObs P => bo.cam == c && bo.frame == f) obs).filter (fun i =>
      (obs[i]?).any fun bo => decide (bo.board ∈ OMap.keys o.boards)) = seenOf o obs c f := by
  unfold seenOf positions
  rw [List.filter_filter]
  apply List.filter_congr
  intro i _
  cases obs[i]? <;> simp [Bool.and_comm]

/-- The tables with the board observations replaced. -/
structure Views (nCam nBoard : Nat) (l : List (Insertion P Path)) (s : Store P Path) (s' : Store P Path) :
    Prop where
  describes : Describes nCam nBoard l s
  camObs : s'.camObs = s.camObs
  same : SameViews s.obs s'.obs

theorem positions_congr {α β : Type} {p : α → Bool} {q : β → Bool} {l : List α} {m : List β}
    (hlen : l.length = m.length)
    (h : ∀ (i : Nat) a b, l[i]? = some a → m[i]? = some b → p a = q b) : positions p l = positions q m := by
  unfold positions
  rw [hlen]
  apply List.filter_congr
  intro i hi
  rw [List.mem_range] at hi
  have hi' : i < l.length := by omega
  rw [List.getElem?_eq_getElem hi, List.getElem?_eq_getElem hi']
  exact h i _ _ (List.getElem?_eq_getElem hi') (List.getElem?_eq_getElem hi)

theorem camObs_positions {nCam nBoard : Nat} {l : List (Insertion P Path)} {s s' : Store P Path}
    (h : Views nCam nBoard l s s') {c f : Nat} {r : CamObsRec}
    (hr : ((c, f), r) ∈ s'.camObs) :
    r.boards = positions (fun bo : BoardObs P => bo.cam == c && bo.frame == f) s'.obs := by
  rw [h.camObs] at hr
  have hr' := (OMap.get?_eq_some h.describes.camObs_sorted).2 hr
  rw [(h.describes.camObs c f r hr').1]
  have hk := h.same.keys
  have hlen : s'.obs.length = s.obs.length := by
    have := congrArg List.length hk; simpa using this
  rw [h.describes.obs] at hk hlen
  apply positions_congr (by rw [hlen]; simp)
  intro i a b ha hb
  have := congrArg (fun l => l[i]?) hk
  simp only [List.getElem?_map, ha, hb, Option.map_some, Option.some.injEq, Prod.mk.injEq] at this
  simp [byCamFrame, this.1, this.2.1]

theorem objObsOf_ok {nCam nBoard : Nat} {l : List (Insertion P Path)} {s s' : Store P Path}
    (h : Views nCam nBoard l s s') {size : Nat → Nat} {o : Object G Pt} (hn : Numbering size o)
    {e : (Nat × Nat) × CamObsRec} (he : e ∈ s'.camObs) :
    objObsOf s' o e = .ok (if (objObs o s'.obs e.1.1 e.1.2).pts ≠ [] then
      some (objObs o s'.obs e.1.1 e.1.2) else none) := by
  obtain ⟨⟨c, f⟩, r⟩ := e
  have hb := camObs_positions h he
  unfold objObsOf
  dsimp only
  rw [gather_ok hn c f r.boards, Outcome.bind_ok, hb, seenOf_eq]
  · have e1 : partialObs o s'.obs c f (seenOf o s'.obs c f) = objObs o s'.obs c f := rfl
    rw [e1]
    have hlen : (objObs o s'.obs c f).ids.length = (objObs o s'.obs c f).pts.length := by
      unfold objObs
      simp only [List.length_flatMap, List.length_map]
      congr 1
      apply List.map_congr_left
      intro bo hbo
      obtain ⟨i, _, hi⟩ := List.mem_filterMap.1 hbo
      exact (h.same.aligned bo (List.mem_of_getElem? hi)).symm
    rw [hlen]
    show Outcome.ok _ = Outcome.ok _
    congr 1
    by_cases hp : (objObs o s'.obs c f).pts = []
    · simp [hp]
    · rw [if_pos (List.length_pos_iff.2 hp), if_pos hp]
  · intro i hi
    rw [hb, Props.Store.positions_get] at hi
    obtain ⟨bo, h1, h2⟩ := hi
    simp only [Bool.and_eq_true, beq_iff_eq] at h2
    exact ⟨bo, h1, h2.1, h2.2, h.same.aligned bo (List.mem_of_getElem? h1)⟩

theorem init3DObjectObs_ok {nCam nBoard : Nat} {l : List (Insertion P Path)} {s s' : Store P Path}
    (h : Views nCam nBoard l s s') {size : Nat → Nat} {o : Object G Pt} (hn : Numbering size o)
    (acc : List (ObjObs P)) :
    init3DObjectObs s' o acc = .ok (acc ++ allObjObs o s'.obs (OMap.keys s'.camObs)) := by
  unfold init3DObjectObs allObjObs OMap.keys
  have key : ∀ (es : List ((Nat × Nat) × CamObsRec)), (∀ e ∈ es, e ∈ s'.camObs) →
      Outcome.foldlM (objObsStep s' o) acc es = .ok (acc ++ ((es.map (·.1)).map
        fun v => objObs o s'.obs v.1 v.2).filter fun oo => decide (oo.pts ≠ [])) := by
    intro es
    induction es using List.reverseRecOn with
    | nil => intro _; simp
    | append_singleton es e ih =>
      intro hes
      rw [Outcome.foldlM_append, ih (fun e he => hes e (by simp [he])), Outcome.bind_ok,
        Outcome.foldlM_cons]
      unfold objObsStep
      rw [objObsOf_ok h hn (hes e (by simp)), Outcome.bind_ok]
      show Outcome.ok _ = Outcome.ok _
      congr 1
      simp only [List.map_append, List.filter_append, List.append_assoc]
      congr 2
      by_cases hp : (objObs o s'.obs e.1.1 e.1.2).pts = [] <;> simp [hp]
  exact key _ (fun _ h => h)

theorem initAllObjectObs_ok {nCam nBoard : Nat} {l : List (Insertion P Path)} {s s' : Store P Path}
    (h : Views nCam nBoard l s s') {size : Nat → Nat} (objs : List (Nat × Object G Pt))
    (hn : ∀ e ∈ objs, Numbering size e.2) (acc : List (ObjObs P)) :
    initAllObjectObs s' objs acc =
      .ok (acc ++ objs.flatMap fun e => allObjObs e.2 s'.obs (OMap.keys s'.camObs)) := by
  unfold initAllObjectObs
  induction objs generalizing acc with
  | nil => simp
  | cons e objs ih =>
    rw [Outcome.foldlM_cons, init3DObjectObs_ok h (hn e (by simp)), Outcome.bind_ok,
      ih (fun e' he => hn e' (by simp [he]))]
    simp

theorem mergeAllObjectObs_ok {nCam nBoard : Nat} {l : List (Insertion P Path)} {s s' : Store P Path}
    (h : Views nCam nBoard l s s') {size : Nat → Nat} (objs : List (Nat × Object G Pt))
    (hn : ∀ e ∈ objs, Numbering size e.2) :
    mergeAllObjectObs s' objs = .ok (List.replicate objs.length
      (objs.flatMap fun e => allObjObs e.2 s'.obs (OMap.keys s'.camObs))).flatten := by
  unfold mergeAllObjectObs
  have key : ∀ (es : List (Nat × Object G Pt)) (acc : List (ObjObs P)),
      Outcome.foldlM (fun acc _ => initAllObjectObs s' objs acc) acc es = .ok (acc ++
        (List.replicate es.length (objs.flatMap fun e => allObjObs e.2 s'.obs
          (OMap.keys s'.camObs))).flatten) := by
    intro es
    induction es with
    | nil => intro acc; simp
    | cons e es ih =>
      intro acc
      rw [Outcome.foldlM_cons, initAllObjectObs_ok h objs hn, Outcome.bind_ok, ih,
        List.length_cons, List.replicate_succ, List.flatten_cons, List.append_assoc]
  rw [key, List.nil_append]

end Verif.Lemmas.Objects
