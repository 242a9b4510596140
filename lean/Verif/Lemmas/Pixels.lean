import Verif.Spec.Pixels
import Verif.Lemmas.Program
import Verif.Props.Finish

/-! Pose estimation from exact pixels. -/
namespace Verif.Lemmas.Pixels
open Verif Verif.Objects Verif.Ransac Verif.Spec.Pixels Verif.Spec.Exact Verif.Spec.Objects Verif.Props.Outliers
open Verif.Lemmas.Program

variable {G Pt P Path : Type}

/-- The pairs of scene points and pixels handed to the search. -/
theorem mem_zip_select {ps : List Pt} : ∀ {ids : List Nat} {pts : List P}, (∀ k ∈ ids, k < ps.length) →
    ∀ e : Pt × P, e ∈ (select ps ids).zip pts ↔ ∃ k, (e.2, k) ∈ pts.zip ids ∧ ps[k]? = some e.1
  | [], pts, _, e => by simp [select]
  | i :: ids, [], _, e => by simp
  | i :: ids, p :: pts, h, e => by
    have hi : ps[i]? = some (ps[i]'(h i List.mem_cons_self)) := List.getElem?_eq_getElem _
    have hsel : select ps (i :: ids) = ps[i]'(h i List.mem_cons_self) :: select ps ids := by
      unfold select
      rw [List.filterMap_cons_some hi]
    rw [hsel, List.zip_cons_cons, List.zip_cons_cons, List.mem_cons,
      mem_zip_select (fun k hk => h k (List.mem_cons_of_mem _ hk)) e]
    constructor
    · rintro (rfl | ⟨k, h1, h2⟩)
      · exact ⟨i, by simp, hi⟩
      · exact ⟨k, List.mem_cons_of_mem _ h1, h2⟩
    · rintro ⟨k, h1, h2⟩
      rcases List.mem_cons.1 h1 with h3 | h3
      · obtain ⟨h4, rfl⟩ := Prod.mk.inj h3
        rw [hi, Option.some.injEq] at h2
        exact .inl (by rw [Prod.ext_iff]; exact ⟨h2.symm, h4⟩)
      · exact .inr ⟨k, h3, h2⟩

section
variable [Group G] [SMul G Pt] {w : World G} {pix : Nat → Pt → P} {bpts : List (List Pt)}

/-- The corners of an exact detection are corners of its board. -/
theorem ids_of {bo : BoardObs P} (h : ExactDetection w pix bpts bo) :
    ∃ ps, bpts[bo.board]? = some ps ∧ ∀ k ∈ bo.ids, k < ps.length := by
  have key : ∀ k ∈ bo.ids, ∃ p, (p, k) ∈ bo.pts.zip bo.ids := by
    intro k hk
    obtain ⟨j, hj, rfl⟩ := List.mem_iff_getElem.1 hk
    refine ⟨bo.pts[j]'(by rw [h.aligned]; exact hj), List.mem_iff_getElem.2 ⟨j, ?_, ?_⟩⟩
    · simp [h.aligned, hj]
    · simp
  have h4 := h.four
  rw [h.aligned] at h4
  obtain ⟨p, hp⟩ := key bo.ids[0] (List.getElem_mem _)
  obtain ⟨ps, x, h1, h2, _⟩ := h.exact _ _ hp
  refine ⟨ps, h1, fun k hk => ?_⟩
  obtain ⟨p', hp'⟩ := key k hk
  obtain ⟨ps', x', h1', h2', _⟩ := h.exact _ _ hp'
  rw [h1, Option.some.injEq] at h1'
  subst h1'
  exact (List.getElem?_eq_some_iff.1 h2').1

theorem board_step {search : Search Pt P G} (hE : ExactSearch pix search) (garbage : G) {bo : BoardObs P}
    (h : ExactDetection w pix bpts bo) (acc : List (Estimated P G)) :
    boardStep search garbage bpts acc bo = .ok (acc ++ [⟨bo, true, seenAt w bo⟩]) := by
  obtain ⟨ps, h1, h2⟩ := ids_of h
  have hs : search acc.length bo.cam (select ps bo.ids) bo.pts = .ok (List.range bo.pts.length, seenAt w bo) := by
    refine hE _ _ _ _ _ (by rw [select_length _ _ h2, h.aligned]) h.four ?_ ?_
    · intro e he
      obtain ⟨k, k1, k2⟩ := (mem_zip_select h2 e).1 he
      obtain ⟨ps', x, q1, q2, q3⟩ := h.exact _ _ k1
      rw [h1, Option.some.injEq] at q1
      subst q1
      rw [k2, Option.some.injEq] at q2
      subst q2
      exact q3
    · intro g hg
      refine h.only g fun p k ps' x hp hps hx => ?_
      rw [h1, Option.some.injEq] at hps
      subst hps
      exact hg (x, p) ((mem_zip_select h2 (x, p)).2 ⟨k, hp, hx⟩)
  obtain ⟨v, v1, v2, v3, v4, v5, v6, v7, v8⟩ := C30_board (search acc.length bo.cam) ps ⟨bo.pts, bo.ids, true, garbage⟩
    h.aligned h2 _ _ hs (List.Sublist.refl _)
  unfold boardStep
  rw [Outcome.idx_of_getElem? h1, Outcome.bind_ok, v1, Outcome.bind_ok]
  have e1 : v.pts = bo.pts := by rw [v2]; exact select_range _
  have e2 : v.ids = bo.ids := by
    rw [v3]
    show select bo.ids (List.range bo.pts.length) = _
    rw [h.aligned]
    exact select_range _
  have e3 : v.valid = true := v8.2 ⟨rfl, by rw [e1]; exact h.four⟩
  rw [e1, e2, e3, v7]
  rfl

/-- The pose estimation of exactly seen boards removes nothing and finds the true poses. -/
theorem boards_exact {search : Search Pt P G} (hE : ExactSearch pix search) (garbage : G) {obs : List (BoardObs P)}
    (h : ∀ bo ∈ obs, ExactDetection w pix bpts bo) :
    estimateAllBoards search garbage bpts obs = .ok (obs.map fun bo => ⟨bo, true, seenAt w bo⟩) := by
  unfold estimateAllBoards
  have key : ∀ (obs : List (BoardObs P)) acc, (∀ bo ∈ obs, ExactDetection w pix bpts bo) →
      Outcome.foldlM (boardStep search garbage bpts) acc obs = .ok (acc ++ obs.map fun bo => ⟨bo, true, seenAt w bo⟩) := by
    intro obs
    induction obs with
    | nil => intro acc _; simp
    | cons bo obs ih =>
      intro acc h
      rw [Outcome.foldlM_cons, board_step hE garbage (h bo List.mem_cons_self), Outcome.bind_ok,
        ih _ (fun b hb => h b (List.mem_cons_of_mem _ hb))]
      simp
  simpa using key obs [] h

end

section
variable {nCam nBoard : Nat}

theorem mem_sel (ob : Object G Pt) (obs : List (BoardObs P)) (c f : Nat) (bo : BoardObs P) :
    bo ∈ (Spec.Objects.seenOf ob obs c f).filterMap (fun i => obs[i]?) ↔
      bo ∈ obs ∧ bo.cam = c ∧ bo.frame = f ∧ bo.board ∈ OMap.keys ob.boards := by
  rw [List.mem_filterMap]
  constructor
  · rintro ⟨i, hi, he⟩
    obtain ⟨bo', hbo', hp⟩ := (Props.Store.positions_get _ _ _).1 hi
    rw [he] at hbo'
    simp only [Option.some.injEq] at hbo'
    subst hbo'
    simp only [Bool.and_eq_true, beq_iff_eq, decide_eq_true_eq] at hp
    exact ⟨List.mem_of_getElem? he, hp.1.1, hp.1.2, hp.2⟩
  · rintro ⟨hbo, h1, h2, h3⟩
    obtain ⟨i, hi⟩ := List.getElem?_of_mem hbo
    exact ⟨i, (Props.Store.positions_get _ _ _).2 ⟨bo, hi, by simp [h1, h2, h3]⟩, hi⟩

/-- The pixels and corner numbers of an object observation. -/
theorem mem_objObs (ob : Object G Pt) {obs : List (BoardObs P)} (hal : ∀ bo ∈ obs, bo.pts.length = bo.ids.length)
    (c f : Nat) (p : P) (e : Nat) : (p, e) ∈ (objObs ob obs c f).pts.zip (objObs ob obs c f).ids ↔
      ∃ bo ∈ obs, bo.cam = c ∧ bo.frame = f ∧ bo.board ∈ OMap.keys ob.boards ∧
        ∃ k, (p, k) ∈ bo.pts.zip bo.ids ∧ e = objNumber ob bo.board k := by
  unfold Spec.Objects.objObs
  rw [Props.Finish.mem_zip_flatMap _ _ _ (fun bo hbo => by
    rw [List.length_map]; exact hal bo ((mem_sel ob obs c f bo).1 hbo).1)]
  simp only [mem_sel]
  constructor
  · rintro ⟨bo, ⟨h1, h2, h3, h4⟩, h5⟩
    rw [List.zip_map_right] at h5
    obtain ⟨⟨p', k⟩, h6, h7⟩ := List.mem_map.1 h5
    simp only [Prod.map_apply, id_eq, Prod.mk.injEq] at h7
    obtain ⟨rfl, rfl⟩ := h7
    exact ⟨bo, h1, h2, h3, h4, k, h6, rfl⟩
  · rintro ⟨bo, h1, h2, h3, h4, k, h6, rfl⟩
    refine ⟨bo, ⟨h1, h2, h3, h4⟩, ?_⟩
    rw [List.zip_map_right]
    exact List.mem_map.2 ⟨(p, k), h6, rfl⟩

end

section
variable [Group G] [MulAction G Pt] {w : World G} {pix : Nat → Pt → P} {bpts : List (List Pt)}

/-- The true pose of an object observation. -/
def objectAt (w : World G) (objs : OMap Nat (Object G Pt)) (oo : ObjObs P) : G :=
  w.cam oo.cam * (w.motion oo.frame * w.board (((OMap.get? objs oo.obj).map (·.refBoard)).getD 0))

theorem count_of {obs : List (BoardObs P)} (h : ∀ bo ∈ obs, ExactDetection w pix bpts bo) :
    ∀ bo ∈ obs, ∀ k ∈ bo.ids, k < cornerCount bpts bo.board := by
  intro bo hbo k hk
  obtain ⟨ps, h1, h2⟩ := ids_of (h bo hbo)
  unfold cornerCount
  rw [h1]
  exact h2 k hk

theorem object_step {search : Search Pt P G} (hE : ExactSearch pix search) (garbage : G) {obs : List (BoardObs P)}
    (h : ∀ bo ∈ obs, ExactDetection w pix bpts bo) {objs : OMap Nat (Object G Pt)}
    (hC : Spec.Objects.Collection bpts objs) (hB : BoardsTrue w objs) {oos : List (ObjObs P)} (hM : Made objs obs oos)
    {oo : ObjObs P} (ho : oo ∈ oos) (acc : List G) :
    objectStep search garbage objs acc oo = .ok (acc ++ [objectAt w objs oo]) := by
  have hal : ∀ bo ∈ obs, bo.pts.length = bo.ids.length := fun bo hbo => (h bo hbo).aligned
  obtain ⟨ob, h1, h2, h3⟩ := hM oo ho
  obtain ⟨ob', r1, r2, r3⟩ := readable hC hal (count_of h) hM oo ho
  rw [h1, Option.some.injEq] at r1
  subst r1
  have hn := (hC.good _ ob h1).numbering
  have hp := (hC.good _ ob h1).posed
  have hat : objectAt w objs oo = w.cam oo.cam * (w.motion oo.frame * w.board ob.refBoard) := by
    unfold objectAt
    rw [h1]
    rfl
  -- a corner of a board is a corner of the object
  have hcorner : ∀ bo ∈ obs, bo.board ∈ OMap.keys ob.boards → ∀ k ∈ bo.ids, ∃ ps y, bpts[bo.board]? = some ps ∧
      ps[k]? = some y ∧ ob.pts[objNumber ob bo.board k]? = some (((w.board ob.refBoard)⁻¹ * w.board bo.board) • y) := by
    intro bo hbo hb k hk
    have hin : (bo.board, k) ∈ ob.o2b := (hn.mem _ _).2 ⟨hb, count_of h bo hbo k hk⟩
    have he : ob.o2b[objNumber ob bo.board k]? = some (bo.board, k) := by
      unfold objNumber
      rw [if_pos hin, List.getElem?_eq_getElem (List.idxOf_lt_length_iff.2 hin), List.getElem_idxOf]
    obtain ⟨g, ps, y, q1, q2, q3, q4⟩ := hp.point _ _ _ he
    rw [hB _ ob _ h1 hb, Option.some.injEq] at q1
    subst q1
    exact ⟨ps, y, q2, q3, q4⟩
  have hmem : ∀ p e, (p, e) ∈ oo.pts.zip oo.ids ↔ ∃ bo ∈ obs, bo.cam = oo.cam ∧ bo.frame = oo.frame ∧
      bo.board ∈ OMap.keys ob.boards ∧ ∃ k, (p, k) ∈ bo.pts.zip bo.ids ∧ e = objNumber ob bo.board k := by
    intro p e
    have := mem_objObs ob hal oo.cam oo.frame p e
    rwa [← h2] at this
  -- one of its boards
  obtain ⟨bo, b1, b2, b3, b4⟩ : ∃ bo ∈ obs, bo.cam = oo.cam ∧ bo.frame = oo.frame ∧ bo.board ∈ OMap.keys ob.boards := by
    have hpos := List.length_pos_iff.2 h3
    obtain ⟨bo, b1, b2, b3, b4, _⟩ := (hmem oo.pts[0] (oo.ids[0]'(by omega))).1
      (List.mem_iff_getElem.2 ⟨0, by simp; omega, by simp⟩)
    exact ⟨bo, b1, b2, b3, b4⟩
  have hfour : 4 ≤ oo.pts.length := by
    refine le_trans (h bo b1).four ?_
    rw [h2]
    unfold objObs
    rw [List.length_flatMap]
    exact List.single_le_sum (by simp) _ (List.mem_map.2 ⟨bo, (mem_sel ob obs _ _ bo).2 ⟨b1, b2, b3, b4⟩, rfl⟩)
  have hs : search acc.length oo.cam (select ob.pts oo.ids) oo.pts =
      .ok (List.range oo.pts.length, objectAt w objs oo) := by
    refine hE _ _ _ _ _ (by rw [select_length _ _ r3, r2]) hfour ?_ ?_
    · intro e he
      obtain ⟨j, j1, j2⟩ := (mem_zip_select r3 e).1 he
      obtain ⟨b, c1, c2, c3, c4, k, c5, rfl⟩ := (hmem _ _).1 j1
      obtain ⟨ps, y, d1, d2, d3⟩ := hcorner b c1 c4 k (List.of_mem_zip c5).2
      rw [d3, Option.some.injEq] at j2
      obtain ⟨ps', y', f1, f2, f3⟩ := (h b c1).exact _ _ c5
      rw [d1, Option.some.injEq] at f1
      subst f1
      rw [d2, Option.some.injEq] at f2
      subst f2
      rw [f3, ← j2, hat, ← mul_smul, c2]
      unfold seenAt
      rw [c2, c3]
      congr 2
      group
    · intro g hg
      have := (h bo b1).only (g * ((w.board ob.refBoard)⁻¹ * w.board bo.board)) (by
        intro p k ps x hpk hps hx
        obtain ⟨ps', y, d1, d2, d3⟩ := hcorner bo b1 b4 k (List.of_mem_zip hpk).2
        rw [hps, Option.some.injEq] at d1
        subst d1
        rw [hx, Option.some.injEq] at d2
        subst d2
        rw [mul_smul, b2]
        exact hg (_, p) ((mem_zip_select r3 (_, p)).2 ⟨_, (hmem _ _).2 ⟨bo, b1, b2, b3, b4, k, hpk, rfl⟩, d3⟩))
      unfold seenAt at this
      rw [hat, ← b2, ← b3, ← mul_left_inj ((w.board ob.refBoard)⁻¹ * w.board bo.board), this]
      group
  unfold objectStep
  rw [h1, Outcome.deref_some, Outcome.bind_ok]
  unfold estimateObject scenePoints
  rw [scenePoints_ok ob.pts oo.ids [] r3, Outcome.bind_ok, List.nil_append, hs]
  rfl

/-- The pose estimation of true objects from exact pixels finds their true poses. -/
theorem objects_exact {search : Search Pt P G} (hE : ExactSearch pix search) (garbage : G) {obs : List (BoardObs P)}
    (h : ∀ bo ∈ obs, ExactDetection w pix bpts bo) {objs : OMap Nat (Object G Pt)}
    (hC : Spec.Objects.Collection bpts objs) (hB : BoardsTrue w objs) {oos : List (ObjObs P)} (hM : Made objs obs oos) :
    estimateAllObjects search garbage objs oos = .ok (oos.map (objectAt w objs)) := by
  unfold estimateAllObjects
  have key : ∀ (os : List (ObjObs P)) acc, (∀ oo ∈ os, oo ∈ oos) →
      Outcome.foldlM (objectStep search garbage objs) acc os = .ok (acc ++ os.map (objectAt w objs)) := by
    intro os
    induction os with
    | nil => intro acc _; simp
    | cons oo os ih =>
      intro acc hos
      rw [Outcome.foldlM_cons, object_step hE garbage h hC hB hM (hos oo List.mem_cons_self), Outcome.bind_ok,
        ih _ (fun b hb => hos b (List.mem_cons_of_mem _ hb))]
      simp
  simpa using key oos [] (fun _ h => h)

theorem poses_true {objs : OMap Nat (Object G Pt)} {oos : List (ObjObs P)} {pose : Nat → G}
    (h : ∀ i (hi : i < (oos.map (objectAt w objs)).length), pose i = (oos.map (objectAt w objs))[i]) :
    PosesTrue w objs oos pose := by
  intro k x o hx ho
  obtain ⟨hk, rfl⟩ := List.getElem?_eq_some_iff.1 hx
  rw [h k (by simpa using hk), List.getElem_map]
  unfold objectAt
  rw [ho]
  rfl

end
end Verif.Lemmas.Pixels
