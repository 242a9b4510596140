import Verif.Spec.Problem
import Verif.Props.Residual
import Verif.Props.Refine
import Verif.Props.Groups

/-!
C62: what each refinement minimises.
-/
namespace Verif.Props.Problem
open Verif Verif.Refine Verif.Spec.Problem Verif.Spec.Store Residual Rigid Objects Groups Verif.Props.Residual

variable {G : Type}

/-! ### Loops that add terms -/

/-- A loop whose rounds append values or fail. -/
private theorem loop {α β : Type} {f : List β → α → Outcome (List β)} {v : α → List β} {R : α → Prop} {l : List α}
    (hok : ∀ acc, ∀ x ∈ l, R x → f acc x = .ok (acc ++ v x)) (hub : ∀ acc, ∀ x ∈ l, ¬ R x → f acc x = .ub)
    (acc : List β) :
    ((∀ x ∈ l, R x) → Outcome.foldlM f acc l = .ok (acc ++ l.flatMap v)) ∧
    ((¬ ∀ x ∈ l, R x) → Outcome.foldlM f acc l = .ub) := by
  induction l generalizing acc with
  | nil => simp [Outcome.foldlM_nil]
  | cons x l ih =>
    have ih := ih (fun acc y hy => hok acc y (by simp [hy])) (fun acc y hy => hub acc y (by simp [hy]))
    rw [Outcome.foldlM_cons]
    by_cases hx : R x
    · rw [hok acc x (by simp) hx, Outcome.bind_ok]
      constructor
      · intro h
        rw [(ih _).1 fun y hy => h y (by simp [hy])]
        simp
      · intro h
        refine (ih _).2 fun h' => h ?_
        simpa [hx] using h'
    · rw [hub acc x (by simp) hx]
      exact ⟨fun h => absurd (h x (by simp)) hx, fun _ => rfl⟩

private theorem zip_range {C : Type} (ids : List Nat) (pts : List (ℝ × ℝ)) (look : Nat → Option C)
    (T : ℝ × ℝ → C → Term) :
    (List.range ids.length).flatMap (fun k => match ids[k]?, pts[k]? with
      | some id, some q => ((look id).map (T q)).toList
      | _, _ => []) = corners ids pts look T := by
  unfold corners
  induction ids generalizing pts with
  | nil => rfl
  | cons id ids ih =>
    rw [List.length_cons, List.range_succ_eq_map, List.flatMap_cons, List.flatMap_map]
    cases pts with
    | nil => simp
    | cons q pts =>
      have := ih pts
      simp only [List.getElem?_cons_succ, List.getElem?_cons_zero, List.zip_cons_cons, List.filterMap_cons]
      rw [this]
      cases look id <;> simp

/-- The loop over the corners of an observation. -/
private theorem corner_loop {C : Type} (ids : List Nat) (pts : List (ℝ × ℝ)) (look : Nat → Option C)
    (T : ℝ × ℝ → C → Term) {f : List Term → Nat → Outcome (List Term)}
    (hf : ∀ acc k id, ids[k]? = some id → f acc k = match pts[k]?, look id with
      | some q, some c => .ok (acc ++ [T q c])
      | _, _ => .ub) (acc : List Term) :
    (Readable ids pts look → Outcome.foldlM f acc (List.range ids.length) = .ok (acc ++ corners ids pts look T)) ∧
    (¬ Readable ids pts look → Outcome.foldlM f acc (List.range ids.length) = .ub) := by
  have hR : (∀ k ∈ List.range ids.length, ∃ q, pts[k]? = some q ∧ ∃ id, ids[k]? = some id ∧ (look id).isSome) ↔
      Readable ids pts look := by
    constructor
    · intro h
      constructor
      · by_contra hlt
        obtain ⟨q, hq, -⟩ := h pts.length (by simp; omega)
        simp at hq
      · intro id hid
        obtain ⟨k, hk⟩ := List.mem_iff_getElem?.1 hid
        obtain ⟨q, hq, id', hid', hs⟩ := h k (List.mem_range.2 (List.getElem?_eq_some_iff.1 hk).1)
        rw [hk] at hid'; cases hid'; exact hs
    · rintro ⟨h1, h2⟩ k hk
      have hk := List.mem_range.1 hk
      exact ⟨pts[k], by simp [List.getElem?_eq_getElem (show k < pts.length by omega)], ids[k],
        List.getElem?_eq_getElem hk, h2 _ (List.getElem_mem hk)⟩
  have := loop (f := f) (l := List.range ids.length)
    (R := fun k => ∃ q, pts[k]? = some q ∧ ∃ id, ids[k]? = some id ∧ (look id).isSome)
    (v := fun k => match ids[k]?, pts[k]? with
      | some id, some q => ((look id).map (T q)).toList
      | _, _ => []) ?_ ?_ acc
  · rw [hR, zip_range] at this
    exact this
  · rintro acc k hk ⟨q, hq, id, hid, hs⟩
    obtain ⟨c, hc⟩ := Option.isSome_iff_exists.1 hs
    rw [hf acc k id hid]
    simp [hq, hid, hc]
  · intro acc k hk h
    obtain ⟨id, hid⟩ : ∃ id, ids[k]? = some id := ⟨_, List.getElem?_eq_getElem (List.mem_range.1 hk)⟩
    rw [hf acc k id hid]
    cases hq : pts[k]? with
    | none => rfl
    | some q =>
      cases hc : look id with
      | none => rfl
      | some c => exact absurd ⟨q, hq, id, hid, by simp [hc]⟩ h

/-- The number of terms of a readable observation is the number of its corners. -/
theorem corners_length {C : Type} {ids : List Nat} {pts : List (ℝ × ℝ)} {look : Nat → Option C}
    (h : Readable ids pts look) (T : ℝ × ℝ → C → Term) : (corners ids pts look T).length = ids.length := by
  unfold corners
  obtain ⟨h1, h2⟩ := h
  induction ids generalizing pts with
  | nil => rfl
  | cons id ids ih =>
    cases pts with
    | nil => simp at h1
    | cons q pts =>
      obtain ⟨c, hc⟩ := Option.isSome_iff_exists.1 (h2 id (by simp))
      rw [List.zip_cons_cons, List.filterMap_cons, hc]
      simp only [Option.map_some, List.length_cons]
      rw [ih (by simpa using h1) fun i hi => h2 i (by simp [hi])]

private theorem idx_none {α : Type} {l : List α} {i : Nat} (h : l[i]? = none) : Outcome.idx l i = .ub := by
  unfold Outcome.idx; rw [h]

/-- What a round of a loop does: it appends `v`, or fails if `R` does not hold. -/
private def Adds {β : Type} (F : List β → Outcome (List β)) (v : List β) (R : Prop) : Prop :=
  ∀ acc, (R → F acc = .ok (acc ++ v)) ∧ (¬ R → F acc = .ub)

private theorem adds_loop {α β : Type} {f : List β → α → Outcome (List β)} {v : α → List β} {R : α → Prop}
    {l : List α} (h : ∀ x ∈ l, Adds (fun acc => f acc x) (v x) (R x)) :
    Adds (fun acc => Outcome.foldlM f acc l) (l.flatMap v) (∀ x ∈ l, R x) :=
  fun acc => loop (fun acc x hx => (h x hx acc).1) (fun acc x hx => (h x hx acc).2) acc

private theorem adds_congr {β : Type} {F : List β → Outcome (List β)} {v : List β} {R R' : Prop}
    (h : Adds F v R) (hr : R ↔ R') : Adds F v R' := by rwa [← propext hr]

private theorem adds_ub {β : Type} {F : List β → Outcome (List β)} {v : List β} {R : Prop}
    (h : ∀ acc, F acc = .ub) (hr : ¬ R) : Adds F v R :=
  fun acc => ⟨fun h' => absurd h' hr, fun _ => h acc⟩

private theorem adds_nothing {β : Type} {F : List β → Outcome (List β)} {R : Prop}
    (h : ∀ acc, F acc = .ok acc) (hr : R) : Adds F [] R :=
  fun acc => ⟨fun _ => by rw [h, List.append_nil], fun h' => absurd hr h'⟩

private theorem pt_mk (q : ℝ × ℝ) (p : Vec3 ℝ) : pt (mkObs q p) = p := by
  unfold pt mkObs; ext i; fin_cases i <;> rfl

/-- The terms of a valid board observation. -/
private theorem adds_board (sc : Scene G) (j : Nat) (T : BoardObs (ℝ × ℝ) → ℝ × ℝ → Vec3 ℝ → Term)
    (F : List Term → Outcome (List Term)) (body : BoardObs (ℝ × ℝ) → List (Vec3 ℝ) → List Term → Nat →
      Outcome (List Term))
    (hF : ∀ acc, F acc = Outcome.idx sc.obs j >>= fun bo => if bo.valid then
      (Outcome.idx sc.bpts bo.obs.board >>= fun bp =>
        Outcome.foldlM (body bo.obs bp) acc (List.range bo.obs.ids.length)) else pure acc)
    (hbody : ∀ bo bp acc k, body bo bp acc k = Outcome.idx bo.ids k >>= fun id => Outcome.idx bp id >>= fun p =>
      Outcome.idx bo.pts k >>= fun q => pure (acc ++ [T bo q p])) :
    Adds F (match sc.obs[j]? with
      | none => []
      | some bo => if bo.valid then
          corners bo.obs.ids bo.obs.pts (boardCorner sc bo.obs.board) (T bo.obs) else [])
      (BoardReadable sc j) := by
  cases hbo : sc.obs[j]? with
  | none =>
    refine adds_ub (fun acc => by rw [hF, idx_none hbo]; rfl) ?_
    rintro ⟨bo, h, -⟩; rw [hbo] at h; cases h
  | some bo =>
    have hF' : ∀ acc, F acc = if bo.valid then
      (Outcome.idx sc.bpts bo.obs.board >>= fun bp =>
        Outcome.foldlM (body bo.obs bp) acc (List.range bo.obs.ids.length)) else pure acc := by
      intro acc; rw [hF, Outcome.idx_of_getElem? hbo, Outcome.bind_ok]
    by_cases hv : bo.valid = true
    · simp only [hv, if_true] at hF' ⊢
      by_cases hb : bo.obs.board < sc.bpts.length
      · have hbp := List.getElem?_eq_getElem hb
        rw [Outcome.idx_of_getElem? hbp] at hF'
        simp only [Outcome.bind_ok] at hF'
        refine adds_congr (R := Readable bo.obs.ids bo.obs.pts (boardCorner sc bo.obs.board)) ?_ ?_
        · intro acc
          rw [hF']
          refine corner_loop _ _ _ _ ?_ acc
          intro acc k id hid
          rw [hbody, Outcome.idx_of_getElem? hid, Outcome.bind_ok]
          simp only [boardCorner, hbp, Option.bind_some]
          cases hp : (sc.bpts[bo.obs.board])[id]? with
          | none => rw [idx_none hp]; cases bo.obs.pts[k]? <;> rfl
          | some p =>
            rw [Outcome.idx_of_getElem? hp, Outcome.bind_ok]
            cases hq : bo.obs.pts[k]? with
            | none => rw [idx_none hq]; rfl
            | some q => rw [Outcome.idx_of_getElem? hq, Outcome.bind_ok]; rfl
        · constructor
          · intro h; exact ⟨bo, hbo, fun _ => ⟨hb, h⟩⟩
          · rintro ⟨bo', hbo', h⟩
            rw [hbo] at hbo'; cases hbo'
            exact (h hv).2
      · refine adds_ub (fun acc => by rw [hF', idx_none (List.getElem?_eq_none (by omega))]; rfl) ?_
        rintro ⟨bo', hbo', h⟩
        rw [hbo] at hbo'; cases hbo'
        exact hb (h hv).1
    · simp only [hv] at hF' ⊢
      exact adds_nothing hF' ⟨bo, hbo, fun h => absurd h hv⟩

/-- The terms of an object observation. -/
private theorem adds_view {C : Type} (sc : Scene G) (i : Nat) (look : Object G (Vec3 ℝ) → Nat → Option C)
    (T : ObjObs (ℝ × ℝ) → Object G (Vec3 ℝ) → ℝ × ℝ → C → Term)
    (F : List Term → Outcome (List Term)) (body : ObjObs (ℝ × ℝ) → Object G (Vec3 ℝ) → List Term → Nat →
      Outcome (List Term))
    (hF : ∀ acc, F acc = Outcome.idx sc.oo i >>= fun x => Outcome.deref (OMap.get? sc.objs x.obj) >>= fun o =>
        Outcome.foldlM (body x o) acc (List.range x.ids.length))
    (hbody : ∀ x o acc k id, x.ids[k]? = some id → body x o acc k = match x.pts[k]?, look o id with
      | some q, some c => .ok (acc ++ [T x o q c])
      | _, _ => .ub) :
    Adds F (match sc.oo[i]? with
      | none => []
      | some x => match OMap.get? sc.objs x.obj with
        | none => []
        | some o => corners x.ids x.pts (look o) (T x o))
      (∃ x o, sc.oo[i]? = some x ∧ OMap.get? sc.objs x.obj = some o ∧ Readable x.ids x.pts (look o)) := by
  cases hx : sc.oo[i]? with
  | none =>
    refine adds_ub (fun acc => by rw [hF, idx_none hx]; rfl) ?_
    rintro ⟨x, o, h, -⟩; cases h
  | some x =>
    cases ho : OMap.get? sc.objs x.obj with
    | none =>
      refine adds_ub (fun acc => by rw [hF, Outcome.idx_of_getElem? hx, Outcome.bind_ok, ho]; rfl) ?_
      rintro ⟨x', o, h, h', -⟩; cases h; rw [ho] at h'; cases h'
    | some o =>
      refine adds_congr (R := Readable x.ids x.pts (look o)) ?_ ?_
      · intro acc
        rw [hF, Outcome.idx_of_getElem? hx, Outcome.bind_ok, ho, Outcome.deref_some, Outcome.bind_ok]
        simp only [ho]
        exact corner_loop _ _ _ _ (fun acc k id hid => hbody x o acc k id hid) acc
      · constructor
        · intro h; exact ⟨x, o, rfl, ho, h⟩
        · rintro ⟨x', o', h, h', hr⟩
          cases h; rw [ho] at h'; cases h'; exact hr

private theorem solved {f : Outcome (List Term)} {F : List Term → Outcome (List Term)} {pb : List Term} {R : Prop}
    (solve : Solver) (e : Env) (h : Adds F pb R) (hf : f = F []) :
    (R → (f >>= fun pb => pure (solve pb e)) = .ok (solve pb e)) ∧
    (¬ R → (f >>= fun pb => pure (solve pb e)) = Outcome.ub) := by
  rw [hf]
  refine ⟨fun hr => ?_, fun hr => ?_⟩
  · rw [(h []).1 hr]; rfl
  · rw [(h []).2 hr]; rfl

section
variable {rot : RotatePoint} {ro : Rodrigues ℝ} (hrot : RotatesBy rot ro) (hro : ro.Sound) (solve : Solver)
  (sc : Scene G) (e : Env)
include hrot

/-- C62: the intrinsic refinement of a camera solves the problem with one reprojection error per corner of its valid
board observations, if these can be read, and reads outside of a table if not. -/
theorem C62_intrinsic (c : Nat) :
    ((∀ i ∈ sc.camBoards c, BoardReadable sc i) →
      refineIntrinsic rot solve sc e c = .ok (solve (intrinsic (pose ro hro) sc c) e)) ∧
    ((¬ ∀ i ∈ sc.camBoards c, BoardReadable sc i) → refineIntrinsic rot solve sc e c = .ub) := by
  refine solved solve e (F := fun acc => Outcome.foldlM (intrinsicTerms rot sc c) acc (sc.camBoards c))
    (adds_loop fun i _ => ?_) rfl
  refine adds_board sc i (fun _ q p => reprojection (sc.model c) (fun e => e (.intr c))
    (fun e => pose ro hro (e (.boardObs i))) p q) _ (intrinsicTerm rot sc c i) (fun acc => rfl) ?_
  intro bo bp acc k
  unfold intrinsicTerm
  have hT : ∀ q p, (fun e : Env => boardIntrinsics rot (mkObs q p) (sc.model c) (e (.boardObs i)) (e (.intr c))) =
      reprojection (sc.model c) (fun e => e (.intr c)) (fun e => pose ro hro (e (.boardObs i))) p q := by
    intro q p; funext e
    rw [C36_board_intrinsics hrot hro, pt_mk]; rfl
  simp only [hT]

/-- C62: the refinement of an object. -/
theorem C62_object (o : Object G (Vec3 ℝ)) :
    ((∀ (i : Nat) x, sc.oo[i]? = some x → x.obj = o.id → ∀ j ∈ x.boards, BoardReadable sc j) →
      Verif.Refine.refineObject rot solve sc e o = .ok (solve (object (pose ro hro) sc e o) e)) ∧
    ((¬ ∀ (i : Nat) x, sc.oo[i]? = some x → x.obj = o.id → ∀ j ∈ x.boards, BoardReadable sc j) →
      Verif.Refine.refineObject rot solve sc e o = .ub) := by
  refine solved solve e (F := fun acc => Outcome.foldlM (objectTerms rot sc e o) acc (obsOfObject sc o.id))
    (adds_congr (adds_loop (R := fun i => ∀ x, sc.oo[i]? = some x → ∀ j ∈ x.boards, BoardReadable sc j)
      fun i hi => ?_) ?_) rfl
  · obtain ⟨x, hx, hxo⟩ := (Verif.Props.Store.positions_get _ _ _).1 hi
    simp only [hx]
    refine adds_congr (R := ∀ j ∈ x.boards, BoardReadable sc j) (fun acc => ?_)
      ⟨fun h x' hx' => by cases hx'; exact h, fun h => h x rfl⟩
    unfold objectTerms
    rw [Outcome.idx_of_getElem? hx, Outcome.bind_ok]
    revert acc
    refine adds_loop fun j _ => ?_
    refine adds_board sc j (fun bo q p => reprojection (sc.model bo.cam) (fun _ => e (.intr bo.cam))
      (fun e => pose ro hro (e (.objObs i)) * boardIn (pose ro hro) o o.id bo.board e) p q) _
      (objectTerm rot sc e o i) (fun acc => rfl) ?_
    intro bo bp acc k
    unfold objectTerm
    have hT : ∀ q p, (fun e' : Env => objectRef rot (mkObs q p) (consts (e (.intr bo.cam)))
        (if o.refBoard = bo.board then false else true) (sc.model bo.cam)
        (e' (.objObs i)) (e' (.boardPose o.id bo.board))) =
        reprojection (sc.model bo.cam) (fun _ => e (.intr bo.cam))
        (fun e => pose ro hro (e (.objObs i)) * boardIn (pose ro hro) o o.id bo.board e) p q := by
      intro q p; funext e'
      rw [C36_object hrot hro, pt_mk]
      unfold reprojection boardIn
      rw [mul_smul]
      by_cases hb : bo.board = o.refBoard
      · simp [hb]; rfl
      · simp [hb, Ne.symm hb]; rfl
    simp only [hT]
  · constructor
    · intro h i x hx hxo j hj
      exact h i ((Verif.Props.Store.positions_get _ _ _).2 ⟨x, hx, by simp [hxo]⟩) x hx j hj
    · intro h i hi x hx j hj
      obtain ⟨x', hx', hxo⟩ := (Verif.Props.Store.positions_get _ _ _).1 hi
      rw [hx] at hx'; cases hx'
      exact h i x hx (by simpa using hxo) j hj

/-- C62: the refinement of the poses of a camera group alone. -/
theorem C62_group (g : CamGroup G) :
    ((∀ v ∈ groupViews sc.t g, PointsReadable sc v.2) →
      refineCameraGroup rot solve sc e g = .ok (solve (group (pose ro hro) sc e g (groupViews sc.t g)) e)) ∧
    ((¬ ∀ v ∈ groupViews sc.t g, PointsReadable sc v.2) → refineCameraGroup rot solve sc e g = .ub) := by
  refine solved solve e (F := fun acc => Outcome.foldlM (groupTerms rot sc e g) acc (groupViews sc.t g))
    (adds_loop fun v _ => ?_) rfl
  refine adds_view sc v.2 (fun o id => o.pts[id]?) (fun x o q p =>
    reprojection (sc.model x.cam) (fun _ => e (.intr x.cam))
      (fun e => cameraIn (pose ro hro) g x.cam e * pose ro hro (e (.objPose g.id v.1 x.obj))) p q) _
    (fun x o => groupTerm rot sc e g v.1 o x) (fun acc => rfl) ?_
  intro x o acc k id hid
  unfold groupTerm
  have hT : ∀ q p, (fun e' : Env => groupRef rot (mkObs q p) (consts (e (.intr x.cam)))
      (if g.refCam = x.cam then false else true) (sc.model x.cam)
      (e' (.camPose g.id x.cam)) (e' (.objPose g.id v.1 x.obj))) =
      reprojection (sc.model x.cam) (fun _ => e (.intr x.cam))
      (fun e => cameraIn (pose ro hro) g x.cam e * pose ro hro (e (.objPose g.id v.1 x.obj))) p q := by
    intro q p; funext e'
    rw [C36_group hrot hro, pt_mk]
    unfold reprojection cameraIn
    rw [mul_smul]
    by_cases hb : x.cam = g.refCam
    · simp [hb]; rfl
    · simp [hb, Ne.symm hb]; rfl
  rw [Outcome.idx_of_getElem? hid, Outcome.bind_ok]
  cases hp : o.pts[id]? with
  | none => rw [idx_none hp]; cases x.pts[k]? <;> rfl
  | some p =>
    rw [Outcome.idx_of_getElem? hp, Outcome.bind_ok]
    cases hq : x.pts[k]? with
    | none => rw [idx_none hq]; rfl
    | some q =>
      rw [Outcome.idx_of_getElem? hq, Outcome.bind_ok, hT]; rfl

/-- C62: the joint refinement of a camera group and of its objects. -/
theorem C62_group_objects (g : CamGroup G) :
    ((∀ v ∈ groupViews sc.t g, CornersReadable sc v.2) →
      refineGroupAndObjects rot solve sc e g =
        .ok (solve (groupObjects (pose ro hro) sc (fun c _ => e (.intr c)) g (groupViews sc.t g)) e)) ∧
    ((¬ ∀ v ∈ groupViews sc.t g, CornersReadable sc v.2) → refineGroupAndObjects rot solve sc e g = .ub) := by
  refine solved solve e (F := fun acc => Outcome.foldlM (groupObjectTerms rot sc e g) acc (groupViews sc.t g))
    (adds_loop fun v _ => ?_) rfl
  refine adds_view sc v.2 (objectCorner sc) (fun x o q bp =>
    reprojection (sc.model x.cam) (fun _ => e (.intr x.cam))
      (fun e => cameraIn (pose ro hro) g x.cam e * pose ro hro (e (.objPose g.id v.1 x.obj)) *
        boardIn (pose ro hro) o x.obj bp.1 e) bp.2 q) _
    (fun x o => groupObjectTerm rot sc e g v.1 o x) (fun acc => rfl) ?_
  intro x o acc k id hid
  unfold groupObjectTerm
  have hT : ∀ q (b : Nat) p, (fun e' : Env => groupObjectRef rot (mkObs q p) (consts (e (.intr x.cam)))
      (if g.refCam = x.cam then false else true) (if o.refBoard = b then false else true) (sc.model x.cam)
      (e' (.camPose g.id x.cam)) (e' (.objPose g.id v.1 x.obj)) (e' (.boardPose x.obj b))) =
      reprojection (sc.model x.cam) (fun _ => e (.intr x.cam))
      (fun e => cameraIn (pose ro hro) g x.cam e * pose ro hro (e (.objPose g.id v.1 x.obj)) *
        boardIn (pose ro hro) o x.obj b e) p q := by
    intro q b p; funext e'
    rw [C36_group_object hrot hro, pt_mk]
    unfold reprojection cameraIn boardIn
    rw [mul_smul, mul_smul]
    by_cases hc : x.cam = g.refCam <;> by_cases hb : b = o.refBoard
    · simp [hb, hc]; rfl
    · simp [hb, hc, Ne.symm hb]; rfl
    · simp [hb, hc, Ne.symm hc]; rfl
    · simp [hb, hc, Ne.symm hb, Ne.symm hc]; rfl
  rw [Outcome.idx_of_getElem? hid, Outcome.bind_ok]
  cases hq : x.pts[k]? with
  | none => rw [idx_none hq]; rfl
  | some q =>
    rw [Outcome.idx_of_getElem? hq, Outcome.bind_ok]
    unfold objectCorner
    cases hb : o.o2b[id]? with
    | none => rw [idx_none hb]; rfl
    | some b =>
      rw [Outcome.idx_of_getElem? hb, Outcome.bind_ok, Option.bind_some]
      unfold boardCorner
      cases hbp : sc.bpts[b.1]? with
      | none => rw [idx_none hbp]; rfl
      | some bp =>
        rw [Outcome.idx_of_getElem? hbp, Outcome.bind_ok, Option.bind_some]
        cases hp : bp[b.2]? with
        | none => rw [idx_none hp]; rfl
        | some p => rw [Outcome.idx_of_getElem? hp, Outcome.bind_ok, hT]; rfl

/-- C62: the joint refinement including the intrinsics. -/
theorem C62_group_objects_intrinsics (g : CamGroup G) :
    ((∀ v ∈ groupViews sc.t g, CornersReadable sc v.2) →
      refineGroupObjectsIntrinsics rot solve sc e g =
        .ok (solve (groupObjects (pose ro hro) sc (fun c e => e (.intr c)) g (groupViews sc.t g)) e)) ∧
    ((¬ ∀ v ∈ groupViews sc.t g, CornersReadable sc v.2) → refineGroupObjectsIntrinsics rot solve sc e g = .ub) := by
  refine solved solve e (F := fun acc => Outcome.foldlM (groupIntrinsicTerms rot sc g) acc (groupViews sc.t g))
    (adds_loop fun v _ => ?_) rfl
  refine adds_view sc v.2 (objectCorner sc) (fun x o q bp =>
    reprojection (sc.model x.cam) (fun e => e (.intr x.cam))
      (fun e => cameraIn (pose ro hro) g x.cam e * pose ro hro (e (.objPose g.id v.1 x.obj)) *
        boardIn (pose ro hro) o x.obj bp.1 e) bp.2 q) _
    (fun x o => groupIntrinsicTerm rot sc g v.1 o x) (fun acc => rfl) ?_
  intro x o acc k id hid
  unfold groupIntrinsicTerm
  have hT : ∀ q (b : Nat) p, (fun e' : Env => groupObjectIntrinsics rot (mkObs q p)
      (if g.refCam = x.cam then false else true) (if o.refBoard = b then false else true) (sc.model x.cam)
      (e' (.camPose g.id x.cam)) (e' (.objPose g.id v.1 x.obj)) (e' (.boardPose x.obj b)) (e' (.intr x.cam))) =
      reprojection (sc.model x.cam) (fun e => e (.intr x.cam))
      (fun e => cameraIn (pose ro hro) g x.cam e * pose ro hro (e (.objPose g.id v.1 x.obj)) *
        boardIn (pose ro hro) o x.obj b e) p q := by
    intro q b p; funext e'
    rw [C36_group_object_intrinsics hrot hro, pt_mk]
    unfold reprojection cameraIn boardIn
    rw [mul_smul, mul_smul]
    by_cases hc : x.cam = g.refCam <;> by_cases hb : b = o.refBoard
    · simp [hb, hc]; rfl
    · simp [hb, hc, Ne.symm hb]; rfl
    · simp [hb, hc, Ne.symm hc]; rfl
    · simp [hb, hc, Ne.symm hb, Ne.symm hc]; rfl
  rw [Outcome.idx_of_getElem? hid, Outcome.bind_ok]
  cases hq : x.pts[k]? with
  | none => rw [idx_none hq]; rfl
  | some q =>
    rw [Outcome.idx_of_getElem? hq, Outcome.bind_ok]
    unfold objectCorner
    cases hb : o.o2b[id]? with
    | none => rw [idx_none hb]; rfl
    | some b =>
      rw [Outcome.idx_of_getElem? hb, Outcome.bind_ok, Option.bind_some]
      unfold boardCorner
      cases hbp : sc.bpts[b.1]? with
      | none => rw [idx_none hbp]; rfl
      | some bp =>
        rw [Outcome.idx_of_getElem? hbp, Outcome.bind_ok, Option.bind_some]
        cases hp : bp[b.2]? with
        | none => rw [idx_none hp]; rfl
        | some p => rw [Outcome.idx_of_getElem? hp, Outcome.bind_ok, hT]; rfl

/-! ### All cameras, objects, groups -/

omit hrot in
private theorem fold_solve {α : Type} {f : Env → α → Outcome Env} {P : Env → α → List Term} {l : List α}
    (h : ∀ e : Env, ∀ x ∈ l, f e x = .ok (solve (P e x) e)) : Outcome.foldlM f e l = .ok (solveAll solve P l e) := by
  induction l generalizing e with
  | nil => rfl
  | cons x l ih =>
    rw [Outcome.foldlM_cons, h e x List.mem_cons_self, Outcome.bind_ok, ih _ fun e y hy => h e y (List.mem_cons_of_mem _ hy)]
    rfl

/-- C62: the problem of every camera is solved, once, in the order of their numbers. -/
theorem C62_all_cameras (nCam : Nat) (hr : SceneReadable sc nCam) :
    refineAllIntrinsics rot solve nCam sc e =
      .ok (solveAll solve (fun _ c => intrinsic (pose ro hro) sc c) (List.range nCam) e) :=
  fold_solve solve e fun e' c hc =>
    (C62_intrinsic hrot hro solve sc e' c).1 (hr.cameras c (List.mem_range.1 hc))

/-- C62: the problem of every object is solved, once. -/
theorem C62_all_objects (nCam : Nat) (hr : SceneReadable sc nCam) :
    refineAllObjects rot solve sc e =
      .ok (solveAll solve (fun e' o => object (pose ro hro) sc e' o.2) sc.objs e) :=
  fold_solve solve e fun e' o _ =>
    (C62_object hrot hro solve sc e' o.2).1 fun i x hx _ => hr.objects i x hx

/-- C62: the problem of every group is solved, once. -/
theorem C62_all_groups (nCam : Nat) (hr : SceneReadable sc nCam) :
    refineAllGroups rot solve sc e = .ok (solveAll solve (fun e' g =>
      groupObjects (pose ro hro) sc (fun c _ => e' (.intr c)) g.2 (groupViews sc.t g.2)) sc.t.groups e) :=
  fold_solve solve e fun e' g hg => (C62_group_objects hrot hro solve sc e' g.2).1 (hr.views g hg)

/-- C62: the problem of every group, with the intrinsics, is solved, once. -/
theorem C62_all_groups_intrinsics (nCam : Nat) (hr : SceneReadable sc nCam) :
    refineAllGroupsIntrinsics rot solve sc e = .ok (solveAll solve (fun _ g =>
      groupObjects (pose ro hro) sc (fun c e' => e' (.intr c)) g.2 (groupViews sc.t g.2)) sc.t.groups e) :=
  fold_solve solve e fun e' g hg => (C62_group_objects_intrinsics hrot hro solve sc e' g.2).1 (hr.views g hg)

/-- C62: all that is minimised from the start to the end of the run, with `fix_intrinsic` (any value but 0) or
without. -/
theorem C62_workflow (fix : Int) (nCam : Nat) (w : World G) (hr : ∀ n e, SceneReadable (w.scene n e) nCam) :
    calibrate rot solve fix nCam w e = .ok (workflow (pose ro hro) solve (fix ≠ 0) nCam w e) := by
  have hstage : ∀ (l : List Nat) e, Outcome.foldlM (refineStage rot solve w) e l =
      .ok (l.foldl (fun e n =>
        solveAll solve (fun e' g => groupObjects (pose ro hro) (w.scene n (w.write n e)) (fun c _ => e' (.intr c)) g.2
          (groupViews (w.scene n (w.write n e)).t g.2)) (w.scene n (w.write n e)).t.groups (w.write n e)) e) := by
    intro l
    induction l with
    | nil => intro e; rfl
    | cons n l ih =>
      intro e
      rw [Outcome.foldlM_cons]
      unfold refineStage
      rw [C62_all_groups hrot hro solve _ _ nCam (hr _ _), Outcome.bind_ok]
      exact ih _
  unfold calibrate calibrateBefore initIntrinsic calibrateObjects
  by_cases hf : fix = 0
  · simp only [if_pos hf, workflow, hf, ne_eq, not_true_eq_false, if_false, if_true,
      C62_all_cameras hrot hro solve _ _ nCam (hr _ _), C62_all_objects hrot hro solve _ _ nCam (hr _ _), Outcome.bind_ok,
      hstage, C62_all_groups_intrinsics hrot hro solve _ _ nCam (hr _ _)]
  · simp only [if_neg hf, workflow, hf, ne_eq, not_false_eq_true, if_true,
      C62_all_objects hrot hro solve _ _ nCam (hr _ _), Outcome.bind_ok, hstage, if_false]

end

/-! ### Which observations a group uses -/

private theorem flatMap_filter {α β : Type} (l : List α) (h : α → List β) (p : α → Bool)
    (hp : ∀ x ∈ l, p x = false → h x = []) : l.flatMap h = (l.filter p).flatMap h := by
  induction l with
  | nil => rfl
  | cons x l ih =>
    rw [List.flatMap_cons, ih fun y hy => hp y (by simp [hy]), List.filter_cons]
    split
    · rfl
    · rename_i hx
      rw [hp x (by simp) (by simpa using hx), List.nil_append]

private theorem pick {β : Type} (l : List Nat) (hl : l.Nodup) (i : Nat) (F : Nat → List β) :
    (l.flatMap fun j => if i = j then F j else []) = if i ∈ l then F i else [] := by
  induction l with
  | nil => rfl
  | cons j l ih =>
    rw [List.flatMap_cons, ih (List.nodup_cons.1 hl).2]
    by_cases h : i = j
    · subst h; simp [(List.nodup_cons.1 hl).1]
    · simp [h]

/-- C62: after the observations of the groups have been collected, the refinements of a group use exactly the
observations made by its cameras, frame by frame, each once. -/
theorem C62_views [Group G] (oo : List (ObjObs (ℝ × ℝ))) (frames : List Nat) (hfr : frames.Pairwise (· < ·))
    (gs : OMap Nat (CamGroup G)) (hC : Verif.Spec.Groups.Collection gs)
    (hfs : ∀ i g, OMap.get? gs i = some g → OMap.Sorted g.frames)
    (t0 t : GroupTables G) (ht0 : t0.groups = gs) (ht : mergeAllCameraGroupObs oo frames t0 = .ok t)
    (i : Nat) (g g' : CamGroup G) (hg : OMap.get? gs i = some g) (hg' : OMap.get? t.groups i = some g') :
    groupViews t g' = views oo frames (OMap.keys g.cameras) := by
  have hnd : frames.Nodup := hfr.imp fun h => Nat.ne_of_lt h
  have hid : ∀ e ∈ gs, e.2.id = e.1 := fun e he => hC.id e.1 e.2 ((OMap.get?_eq_some hC.sorted).2 he)
  obtain ⟨t', h1, h2⟩ := Verif.Lemmas.Groups.groupsDone oo frames hnd gs hC.sorted hfs (OMap.keys gs)
    (OMap.keys_nodup hC.sorted) fun i hi => hi
  unfold mergeAllCameraGroupObs at ht
  rw [Verif.Lemmas.Groups.initAllCameraGroupObs_eq oo frames _ (by rw [ht0]; exact hid), ht0, h1] at ht
  simp only [Outcome.ok.injEq] at ht
  subst ht
  have hi : i ∈ OMap.keys gs := OMap.mem_keys.2 ⟨g, hg⟩
  have hid' : g'.id = i := by
    have := h2.groups i
    rw [hg', hg] at this
    simp only [Option.map_some, hi, if_true, Option.some.injEq] at this
    rw [this]; exact hC.id i g hg
  have hsees : ∀ f, groupSees oo g.camIdx f =
      positions (fun o : ObjObs (ℝ × ℝ) => o.frame == f && decide (o.cam ∈ OMap.keys g.cameras)) oo := by
    intro f
    rw [Verif.Lemmas.Groups.groupSees_eq]
    congr 1
    funext o
    congr 1
    exact decide_eq_decide.2 ((hC.camIdx i g hg).mem_iff)
  have hinner : ∀ f, (((OMap.get? t'.frameGroups f).getD []).flatMap fun gi =>
      if g'.id = gi then ((OMap.get? t'.groupObs (gi, f)).getD []).map fun k => (f, k) else []) =
      if f ∈ frames then (groupSees oo g.camIdx f).map fun k => (f, k) else [] := by
    intro f
    rw [h2.fg, hid', pick _ ((OMap.keys_nodup hC.sorted).filter _)]
    simp only [List.mem_filter, hi, true_and, hg, Option.any_some, decide_eq_true_eq]
    by_cases hf : f ∈ frames
    · by_cases hs : groupSees oo g.camIdx f = []
      · simp [hs]
      · rw [if_pos ⟨hf, hs⟩, if_pos hf, (h2.obs i f _).2 ⟨hi, g, hg, hf, rfl, hs⟩]; rfl
    · rw [if_neg fun h => hf h.1, if_neg hf]
  unfold groupViews views
  simp only [hinner, ← hsees]
  rw [flatMap_filter (OMap.keys g'.frames) _ (fun f => decide (f ∈ frames ∧ groupSees oo g.camIdx f ≠ []))]
  · rw [flatMap_filter frames _ (fun f => decide (f ∈ frames ∧ groupSees oo g.camIdx f ≠ []))]
    · have : (OMap.keys g'.frames).filter (fun f => decide (f ∈ frames ∧ groupSees oo g.camIdx f ≠ [])) =
          frames.filter (fun f => decide (f ∈ frames ∧ groupSees oo g.camIdx f ≠ [])) := by
        refine OMap.sorted_keys_ext ((OMap.keys_sorted (h2.frames_sorted i g' hg')).filter _) ((hfr.imp fun h => decide_eq_true h).filter _) ?_
        intro f
        simp only [List.mem_filter, decide_eq_true_eq, h2.group_frames i g' g hg' hg hi f]
        constructor
        · rintro ⟨-, h⟩; exact ⟨h.1, h⟩
        · rintro ⟨-, h⟩; exact ⟨Or.inr h, h⟩
      rw [this]
      refine List.flatMap_congr fun f hf => ?_
      rw [if_pos (List.mem_filter.1 hf).1]
    · intro f hf h
      simp only [decide_eq_false_iff_not, not_and, not_not] at h
      rw [h hf]; rfl
  · intro f hf h
    simp only [decide_eq_false_iff_not, not_and, not_not] at h
    split
    · rename_i hf'; rw [h hf']; rfl
    · rfl

/-- C62: each observation of a frame by a camera of the group is used, once, and no other. -/
theorem C62_views_mem (oo : List (ObjObs (ℝ × ℝ))) (frames cams : List Nat) (hfr : frames.Nodup) :
    (views oo frames cams).Nodup ∧ ∀ f i, (f, i) ∈ views oo frames cams ↔
      f ∈ frames ∧ ∃ x, oo[i]? = some x ∧ x.frame = f ∧ x.cam ∈ cams := by
  constructor
  · unfold views
    rw [List.nodup_flatMap]
    constructor
    · intro f _
      refine List.Nodup.map (fun a b h => (Prod.mk.inj h).2) (List.Nodup.filter _ List.nodup_range)
    · refine hfr.imp ?_
      intro a b hab
      simp only [Function.onFun, List.disjoint_left, List.mem_map]
      rintro x ⟨i, -, rfl⟩ ⟨j, -, h⟩
      exact hab (Prod.mk.inj h).1.symm
  · intro f i
    unfold views
    simp only [List.mem_flatMap, List.mem_map, Prod.mk.injEq]
    constructor
    · rintro ⟨f', hf', i', hi', rfl, rfl⟩
      obtain ⟨x, hx, h⟩ := (Verif.Props.Store.positions_get _ _ _).1 hi'
      simp only [Bool.and_eq_true, beq_iff_eq, decide_eq_true_eq] at h
      exact ⟨hf', x, hx, h⟩
    · rintro ⟨hf, x, hx, h⟩
      exact ⟨f, hf, i, (Verif.Props.Store.positions_get _ _ _).2 ⟨x, hx, by simp [h]⟩, rfl, rfl⟩

/-- The two groups of the example of C20: the first uses the observations 0 and 2, the second the observation 1. -/
example : (match mergeAllCameraGroupObs
      ([⟨0, 0, 5, [0], [0], [], []⟩, ⟨0, 2, 5, [1], [0], [], []⟩, ⟨1, 1, 6, [2], [1], [], []⟩] : List (ObjObs (ℝ × ℝ)))
      [5, 6, 7] ({ groups := [(0, { id := 0, refCam := 0, cameras := [(0, ()), (1, ())], camIdx := [0, 1], poses := [(0, 1), (1, 1)] }),
        (1, { id := 1, refCam := 2, cameras := [(2, ())], camIdx := [2], poses := [(2, 1)] })] } : GroupTables (Equiv.Perm (Fin 3))) with
    | .ok t => t.groups.map fun g => groupViews t g.2
    | _ => []) = [[(5, 0), (6, 2)], [(5, 1)]] := by
  decide +kernel

/-! ### One error per observed corner -/

/-- C62: the joint problem has exactly one reprojection error per corner of the observations used. -/
theorem C62_count (pose : Block → Pose ℝ) (sc : Scene G) (I : Nat → Env → Camera.Intr ℝ) (g : CamGroup G)
    (vs : List (Nat × Nat)) (h : ∀ v ∈ vs, CornersReadable sc v.2) :
    (groupObjects pose sc I g vs).length =
      (vs.map fun v => ((sc.oo[v.2]?).map fun x => x.ids.length).getD 0).sum := by
  unfold groupObjects
  rw [List.length_flatMap]
  congr 1
  refine List.map_congr_left fun v hv => ?_
  obtain ⟨x, o, hx, ho, hr⟩ := h v hv
  simp only [hx, ho, Option.map_some, Option.getD_some]
  exact corners_length hr _

/-- C62: the intrinsic problem has exactly one reprojection error per corner of the valid observations. -/
theorem C62_count_intrinsic (pose : Block → Pose ℝ) (sc : Scene G) (c : Nat)
    (h : ∀ i ∈ sc.camBoards c, BoardReadable sc i) :
    (intrinsic pose sc c).length = ((sc.camBoards c).map fun i =>
      ((sc.obs[i]?).map fun bo => if bo.valid then bo.obs.ids.length else 0).getD 0).sum := by
  unfold intrinsic
  rw [List.length_flatMap]
  congr 1
  refine List.map_congr_left fun i hi => ?_
  obtain ⟨bo, hbo, hr⟩ := h i hi
  simp only [hbo, Option.map_some, Option.getD_some]
  split
  · rename_i hv; exact corners_length (hr hv).2 _
  · rfl

/-- The scene of C51: it is readable, its group uses its one observation, and the joint problem has the one error of
the corner (0, 1, 0) of the second board seen at (3, 4). -/
example (pose : Block → Pose ℝ) (I : Nat → Env → Camera.Intr ℝ) (g : CamGroup (Pose ℝ))
    (hg : OMap.get? Verif.Props.Refine.demo.t.groups 0 = some g) :
    groupViews Verif.Props.Refine.demo.t g = [(7, 0)] ∧ CornersReadable Verif.Props.Refine.demo 0 ∧
    PointsReadable Verif.Props.Refine.demo 0 ∧ BoardReadable Verif.Props.Refine.demo 0 ∧
    groupObjects pose Verif.Props.Refine.demo I g [(7, 0)] =
      [reprojection 0 (I 0) (fun e => 1 * pose (e (.objPose 0 7 0)) * pose (e (.boardPose 0 1))) ![0, 1, 0] (3, 4)] := by
  simp only [Verif.Props.Refine.demo, OMap.get?] at hg
  cases hg
  refine ⟨rfl, ⟨_, _, rfl, rfl, ?_⟩, ⟨_, _, rfl, rfl, ?_⟩, ⟨_, rfl, fun _ => ⟨by decide, ?_⟩⟩, rfl⟩
  all_goals
    refine ⟨by simp, ?_⟩
    intro id hid
    simp only [List.mem_singleton] at hid
    subst hid
    rfl

/-- That scene is readable, so `C62_workflow` applies to a run in which it never changes. -/
theorem demo_readable : SceneReadable Verif.Props.Refine.demo 1 := by
  have hb : BoardReadable Verif.Props.Refine.demo 0 := by
    refine ⟨_, rfl, fun _ => ⟨by decide, by simp, ?_⟩⟩
    intro id hid
    simp only [List.mem_singleton] at hid
    subst hid
    rfl
  constructor
  · intro c _ i hi
    simp only [Verif.Props.Refine.demo, List.mem_singleton] at hi
    subst hi
    exact hb
  · intro i x hx j hj
    match i with
    | 0 =>
      cases hx
      simp only [List.mem_singleton] at hj
      subst hj
      exact hb
    | i + 1 => simp [Verif.Props.Refine.demo] at hx
  · intro y hy v hv
    simp only [Verif.Props.Refine.demo, List.mem_singleton] at hy
    subst hy
    have hv' : v ∈ ([(7, 0)] : List (Nat × Nat)) := hv
    simp only [List.mem_singleton] at hv'
    subst hv'
    refine ⟨_, _, rfl, rfl, by simp, ?_⟩
    intro id hid
    simp only [List.mem_singleton] at hid
    subst hid
    rfl

end Verif.Props.Problem
