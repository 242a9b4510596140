import Verif.Spec.Units

/-! The stages of the workflow commute with a change of units. -/
namespace Verif.Lemmas.Units
open Verif Verif.Structure Verif.Objects Verif.Groups Verif.GroupPose Verif.NonOverlap Verif.Pipeline Verif.Spec.Units

variable {V W G H Pt Q P Path K A B C : Type}

/-! ### Outcomes -/

@[simp] theorem result_ok (f : A → B) (a : A) : result f (.ok a) = .ok (f a) := rfl
@[simp] theorem result_ub (f : A → B) : result f .ub = .ub := rfl
@[simp] theorem result_throw (f : A → B) : result f .throw = .throw := rfl
@[simp] theorem result_diverge (f : A → B) : result f .diverge = .diverge := rfl

theorem result_bind (f : A → B) (x : Outcome A) (g : B → Outcome C) : (result f x >>= g) = (x >>= fun a => g (f a)) := by
  cases x <;> rfl

theorem bind_result (f : B → C) (x : Outcome A) (g : A → Outcome B) : result f (x >>= g) = (x >>= fun a => result f (g a)) := by
  cases x <;> rfl

theorem bind_congr' {x : Outcome A} {f g : A → Outcome B} (h : ∀ a, f a = g a) : (x >>= f) = (x >>= g) := by
  cases x <;> simp [h]

theorem foldlM_result {σ τ α β : Type} {f : σ → α → Outcome σ} {f' : τ → β → Outcome τ} (h : σ → τ) (e : α → β)
    (hf : ∀ s x, f' (h s) (e x) = result h (f s x)) : ∀ (l : List α) (s : σ),
    Outcome.foldlM f' (h s) (l.map e) = result h (Outcome.foldlM f s l)
  | [], s => rfl
  | x :: l, s => by
    rw [List.map_cons, Outcome.foldlM_cons, Outcome.foldlM_cons, hf, result_bind, bind_result]
    exact bind_congr' fun t => foldlM_result h e hf l t

theorem foldlM_result' {σ τ α : Type} {f : σ → α → Outcome σ} {f' : τ → α → Outcome τ} (h : σ → τ)
    (hf : ∀ s x, f' (h s) x = result h (f s x)) (l : List α) (s : σ) :
    Outcome.foldlM f' (h s) l = result h (Outcome.foldlM f s l) := by
  have := foldlM_result h id hf l s
  rwa [List.map_id] at this

theorem foldl_result {σ τ α β : Type} {f : σ → α → σ} {f' : τ → β → τ} (h : σ → τ) (e : α → β)
    (hf : ∀ s x, f' (h s) (e x) = h (f s x)) : ∀ (l : List α) (s : σ), (l.map e).foldl f' (h s) = h (l.foldl f s)
  | [], s => rfl
  | x :: l, s => by
    rw [List.map_cons, List.foldl_cons, List.foldl_cons, hf]
    exact foldl_result h e hf l _

theorem idx_map (f : A → B) (l : List A) (i : Nat) : Outcome.idx (l.map f) i = result f (Outcome.idx l i) := by
  unfold Outcome.idx
  rw [List.getElem?_map]
  cases l[i]? <;> rfl

theorem deref_map (f : A → B) (x : Option A) : Outcome.deref (x.map f) = result f (Outcome.deref x) := by cases x <;> rfl

/-! ### Tables -/

section
variable [DecidableEq K] [Key K]

theorem get_values (f : A → B) : ∀ (m : OMap K A) (k : K), OMap.get? (values f m) k = (OMap.get? m k).map f
  | [], _ => rfl
  | (a, x) :: m, k => by
    show OMap.get? ((a, f x) :: values f m) k = _
    by_cases h : k = a
    · simp [OMap.get?, h]
    · simp only [OMap.get?, h, if_false]
      exact get_values f m k

theorem set_values (f : A → B) : ∀ (m : OMap K A) (k : K) (x : A), OMap.set (values f m) k (f x) = values f (OMap.set m k x)
  | [], _, _ => rfl
  | (a, y) :: m, k, x => by
    show OMap.set ((a, f y) :: values f m) k (f x) = _
    unfold OMap.set
    split_ifs
    · rfl
    · rfl
    · show _ = (a, f y) :: values f (OMap.set m k x)
      rw [set_values f m k x]

theorem keys_values (f : A → B) (m : OMap K A) : OMap.keys (values f m) = OMap.keys m := by
  simp [OMap.keys, values, Function.comp_def]

end

/-! ### Pairs, averages, chains -/

variable [Group G] [Group H] (φ : G →* H)

theorem pairsOfView_map {E E' : Type} (ε : E → E') {f : E → E → Option ((Nat × Nat) × G)} {f' : E' → E' → Option ((Nat × Nat) × H)}
    (hf : ∀ x y, f' (ε x) (ε y) = (f x y).map fun e => (e.1, φ e.2)) (v : List E) :
    pairsOfView f' (v.map ε) = (pairsOfView f v).map fun e => (e.1, φ e.2) := by
  unfold pairsOfView
  rw [List.flatMap_map, List.map_flatMap]
  congr 1
  funext x
  rw [List.filterMap_map, List.map_filterMap]
  congr 1
  funext y
  exact hf x y

theorem push_map (t : PairTable G) (e : (Nat × Nat) × G) :
    push (values (List.map φ) t) (e.1, φ e.2) = values (List.map φ) (push t e) := by
  unfold push
  rw [← set_values, get_values]
  congr 1
  cases OMap.get? t e.1 <;> simp

theorem pairTable_map {E E' : Type} (ε : E → E') {f : E → E → Option ((Nat × Nat) × G)} {f' : E' → E' → Option ((Nat × Nat) × H)}
    (hf : ∀ x y, f' (ε x) (ε y) = (f x y).map fun e => (e.1, φ e.2)) (vs : List (List E)) :
    pairTable f' (vs.map (List.map ε)) = values (List.map φ) (pairTable f vs) := by
  unfold pairTable
  have e : (vs.map (List.map ε)).flatMap (pairsOfView f') = (vs.flatMap (pairsOfView f)).map fun e => (e.1, φ e.2) := by
    rw [List.flatMap_map, List.map_flatMap]
    congr 1
    funext v
    exact pairsOfView_map φ ε hf v
  rw [e]
  exact foldl_result (values (List.map φ)) (fun e : (Nat × Nat) × G => (e.1, φ e.2)) (push_map φ) _ []

theorem edges_map (t : PairTable G) : tableEdges (values (List.map φ) t) = tableEdges t := by
  simp [tableEdges, values, Function.comp_def]

theorem inter_map {avg : List G → G} {avg' : List H → H} (ha : ∀ zs, avg' (zs.map φ) = φ (avg zs)) (t : PairTable G) :
    interTransform avg' (values (List.map φ) t) = values φ (interTransform avg t) := by
  simp [interTransform, values, Function.comp_def, ha]

theorem chainStep_map {step : G → G} {step' : H → H} (hs : ∀ x, step' (φ x) = φ (step x)) (T : OMap (Nat × Nat) G) (t : G)
    (e : Nat × Nat) : chainStep step' (values φ T) (φ t) e = result φ (chainStep step T t e) := by
  unfold chainStep
  rw [get_values]
  cases OMap.get? T e with
  | none => rfl
  | some x => simp [hs]

theorem chain_map {step : G → G} {step' : H → H} (hs : ∀ x, step' (φ x) = φ (step x)) (T : OMap (Nat × Nat) G) (p : List Nat) :
    chain step' (values φ T) p = result φ (chain step T p) := by
  unfold chain
  rw [← foldlM_result' φ (chainStep_map φ hs T), map_one]

theorem placement_map {step : G → G} {step' : H → H} (hs : ∀ x, step' (φ x) = φ (step x)) (T : OMap (Nat × Nat) G)
    (g : Graph Nat) (choose : Graph.DState → Nat) (r b : Nat) :
    placement step' (values φ T) g choose r b = result φ (placement step T g choose r b) := by
  unfold placement
  rw [bind_result]
  exact bind_congr' fun p => chain_map φ hs T p

/-! ### Objects -/

section Objects
variable [SMul G Pt] [SMul H Q] (ψ : Pt → Q) (hψ : ∀ (g : G) (p : Pt), ψ (g • p) = φ g • ψ p)

/-- The object under construction and the point counter. -/
def built (st : Object G Pt × Nat) : Object H Q × Nat := (object φ ψ st.1, st.2)

theorem insertPt_map (b : Nat) (st : Object G Pt × Nat) (e : Pt × Nat) :
    insertPt b (built φ ψ st) (ψ e.1, e.2) = built φ ψ (insertPt b st e) := by
  simp [insertPt, built, object]

include hψ in
theorem insertBoard_map (b : Nat) (pose : G) (pts : List Pt) (st : Object G Pt × Nat) :
    insertBoard b (φ pose) (pts.map ψ) (built φ ψ st) = built φ ψ (insertBoard b pose pts st) := by
  unfold insertBoard
  have e : ((pts.map ψ).map (φ pose • ·)).zipIdx = (pts.map (pose • ·)).zipIdx.map fun e => (ψ e.1, e.2) := by
    rw [List.map_map, show ((fun x => φ pose • x) ∘ ψ) = ψ ∘ (pose • ·) from by funext p; simp [hψ], ← List.map_map,
      List.zipIdx_map]
    rfl
  rw [e, ← foldl_result (built φ ψ) (fun e : Pt × Nat => (ψ e.1, e.2)) (insertPt_map φ ψ b)]
  congr 1
  simp [built, object, ← set_values]

include hψ in
theorem placeBoard_map (bpts : List (List Pt)) (T : OMap (Nat × Nat) G) (g : Graph Nat)
    (choose : Nat → Nat → Graph.DState → Nat) (r : Nat) (st : Object G Pt × Nat) (b : Nat) :
    placeBoard (bpts.map (List.map ψ)) (values φ T) g choose r (built φ ψ st) b =
      result (built φ ψ) (placeBoard bpts T g choose r st b) := by
  unfold placeBoard
  rw [idx_map, result_bind, bind_result]
  refine bind_congr' fun pts => ?_
  rw [placement_map φ (step := fun x => x⁻¹) (by simp), result_bind, bind_result]
  refine bind_congr' fun pose => ?_
  simp [insertBoard_map φ ψ hψ]

include hψ in
theorem initObject_map (bpts : List (List Pt)) (T : OMap (Nat × Nat) G) (g : Graph Nat)
    (choose : Nat → Nat → Graph.DState → Nat) (i : Nat) (c : List Nat) :
    initObject (bpts.map (List.map ψ)) (values φ T) g choose i c = result (object φ ψ) (initObject bpts T g choose i c) := by
  unfold initObject
  rw [bind_result]
  refine bind_congr' fun r => ?_
  rw [idx_map, result_bind, bind_result]
  refine bind_congr' fun _ => ?_
  rw [show (({ id := i, refBoard := r, nbBoards := c.length }, 0) : Object H Q × Nat) =
    built φ ψ ({ id := i, refBoard := r, nbBoards := c.length }, 0) from rfl,
    foldlM_result' (built φ ψ) (placeBoard_map φ ψ hψ bpts T g choose r), result_bind, bind_result]
  exact bind_congr' fun st => rfl

include hψ in
theorem initObjects_map (bpts : List (List Pt)) (T : OMap (Nat × Nat) G) (g : Graph Nat)
    (choose : Nat → Nat → Graph.DState → Nat) :
    init3DObjects (bpts.map (List.map ψ)) (values φ T) g choose = result (values (object φ ψ)) (init3DObjects bpts T g choose) := by
  unfold init3DObjects
  refine foldlM_result' (values (object φ ψ)) (fun m e => ?_) _ []
  unfold initObjectStep
  rw [initObject_map φ ψ hψ, result_bind, bind_result]
  refine bind_congr' fun o => ?_
  simp [set_values]

theorem boardViews_map (s : Store P Path) (pose : Nat → G) : boardViews s (fun i => φ (pose i)) =
    (boardViews s pose).map (List.map fun x => ⟨x.board, φ x.pose⟩) := by
  unfold boardViews
  rw [List.map_map]
  congr 1
  funext e
  simp only [Function.comp_apply]
  split_ifs
  · rw [List.map_filterMap]
    congr 1
    funext i
    cases s.obs[i]? <;> rfl
  · rfl

theorem boardPairs_map (s : Store P Path) (pose : Nat → G) :
    boardPairs s (fun i => φ (pose i)) = values (List.map φ) (boardPairs s pose) := by
  unfold boardPairs
  rw [boardViews_map]
  refine pairTable_map φ _ (fun x y => ?_) _
  unfold boardPair
  dsimp only
  split_ifs <;> simp

include hψ in
theorem buildObjects_map (s : Store P Path) (pose : Nat → G) {avg : List G → G} {avg' : List H → H}
    (ha : ∀ zs, avg' (zs.map φ) = φ (avg zs)) (bpts : List (List Pt)) (choose : Nat → Nat → Graph.DState → Nat) :
    buildObjects s (fun i => φ (pose i)) avg' (bpts.map (List.map ψ)) choose =
      result (values (object φ ψ)) (buildObjects s pose avg bpts choose) := by
  unfold buildObjects
  dsimp only
  rw [boardPairs_map, inter_map φ ha, ← initObjects_map φ ψ hψ]
  congr 1
  unfold boardGraph
  rw [edges_map]

/-! ### Points after a refinement -/

theorem updatePt_map (b : Nat) (o : Object G Pt) (e : Pt × Nat) :
    updatePt b (object φ ψ o) (ψ e.1, e.2) = result (object φ ψ) (updatePt b o e) := by
  unfold updatePt
  simp only [object, List.length_map]
  split_ifs
  · simp [object, List.map_set]
  · rfl

include hψ in
theorem updateBoard_map (bpts : List (List Pt)) (o : Object G Pt) (e : Nat × Unit) :
    updateBoard (bpts.map (List.map ψ)) (object φ ψ o) e = result (object φ ψ) (updateBoard bpts o e) := by
  unfold updateBoard
  rw [idx_map, result_bind, bind_result]
  refine bind_congr' fun pts => ?_
  have h1 : (OMap.get? (object φ ψ o).poses e.1).getD 1 = φ ((OMap.get? o.poses e.1).getD 1) := by
    show (OMap.get? (values φ o.poses) e.1).getD 1 = _
    rw [get_values]
    cases OMap.get? o.poses e.1 <;> simp
  rw [h1]
  have h2 : ((pts.map ψ).map (φ ((OMap.get? o.poses e.1).getD 1) • ·)).zipIdx =
      (pts.map ((OMap.get? o.poses e.1).getD 1 • ·)).zipIdx.map fun e => (ψ e.1, e.2) := by
    generalize (OMap.get? o.poses e.1).getD 1 = x
    rw [List.map_map, show ((fun y => φ x • y) ∘ ψ) = ψ ∘ (x • ·) from by funext p; simp [hψ], ← List.map_map,
      List.zipIdx_map]
    rfl
  dsimp only
  rw [h2]
  exact foldlM_result (object φ ψ) (fun e : Pt × Nat => (ψ e.1, e.2)) (updatePt_map φ ψ e.1) _ o

include hψ in
theorem updateObjectPts_map (bpts : List (List Pt)) (o : Object G Pt) :
    updateObjectPts (bpts.map (List.map ψ)) (object φ ψ o) = result (object φ ψ) (updateObjectPts bpts o) :=
  foldlM_result' (object φ ψ) (updateBoard_map φ ψ hψ bpts) _ o

include hψ in
theorem refineObjects_map (bpts : List (List Pt)) {f : Nat → Nat → G} {f' : Nat → Nat → H} (hf : ∀ i b, f' i b = φ (f i b))
    (objs : OMap Nat (Object G Pt)) :
    refineObjects (bpts.map (List.map ψ)) f' (values (object φ ψ) objs) =
      result (values (object φ ψ)) (refineObjects bpts f objs) := by
  unfold refineObjects
  refine foldlM_result (values (object φ ψ)) (fun e : Nat × Object G Pt => (e.1, object φ ψ e.2)) (fun m e => ?_) objs []
  unfold refineObjectStep
  have h : refineObject (bpts.map (List.map ψ)) (f' e.1) (object φ ψ e.2) = result (object φ ψ) (refineObject bpts (f e.1) e.2) := by
    unfold refineObject
    rw [← updateObjectPts_map φ ψ hψ]
    congr 1
    simp only [object, values, List.map_map]
    congr 1
    apply List.map_congr_left
    intro a _
    show (a.1, if a.1 = e.2.refBoard then φ a.2 else f' e.1 a.1) = (a.1, φ (if a.1 = e.2.refBoard then a.2 else f e.1 a.1))
    by_cases ha : a.1 = e.2.refBoard
    · rw [if_pos ha, if_pos ha]
    · rw [if_neg ha, if_neg ha, hf]
  rw [h, result_bind, bind_result]
  refine bind_congr' fun o => ?_
  simp [set_values]

/-! ### Observations of objects -/

theorem insertBoardObs_map (o : Object G Pt) (oo : ObjObs P) (i : Nat) (bo : BoardObs P) :
    insertBoardObs (object φ ψ o) oo i bo = insertBoardObs o oo i bo := rfl

theorem gatherStep_map (s : Store P Path) (o : Object G Pt) (oo : ObjObs P) (i : Nat) :
    gatherStep s (object φ ψ o) oo i = gatherStep s o oo i := rfl

theorem initObs_map (s : Store P Path) (o : Object G Pt) (acc : List (ObjObs P)) :
    init3DObjectObs s (object φ ψ o) acc = init3DObjectObs s o acc := rfl

theorem initAllObs_map (s : Store P Path) (objs : OMap Nat (Object G Pt)) (acc : List (ObjObs P)) :
    initAllObjectObs s (values (object φ ψ) objs) acc = initAllObjectObs s objs acc := by
  have h := foldlM_result (f := fun acc (e : Nat × Object G Pt) => init3DObjectObs s e.2 acc)
    (f' := fun acc (e : Nat × Object H Q) => init3DObjectObs s e.2 acc) id
    (fun e : Nat × Object G Pt => (e.1, object φ ψ e.2)) (fun acc e => by
      show init3DObjectObs s (object φ ψ e.2) acc = _
      rw [initObs_map]
      cases init3DObjectObs s e.2 acc <;> rfl) objs acc
  refine Eq.trans h ?_
  unfold initAllObjectObs
  generalize Outcome.foldlM _ acc objs = x
  cases x <;> rfl

theorem mergeAllObs_map (s : Store P Path) (objs : OMap Nat (Object G Pt)) :
    mergeAllObjectObs s (values (object φ ψ) objs) = mergeAllObjectObs s objs := by
  have h := foldlM_result (f := fun acc (_ : Nat × Object G Pt) => initAllObjectObs s objs acc)
    (f' := fun acc (_ : Nat × Object H Q) => initAllObjectObs s (values (object φ ψ) objs) acc) id
    (fun e : Nat × Object G Pt => (e.1, object φ ψ e.2)) (fun acc e => by
      show initAllObjectObs s (values (object φ ψ) objs) acc = _
      rw [initAllObs_map]
      cases initAllObjectObs s objs acc <;> rfl) objs []
  refine Eq.trans h ?_
  unfold mergeAllObjectObs
  generalize Outcome.foldlM _ [] objs = x
  cases x <;> rfl

/-! ### Merging objects -/

theorem mergePlace_map (objs : OMap Nat (Object G Pt)) (T : OMap (Nat × Nat) G) (g : Graph Nat)
    (choose : Nat → Nat → Graph.DState → Nat) (r : Nat) (st : OMap Nat G × Nat) (j : Nat) :
    mergePlace (values (object φ ψ) objs) (values φ T) g choose r (values φ st.1, st.2) j =
      result (fun st => (values φ st.1, st.2)) (mergePlace objs T g choose r st j) := by
  unfold mergePlace
  rw [get_values, deref_map, result_bind, bind_result]
  refine bind_congr' fun o => ?_
  rw [placement_map φ (step := fun x => x⁻¹) (by simp), result_bind, bind_result]
  refine bind_congr' fun t => ?_
  simp [set_values, object]

include hψ in
theorem mergeBoard_map (bpts : List (List Pt)) (o : Object G Pt) (x : G) (st : Object G Pt × Nat) (e : Nat × Unit) :
    mergeBoard (bpts.map (List.map ψ)) (object φ ψ o) (φ x) (built φ ψ st) e = result (built φ ψ) (mergeBoard bpts o x st e) := by
  unfold mergeBoard
  rw [idx_map, result_bind, bind_result]
  refine bind_congr' fun pts => ?_
  have h1 : (OMap.get? (object φ ψ o).poses e.1).getD 1 = φ ((OMap.get? o.poses e.1).getD 1) := by
    show (OMap.get? (values φ o.poses) e.1).getD 1 = _
    rw [get_values]
    cases OMap.get? o.poses e.1 <;> simp
  rw [h1, ← map_mul, insertBoard_map φ ψ hψ]
  rfl

include hψ in
theorem mergeInto_map (bpts : List (List Pt)) (c : List Nat) (toRef : OMap Nat G) (st : Object G Pt × Nat) (e : Nat × Object G Pt) :
    mergeInto (bpts.map (List.map ψ)) c (values φ toRef) (built φ ψ st) (e.1, object φ ψ e.2) =
      result (built φ ψ) (mergeInto bpts c toRef st e) := by
  unfold mergeInto
  show (if e.2.id ∈ c then match OMap.get? (values φ toRef) e.2.id with
    | some t => Outcome.foldlM (mergeBoard (bpts.map (List.map ψ)) (object φ ψ e.2) t) (built φ ψ st) e.2.boards
    | none => .throw else _) = _
  split_ifs
  · rw [get_values]
    cases OMap.get? toRef e.2.id with
    | none => rfl
    | some t => exact foldlM_result' (built φ ψ) (mergeBoard_map φ ψ hψ bpts e.2 t) _ st
  · rfl

include hψ in
theorem mergeObjects_map (bpts : List (List Pt)) (objs : OMap Nat (Object G Pt)) (T : OMap (Nat × Nat) G) (g : Graph Nat)
    (choose : Nat → Nat → Graph.DState → Nat) :
    mergeObjects (bpts.map (List.map ψ)) (values (object φ ψ) objs) (values φ T) g choose =
      result (values (object φ ψ)) (mergeObjects bpts objs T g choose) := by
  unfold mergeObjects
  refine foldlM_result' (values (object φ ψ)) (fun m e => ?_) _ []
  unfold mergeObjectStep
  have h : mergeObject (bpts.map (List.map ψ)) (values (object φ ψ) objs) (values φ T) g choose e.2 e.1 =
      result (object φ ψ) (mergeObject bpts objs T g choose e.2 e.1) := by
    unfold mergeObject
    rw [bind_result]
    refine bind_congr' fun r => ?_
    rw [get_values, deref_map, result_bind, bind_result]
    refine bind_congr' fun ro => ?_
    rw [show (([], 0) : OMap Nat H × Nat) = (fun st : OMap Nat G × Nat => (values φ st.1, st.2)) ([], 0) from rfl,
      foldlM_result' (fun st : OMap Nat G × Nat => (values φ st.1, st.2)) (mergePlace_map φ ψ objs T g choose r), result_bind,
      bind_result]
    refine bind_congr' fun toRef => ?_
    rw [idx_map, result_bind, bind_result]
    refine bind_congr' fun _ => ?_
    have := foldlM_result (built φ ψ) (fun e : Nat × Object G Pt => (e.1, object φ ψ e.2))
      (mergeInto_map φ ψ hψ bpts e.1 toRef.1) objs ({ id := e.2, refBoard := ro.refBoard, nbBoards := toRef.2 }, 0)
    rw [bind_result]
    refine Eq.trans (congrArg (fun x : Outcome (Object H Q × Nat) => x >>= fun st => pure st.1) this) ?_
    rw [result_bind]
    exact bind_congr' fun st => rfl
  rw [h, result_bind, bind_result]
  refine bind_congr' fun o => ?_
  simp [set_values]

end Objects

/-! ### Camera groups -/

theorem cameraPairs_map (s : Store P Path) (oo : List (ObjObs P)) (pose : Nat → G) :
    cameraPairs s oo (fun i => φ (pose i)) = values (List.map φ) (cameraPairs s oo pose) := by
  unfold cameraPairs
  have e : cameraViews s oo (fun i => φ (pose i)) =
      (cameraViews s oo pose).map (List.map fun x => (⟨x.cam, x.obj, φ x.pose⟩ : SeenObject H)) := by
    unfold cameraViews
    rw [List.map_map]
    congr 1
    funext e
    simp only [Function.comp_apply]
    split_ifs
    · rw [List.map_filterMap]
      congr 1
      funext i
      cases oo[i]? <;> rfl
    · rfl
  rw [e]
  refine pairTable_map φ _ (fun x y => ?_) _
  unfold cameraPair
  dsimp only
  split_ifs <;> simp

theorem insertCamera_map (g : CamGroup G) (c : Nat) (pose : G) :
    insertCamera (group φ g) c (φ pose) = group φ (insertCamera g c pose) := by
  simp [insertCamera, group, set_values]

theorem initCameraGroup_map (nCam : Nat) (T : OMap (Nat × Nat) G) (g : Graph Nat) (choose : Nat → Nat → Graph.DState → Nat) :
    initCameraGroup nCam (values φ T) g choose = result (values (group φ)) (initCameraGroup nCam T g choose) := by
  unfold initCameraGroup
  refine foldlM_result' (values (group φ)) (fun m e => ?_) _ []
  unfold initGroupStep
  have h : initGroup nCam (values φ T) g choose e.2 e.1 = result (group φ) (initGroup nCam T g choose e.2 e.1) := by
    unfold initGroup
    rw [bind_result]
    refine bind_congr' fun r => ?_
    refine foldlM_result' (group φ) (fun st c => ?_) _ { id := e.2, refCam := r }
    unfold placeCamera
    rw [bind_result]
    refine bind_congr' fun _ => ?_
    rw [placement_map φ (step := id) (by simp), result_bind, bind_result]
    refine bind_congr' fun pose => ?_
    simp [insertCamera_map]
  rw [h, result_bind, bind_result]
  refine bind_congr' fun o => ?_
  simp [set_values]

theorem buildGroups_map (s : Store P Path) (oo : List (ObjObs P)) (pose : Nat → G) {avg : List G → G} {avg' : List H → H}
    (ha : ∀ zs, avg' (zs.map φ) = φ (avg zs)) (choose : Nat → Nat → Graph.DState → Nat) :
    buildGroups s oo (fun i => φ (pose i)) avg' choose = result (values (group φ)) (buildGroups s oo pose avg choose) := by
  unfold buildGroups
  dsimp only
  rw [cameraPairs_map, inter_map φ ha, ← initCameraGroup_map]
  congr 1
  unfold cameraGraph
  rw [edges_map]

theorem groupFrames_map (oo : List (ObjObs P)) (cams : List Nat) (gi : Nat) (frames : List Nat)
    (st : CamGroup G × OMap (Nat × Nat) (List Nat) × OMap Nat (List Nat)) :
    frames.foldl (groupFrameStep oo cams gi) (group φ st.1, st.2) =
      (group φ (frames.foldl (groupFrameStep oo cams gi) st).1, (frames.foldl (groupFrameStep oo cams gi) st).2) := by
  have := foldl_result (f := groupFrameStep (G := G) oo cams gi) (f' := groupFrameStep (G := H) oo cams gi)
    (fun st => (group φ st.1, st.2)) id (fun st f => by
      unfold groupFrameStep
      dsimp only [id]
      split_ifs <;> rfl) frames st
  rwa [List.map_id] at this

theorem initGroupObs_map (oo : List (ObjObs P)) (frames : List Nat) (t : GroupTables G) (gi : Nat) :
    initCameraGroupObs oo frames (tables φ t) gi = result (tables φ) (initCameraGroupObs oo frames t gi) := by
  unfold initCameraGroupObs
  show (Outcome.deref (OMap.get? (values (group φ) t.groups) gi) >>= _) = _
  rw [get_values, deref_map, result_bind, bind_result]
  refine bind_congr' fun g => ?_
  have := groupFrames_map φ oo g.camIdx gi frames (g, t.groupObs, t.frameGroups)
  dsimp only at this ⊢
  have e : frames.foldl (groupFrameStep oo (group φ g).camIdx gi) (group φ g, (tables φ t).groupObs, (tables φ t).frameGroups) =
      frames.foldl (groupFrameStep oo g.camIdx gi) (group φ g, t.groupObs, t.frameGroups) := rfl
  rw [e, this]
  simp [tables, set_values]

theorem initAllGroupObs_map (oo : List (ObjObs P)) (frames : List Nat) (t : GroupTables G) :
    initAllCameraGroupObs oo frames (tables φ t) = result (tables φ) (initAllCameraGroupObs oo frames t) :=
  foldlM_result (f := fun t (e : Nat × CamGroup G) => initCameraGroupObs oo frames t e.2.id)
    (f' := fun t (e : Nat × CamGroup H) => initCameraGroupObs oo frames t e.2.id) (tables φ)
    (fun e : Nat × CamGroup G => (e.1, group φ e.2)) (fun t e => initGroupObs_map φ oo frames t e.2.id) t.groups t

theorem mergeAllGroupObs_map (oo : List (ObjObs P)) (frames : List Nat) (t : GroupTables G) :
    mergeAllCameraGroupObs oo frames (tables φ t) = result (tables φ) (mergeAllCameraGroupObs oo frames t) :=
  initAllGroupObs_map φ oo frames { t with groupObs := [], frameGroups := [] }

/-! ### Objects in groups -/

section Poses
variable {toVec : G → V} {ofVec : V → G} {avg : List V → V} {toVec' : H → W} {ofVec' : W → H} {avg' : List W → W} (ν : V → W)
  (hto : ∀ g, toVec' (φ g) = ν (toVec g)) (hof : ∀ v, ofVec' (ν v) = φ (ofVec v)) (hav : ∀ zs, avg' (zs.map ν) = ν (avg zs))

/-- An entry of a group observation. -/
def entry (ν : V → W) (e : Entry V) : Entry W := ⟨e.cam, e.obj, ν e.inGroup⟩

include hav in
omit [Group G] [Group H] in
theorem computeObjects_map (ref : Nat) (m : OMap Nat V) (es : List (Entry V)) :
    computeObjectsPose avg' ref (values ν m) (es.map (entry ν)) =
      (values ν (computeObjectsPose avg ref m es).1, (computeObjectsPose avg ref m es).2.map (entry ν)) := by
  unfold computeObjectsPose
  have e0 : (es.map (entry ν)).map (·.obj) = es.map (·.obj) := by rw [List.map_map]; rfl
  rw [e0]
  have := foldl_result (f := objectStep avg ref) (f' := objectStep avg' ref)
    (fun st : OMap Nat V × List (Entry V) => (values ν st.1, st.2.map (entry ν))) id (fun st e => by
      have hr : ∀ (js : List Nat) (acc : Option V), js.foldl (refStep ref (st.2.map (entry ν))) (acc.map ν) =
          (js.foldl (refStep ref st.2) acc).map ν := by
        intro js
        induction js with
        | nil => intro acc; rfl
        | cons j js ih =>
          intro acc
          rw [List.foldl_cons, List.foldl_cons, ← ih]
          congr 1
          unfold refStep
          rw [List.getElem?_map]
          cases st.2[j]? with
          | none => rfl
          | some e =>
            simp only [Option.map_some, entry]
            split_ifs <;> rfl
      have hp : objectPose avg' ref (st.2.map (entry ν)) e.2 = ν (objectPose avg ref st.2 e.2) := by
        unfold objectPose
        have := hr e.2 none
        simp only [Option.map_none] at this
        rw [this]
        cases e.2.foldl (refStep ref st.2) none with
        | some v => rfl
        | none =>
          simp only [Option.map_none]
          rw [← hav, List.map_filterMap]
          congr 2
          funext j
          rw [List.getElem?_map]
          cases st.2[j]? <;> rfl
      have hu : ∀ (js : List Nat) (es : List (Entry V)) (v : V),
          updateEntries (es.map (entry ν)) (ν v) js = (updateEntries es v js).map (entry ν) := by
        intro js
        induction js with
        | nil => intro es v; rfl
        | cons j js ih =>
          intro es v
          have : (es.map (entry ν)).modify j (fun e => { e with inGroup := ν v }) =
              (es.modify j fun e => { e with inGroup := v }).map (entry ν) := by
            apply List.ext_getElem?
            intro i
            rw [List.getElem?_modify, List.getElem?_map, List.getElem?_map, List.getElem?_modify]
            cases es[i]? with
            | none => rfl
            | some x =>
              simp only [Option.map_some]
              split_ifs <;> rfl
          show updateEntries ((es.map (entry ν)).modify j _) (ν v) js = _
          rw [this, ih]
          rfl
      unfold objectStep
      dsimp only [id]
      rw [hp, hu, set_values]) (obsGroups (es.map (·.obj))) (m, es)
  rw [List.map_id] at this
  exact this

include hto hav in
theorem objectPoses_map (t : GroupTables G) (oo : List (ObjObs P)) (pose : Nat → G) :
    objectPoses toVec' avg' (tables φ t) oo (fun i => φ (pose i)) = values (values ν) (objectPoses toVec avg t oo pose) := by
  unfold objectPoses values
  rw [List.map_map]
  apply List.map_congr_left
  intro e _
  simp only [Function.comp_apply]
  congr 1
  show (match OMap.get? (values (group φ) t.groups) e.1.1 with
    | some g => (computeObjectsPose avg' g.refCam [] (entries toVec' g oo (fun i => φ (pose i)) e.2)).1
    | none => []) = _
  rw [get_values]
  cases OMap.get? t.groups e.1.1 with
  | none => rfl
  | some g =>
    simp only [Option.map_some]
    have he : entries toVec' (group φ g) oo (fun i => φ (pose i)) e.2 = (entries toVec g oo pose e.2).map (entry ν) := by
      unfold entries
      rw [List.map_filterMap]
      congr 1
      funext i
      cases oo[i]? with
      | none => rfl
      | some o =>
        simp only [Option.map_some, entry]
        congr 2
        unfold poseInGroup
        rw [← hto, map_mul, map_inv]
        congr 3
        show (OMap.get? (values φ g.poses) o.cam).getD 1 = _
        rw [get_values]
        cases OMap.get? g.poses o.cam <;> simp
    rw [he]
    exact congrArg Prod.fst (computeObjects_map ν hav g.refCam [] (entries toVec g oo pose e.2))

include hof in
theorem pose_map (op : OMap (Nat × Nat) (OMap Nat V)) (q : Nat × Nat) (o : Nat) :
    (((OMap.get? (values (values ν) op) q).bind fun m => OMap.get? m o).map ofVec').getD 1 =
      φ ((((OMap.get? op q).bind fun m => OMap.get? m o).map ofVec).getD 1) := by
  rw [get_values]
  cases OMap.get? op q with
  | none => simp
  | some m =>
    simp only [Option.map_some, Option.bind_some, get_values]
    cases OMap.get? m o <;> simp [hof]

include hof in
theorem objectPairs_map (op : OMap (Nat × Nat) (OMap Nat V)) (t : GroupTables G) (oo : List (ObjObs P)) :
    objectPairs ofVec' (values (values ν) op) (tables φ t) oo = values (List.map φ) (objectPairs ofVec op t oo) := by
  unfold objectPairs
  have e : objectViews ofVec' (values (values ν) op) (tables φ t) oo =
      (objectViews ofVec op t oo).map (List.map fun x => (x.1, φ x.2)) := by
    unfold objectViews
    rw [List.map_map]
    apply List.map_congr_left
    intro e _
    simp only [Function.comp_apply]
    split_ifs
    · rw [List.map_map]
      apply List.map_congr_left
      intro o _
      simp only [Function.comp_apply]
      rw [pose_map φ ν hof]
    · rfl
  rw [e]
  refine pairTable_map φ _ (fun x y => ?_) _
  unfold objectPair
  dsimp only
  split_ifs <;> simp

include hto hof hav in
theorem merge3DObjects_map [SMul G Pt] [SMul H Q] (ψ : Pt → Q) (hψ : ∀ (g : G) (p : Pt), ψ (g • p) = φ g • ψ p)
    {avgG : List G → G} {avgH : List H → H} (ha : ∀ zs, avgH (zs.map φ) = φ (avgG zs)) (choose : Nat → Nat → Graph.DState → Nat)
    (bpts : List (List Pt)) (objs : OMap Nat (Object G Pt)) (t : GroupTables G) (oo : List (ObjObs P)) (pose : Nat → G) :
    merge3DObjects toVec' ofVec' avg' avgH choose (bpts.map (List.map ψ)) (values (object φ ψ) objs) (tables φ t) oo
      (fun i => φ (pose i)) = result (values (object φ ψ)) (merge3DObjects toVec ofVec avg avgG choose bpts objs t oo pose) := by
  unfold merge3DObjects
  dsimp only
  rw [objectPoses_map φ ν hto hav, objectPairs_map φ ν hof, inter_map φ ha, ← mergeObjects_map φ ψ hψ]
  congr 1
  unfold objectGraph
  rw [edges_map]
  congr 2
  unfold objectVertices values
  rw [List.filter_map, List.map_map]
  rfl

/-! ### Groups without common views -/

omit [Group G] [Group H] in
theorem zeroCounts_map (φ : G → H) (ψ : Pt → Q) (objs : OMap Nat (Object G Pt)) :
    zeroCounts (values (object φ ψ) objs) = zeroCounts objs := by
  have h : ∀ m (a : Nat × Object G Pt), zeroRow (values (object φ ψ) objs) m (a.1, object φ ψ a.2) = zeroRow objs m a := by
    intro m a
    unfold zeroRow values
    rw [List.foldl_map]
    rfl
  unfold zeroCounts
  have := foldl_result (f := zeroRow objs) (f' := zeroRow (values (object φ ψ) objs)) id
    (fun e : Nat × Object G Pt => (e.1, object φ ψ e.2)) h objs []
  exact this

omit [Group G] [Group H] in
theorem findPairs_map (φ : G → H) (ψ : Pt → Q) (objs : OMap Nat (Object G Pt)) (t : GroupTables G) (oo : List (ObjObs P)) :
    findPairs (values (object φ ψ) objs) (tables φ t) oo = findPairs objs t oo := by
  have hp : ∀ i j (g1 g2 : CamGroup G), objectPairFor (values (object φ ψ) objs) (tables φ t) oo i j (group φ g1) (group φ g2) =
      objectPairFor objs t oo i j g1 g2 := by
    intro i j g1 g2
    unfold objectPairFor
    rw [zeroCounts_map]
    rfl
  have h : ∀ m (a : Nat × CamGroup G), pairRow (values (object φ ψ) objs) (tables φ t) oo m (a.1, group φ a.2) =
      pairRow objs t oo m a := by
    intro m a
    unfold pairRow
    show List.foldl _ m (t.groups.map fun e => (e.1, group φ e.2)) = _
    rw [List.foldl_map]
    simp only [hp]
  exact foldl_result (f := pairRow objs t oo) (f' := pairRow (values (object φ ψ) objs) (tables φ t) oo) id
    (fun e : Nat × CamGroup G => (e.1, group φ e.2)) h t.groups []

/-- The transforms between groups in other units. -/
def pairPoses (φ : G → H) (pp : PairPoses G) : PairPoses H := { pose := values φ pp.pose, cnt := pp.cnt }

include hof in
theorem initPair_map {he : List (G × G) → Outcome G} {he' : List (H × H) → Outcome H}
    (hhe : ∀ ps, he' (ps.map fun e => (φ e.1, φ e.2)) = result φ (he ps)) (op : OMap (Nat × Nat) (OMap Nat V)) (t : GroupTables G)
    (oo : List (ObjObs P)) (pairs : OMap (Nat × Nat) (Nat × Nat)) (st : PairPoses G) (a b : Nat × CamGroup G) :
    initPair ofVec' (values (values ν) op) (tables φ t) oo pairs he' (pairPoses φ st) (a.1, group φ a.2) (b.1, group φ b.2) =
      result (pairPoses φ) (initPair ofVec op t oo pairs he st a b) := by
  unfold initPair
  dsimp only
  have hf : ∀ i j ab f, framePoses ofVec' (values (values ν) op) (tables φ t) oo i j ab f =
      (framePoses ofVec op t oo i j ab f).map fun e => (φ e.1, φ e.2) := by
    intro i j ab f
    unfold framePoses
    show (match OMap.get? t.groupObs (i, f), OMap.get? t.groupObs (j, f) with
      | some as, some bs => _
      | _, _ => none) = _
    cases OMap.get? t.groupObs (i, f) with
    | none => rfl
    | some as =>
      cases OMap.get? t.groupObs (j, f) with
      | none => rfl
      | some bs =>
        dsimp only
        split_ifs
        · rw [pose_map φ ν hof, pose_map φ ν hof]
          rfl
        · rfl
  have hps : ((commonFrames (group φ a.2) (group φ b.2)).filterMap
      (framePoses ofVec' (values (values ν) op) (tables φ t) oo a.1 b.1 ((OMap.get? pairs (a.1, b.1)).getD (0, 0)))) =
      (((commonFrames a.2 b.2).filterMap (framePoses ofVec op t oo a.1 b.1 ((OMap.get? pairs (a.1, b.1)).getD (0, 0)))).map
        fun e => (φ e.1, φ e.2)) := by
    rw [List.map_filterMap]
    congr 1
    funext f
    exact hf _ _ _ _
  rw [hps, List.length_map, hhe]
  split_ifs
  · rfl
  · rw [result_bind, bind_result]
    refine bind_congr' fun x => ?_
    simp [pairPoses, ← set_values]

include hof in
theorem findPoses_map {he : List (G × G) → Outcome G} {he' : List (H × H) → Outcome H}
    (hhe : ∀ ps, he' (ps.map fun e => (φ e.1, φ e.2)) = result φ (he ps)) (op : OMap (Nat × Nat) (OMap Nat V)) (t : GroupTables G)
    (oo : List (ObjObs P)) (pairs : OMap (Nat × Nat) (Nat × Nat)) (cnt0 : OMap (Nat × Nat) Nat) :
    findPoses ofVec' (values (values ν) op) (tables φ t) oo pairs he' cnt0 =
      result (pairPoses φ) (findPoses ofVec op t oo pairs he cnt0) := by
  unfold findPoses
  refine foldlM_result (pairPoses φ) (fun e : Nat × CamGroup G => (e.1, group φ e.2)) (fun st a => ?_) t.groups
    { pose := [], cnt := cnt0 }
  unfold initPairRow
  refine foldlM_result (pairPoses φ) (fun e : Nat × CamGroup G => (e.1, group φ e.2)) (fun st b => ?_) t.groups st
  dsimp only
  split_ifs
  · exact initPair_map φ ν hof hhe op t oo pairs st a b
  · rfl

end Poses

/-! ### Merging groups -/

theorem mergeWith_map (gs : OMap Nat (CamGroup G)) (pp : PairPoses G) (choose : Nat → Nat → Graph.DState → Nat) :
    mergeWith (values (group φ) gs) (pairPoses φ pp) choose = result (values (group φ)) (mergeWith gs pp choose) := by
  unfold mergeWith
  have hg : groupGraph (values (group φ) gs) (pairPoses φ pp).pose (fun k => (OMap.get? (pairPoses φ pp).cnt k).getD 0) =
      groupGraph gs pp.pose fun k => (OMap.get? pp.cnt k).getD 0 := by
    unfold groupGraph
    congr 2
    · unfold groupVertices values
      rw [List.filter_map, List.map_map]
      rfl
    · simp [groupEdges, pairPoses, values, Function.comp_def]
  rw [hg]
  generalize (groupGraph gs pp.pose fun k => (OMap.get? pp.cnt k).getD 0) = g
  show mergeCameraGroup (values (group φ) gs) (values φ pp.pose) g choose = _
  unfold mergeCameraGroup
  refine foldlM_result' (values (group φ)) (fun m e => ?_) _ []
  unfold mergeGroupStep
  have h : mergeGroup (values (group φ) gs) (values φ pp.pose) g choose e.2 e.1 =
      result (group φ) (mergeGroup gs pp.pose g choose e.2 e.1) := by
    unfold mergeGroup
    rw [bind_result]
    refine bind_congr' fun r => ?_
    rw [get_values, deref_map, result_bind, bind_result]
    refine bind_congr' fun rg => ?_
    rw [show ([] : OMap Nat H) = values φ [] from rfl, foldlM_result' (values φ) (f := mergeGroupPlace pp.pose g choose r)
      (fun m j => by
        unfold mergeGroupPlace
        rw [placement_map φ (step := id) (by simp), result_bind, bind_result]
        refine bind_congr' fun t => ?_
        simp [set_values]), result_bind, bind_result]
    refine bind_congr' fun toRef => ?_
    refine foldlM_result (group φ) (fun e : Nat × CamGroup G => (e.1, group φ e.2)) (fun st a => ?_) gs
      { id := e.2, refCam := rg.refCam }
    unfold mergeGroupInto
    show (if a.2.id ∈ e.1 then match OMap.get? (values φ toRef) a.2.id with
      | some t => Outcome.ok (a.2.cameras.foldl (mergeCam (group φ a.2) t) (group φ st))
      | none => Outcome.throw else _) = _
    split_ifs
    · rw [get_values]
      cases OMap.get? toRef a.2.id with
      | none => rfl
      | some t =>
        simp only [Option.map_some, result_ok, Outcome.ok.injEq]
        have := foldl_result (f := mergeCam a.2 t) (f' := mergeCam (group φ a.2) (φ t)) (group φ) id (fun st c => by
          unfold mergeCam
          rw [← insertCamera_map, map_mul]
          congr 2
          show (OMap.get? (values φ a.2.poses) c.1).getD 1 = _
          rw [get_values]
          cases OMap.get? a.2.poses c.1 <;> simp) a.2.cameras st
        rwa [List.map_id] at this
    · rfl
  rw [h, result_bind, bind_result]
  refine bind_congr' fun o => ?_
  simp [set_values]

end Verif.Lemmas.Units
