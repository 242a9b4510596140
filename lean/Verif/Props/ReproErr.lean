import Verif.Spec.ReproErr
import Verif.Props.Outliers
import Verif.Props.Report

/-!
C66: the reprojection errors computed during the workflow, and what they do to it.
-/
namespace Verif.Props.ReproErr
open Verif Verif.ReproErr Verif.Ransac Verif.Objects Verif.Groups Verif.Spec.ReproErr Verif.Props.Outliers

variable {P2 Pose Pt K : Type}

private theorem errorSum_aux [Field K] (pr : Projection P2 Pose Pt K) (seen repro : List P2)
    (h : seen.length = repro.length) : ∀ k, k ≤ repro.length →
    Outcome.foldlM (errorStep pr seen repro) (0, 0) (List.range k) =
      .ok (k, ((List.zipWith pr.dist seen repro).take k).sum)
  | 0, _ => by simp
  | k + 1, hk => by
    have h1 : k < repro.length := by omega
    have h2 : k < seen.length := by omega
    rw [List.range_succ, Outcome.foldlM_append, errorSum_aux pr seen repro h k (by omega), Outcome.bind_ok,
      Outcome.foldlM_cons, errorStep, Outcome.idx_of_getElem? (List.getElem?_eq_getElem h2), Outcome.bind_ok,
      Outcome.idx_of_getElem? (List.getElem?_eq_getElem h1), Outcome.bind_ok]
    simp only [Outcome.pure_eq, Outcome.bind_ok, Outcome.foldlM_nil, Outcome.ok.injEq, Prod.mk.injEq, true_and]
    rw [List.take_succ_eq_append_getElem (by simp; omega)]
    simp

private theorem errorSum_ok [Field K] (pr : Projection P2 Pose Pt K) (seen repro : List P2)
    (h : seen.length = repro.length) :
    errorSum pr seen repro = .ok (seen.length, (List.zipWith pr.dist seen repro).sum) := by
  unfold errorSum
  rw [errorSum_aux pr seen repro h _ le_rfl, List.take_of_length_le (by simp), h]

private theorem distances_eq (dist : P2 → P2 → K) (pix : Pt → P2) (points : List Pt) :
    ∀ (pts : List P2) (ids : List Nat), (∀ i ∈ ids, i < points.length) →
      List.zipWith dist pts ((select points ids).map pix) = distances dist pix points pts ids
  | [], ids, _ => by simp [distances]
  | p :: pts, [], _ => by simp [distances, select]
  | p :: pts, i :: ids, h => by
    have hi : points[i]? = some (points[i]'(h i List.mem_cons_self)) := List.getElem?_eq_getElem _
    have ih := distances_eq dist pix points pts ids (fun j hj => h j (List.mem_cons_of_mem _ hj))
    unfold distances select at ih ⊢
    simp only [List.zip_cons_cons, List.filterMap_cons, hi, Option.map_some, List.map_cons, List.zipWith_cons_cons, ih]

private theorem sel_length {α : Type} (l : List α) : ∀ (pos : List Nat), (∀ i ∈ pos, i < l.length) →
    (select l pos).length = pos.length
  | [], _ => rfl
  | i :: pos, h => by
    have hi : l[i]? = some (l[i]'(h i List.mem_cons_self)) := List.getElem?_eq_getElem _
    have := sel_length l pos (fun j hj => h j (List.mem_cons_of_mem _ hj))
    simp only [select] at this ⊢
    simp [hi, this]

theorem distances_length (dist : P2 → P2 → K) (pix : Pt → P2) (points : List Pt) (pts : List P2) (ids : List Nat)
    (ha : pts.length = ids.length) (h : ∀ i ∈ ids, i < points.length) :
    (distances dist pix points pts ids).length = pts.length := by
  rw [← distances_eq dist pix points pts ids h]
  simp [sel_length points ids h, ha]

private theorem project_ok {pr : Projection P2 Pose Pt K} {pix : Nat → Pose → Pt → P2} (hp : Pointwise pr pix) {c : Nat}
    (hm : pr.model c = 0 ∨ pr.model c = 1) (g : Pose) {ps : List Pt} (hps : ps ≠ []) :
    ReproErr.project pr c g ps = .ok (ps.map (pix c g)) := by
  unfold ReproErr.project
  rcases hm with hm | hm
  · rw [if_pos hm]; exact hp.brown _ _ _ hps
  · rw [if_neg (by omega), if_pos hm]; exact hp.kannala _ _ _ hps

/-- The number of points and the sum of the distances. -/
theorem obsError_ok [Field K] {pr : Projection P2 Pose Pt K} {pix : Nat → Pose → Pt → P2} (hp : Pointwise pr pix)
    {points : List Pt} {c : Nat} {pts : List P2} {ids : List Nat} (h : Readable pr.model points c pts ids)
    (hne : pts ≠ []) (pose : Pose) :
    obsError pr points c pose ids pts = .ok (pts.length, (distances pr.dist (pix c pose) points pts ids).sum) := by
  have hlen : (select points ids).length = ids.length := sel_length _ _ h.ids
  have hs : select points ids ≠ [] := by
    intro hn
    rw [hn] at hlen
    have := h.aligned
    simp at hlen
    exact hne (List.length_eq_zero_iff.1 (by omega))
  unfold obsError scenePoints
  rw [scenePoints_ok points ids [] h.ids, Outcome.bind_ok, List.nil_append, project_ok hp h.model pose hs,
    Outcome.bind_ok, errorSum_ok _ _ _ (by simp [hlen, h.aligned]), distances_eq _ _ _ _ _ h.ids]

/-- C66: the error returned for an observation (of a board or of an object) with at least one point is the mean
distance between its pixels and the projections of its points at its pose. -/
theorem C66_observation [Field K] {pr : Projection P2 Pose Pt K} {pix : Nat → Pose → Pt → P2} (hp : Pointwise pr pix)
    {points : List Pt} {c : Nat} {pts : List P2} {ids : List Nat} (h : Readable pr.model points c pts ids)
    (hne : pts ≠ []) (pose : Pose) :
    ∃ r, obsError pr points c pose ids pts = .ok r ∧
      result r = mean (distances pr.dist (pix c pose) points pts ids) := by
  refine ⟨_, obsError_ok hp h hne pose, ?_⟩
  unfold result mean
  rw [if_pos (by simpa using List.length_pos_of_ne_nil hne), distances_length _ _ _ _ _ h.aligned h.ids]

/-- C66: an observation without points: what the projection function does with an empty list decides; zero is not the
value of a division by the number of points (nothing is assumed of division). -/
theorem C66_empty [Div K] [NatCast K] [Zero K] [Add K] (pr : Projection P2 Pose Pt K) (points : List Pt) (c : Nat) (pose : Pose) (pts : List P2) :
    (ReproErr.project pr c pose [] = .throw → obsError pr points c pose [] pts = .throw) ∧
    (ReproErr.project pr c pose [] = .ok [] → ∃ r, obsError pr points c pose [] pts = .ok r ∧ result r = 0) := by
  have e : obsError pr points c pose [] pts = ReproErr.project pr c pose [] >>= fun repro => errorSum pr pts repro := rfl
  rw [e]
  constructor
  · intro h; rw [h]; rfl
  · intro h
    rw [h, Outcome.bind_ok]
    exact ⟨(0, 0), rfl, by simp [result]⟩

/-- The warning due for a board observation: iff its mean error is above ten pixels. -/
def warningOf [Field K] [LinearOrder K] (dist : P2 → P2 → K) (pix : Nat → Pose → Pt → P2) (points : List Pt) (e : Estimated P2 Pose) :
    Option (Warning K) :=
  let l := distances dist (pix e.obs.cam e.pose) points e.obs.pts e.obs.ids
  if e.obs.pts ≠ [] ∧ 10 < mean l then some ⟨e.obs.frame, e.obs.board, mean l, l.length⟩ else none

/-- A board observation that can be evaluated. -/
def ReadableBoard (model : Nat → Int) (bpts : List (List Pt)) (e : Estimated P2 Pose) : Prop :=
  ∃ points, bpts[e.obs.board]? = some points ∧ Readable model points e.obs.cam e.obs.pts e.obs.ids

private theorem step_ok [Field K] [LinearOrder K] {pr : Projection P2 Pose Pt K} {pix : Nat → Pose → Pt → P2}
    (hp : Pointwise pr pix) {bpts : List (List Pt)} {e : Estimated P2 Pose} (h : ReadableBoard pr.model bpts e)
    (hne : e.obs.pts ≠ [] ∨ ReproErr.project pr e.obs.cam e.pose [] = .ok []) (acc : List (Warning K)) :
    boardErrorStep pr bpts acc e =
      .ok (acc ++ (warningOf pr.dist pix ((bpts[e.obs.board]?).getD []) e).toList) := by
  obtain ⟨points, h1, h2⟩ := h
  unfold boardErrorStep
  rw [Outcome.idx_of_getElem? h1, Outcome.bind_ok]
  by_cases hn : e.obs.pts = []
  · have hids : e.obs.ids = [] := List.length_eq_zero_iff.1 (by rw [← h2.aligned, hn]; rfl)
    have hq := hne.resolve_left (fun h => h hn)
    have : obsError pr points e.obs.cam e.pose e.obs.ids e.obs.pts = .ok (0, 0) := by
      rw [hids]
      show (ReproErr.project pr e.obs.cam e.pose [] >>= fun repro => errorSum pr e.obs.pts repro) = _
      rw [hq]; rfl
    rw [this, Outcome.bind_ok]
    simp [warningOf, hn]
  · rw [obsError_ok hp h2 hn, Outcome.bind_ok]
    have hlen := distances_length pr.dist (pix e.obs.cam e.pose) points e.obs.pts e.obs.ids h2.aligned h2.ids
    have hpos : 0 < e.obs.pts.length := List.length_pos_of_ne_nil hn
    simp only [h1, Option.getD_some, warningOf, mean, hlen, ne_eq, hn, not_false_eq_true, true_and, hpos,
      Outcome.pure_eq, Outcome.ok.injEq]
    split_ifs <;> simp

/-- C66: the check of all board observations: if each has a point left, or is of a camera whose projection function
accepts an empty list, it ends, and reports exactly the observations with a mean error above ten pixels. -/
theorem C66_boards [Field K] [LinearOrder K] {pr : Projection P2 Pose Pt K} {pix : Nat → Pose → Pt → P2}
    (hp : Pointwise pr pix) {bpts : List (List Pt)} {est : List (Estimated P2 Pose)}
    (h : ∀ e ∈ est, ReadableBoard pr.model bpts e)
    (hne : ∀ e ∈ est, e.obs.pts ≠ [] ∨ ReproErr.project pr e.obs.cam e.pose [] = .ok []) :
    computeReproErrAllBoard pr bpts est =
      .ok (est.filterMap fun e => warningOf pr.dist pix ((bpts[e.obs.board]?).getD []) e) := by
  unfold computeReproErrAllBoard
  suffices ∀ acc, Outcome.foldlM (boardErrorStep pr bpts) acc est =
      .ok (acc ++ est.filterMap fun e => warningOf pr.dist pix ((bpts[e.obs.board]?).getD []) e) from this []
  induction est with
  | nil => simp
  | cons e est ih =>
    intro acc
    rw [Outcome.foldlM_cons, step_ok hp (h e (by simp)) (hne e (by simp)), Outcome.bind_ok,
      ih (fun x hx => h x (by simp [hx])) (fun x hx => hne x (by simp [hx]))]
    rw [List.filterMap_cons]
    cases warningOf pr.dist pix ((bpts[e.obs.board]?).getD []) e <;> simp

/-- C66: if some board observation has no point left and its camera's projection function throws on an empty list, the
check throws (provided no projection does anything else than these two on an empty list). -/
theorem C66_boards_throw [Field K] [LinearOrder K] {pr : Projection P2 Pose Pt K} {pix : Nat → Pose → Pt → P2}
    (hp : Pointwise pr pix) {bpts : List (List Pt)} {est : List (Estimated P2 Pose)}
    (h : ∀ e ∈ est, ReadableBoard pr.model bpts e)
    (hor : ∀ e ∈ est, e.obs.pts ≠ [] ∨ ReproErr.project pr e.obs.cam e.pose [] = .ok [] ∨
      ReproErr.project pr e.obs.cam e.pose [] = .throw)
    (hbad : ∃ e ∈ est, e.obs.pts = [] ∧ ReproErr.project pr e.obs.cam e.pose [] = .throw) :
    computeReproErrAllBoard pr bpts est = .throw := by
  unfold computeReproErrAllBoard
  generalize ([] : List (Warning K)) = acc
  induction est generalizing acc with
  | nil => obtain ⟨e, he, -⟩ := hbad; simp at he
  | cons e est ih =>
    rw [Outcome.foldlM_cons]
    by_cases hthis : e.obs.pts = [] ∧ ReproErr.project pr e.obs.cam e.pose [] = .throw
    · obtain ⟨points, h1, h2⟩ := h e (by simp)
      have hids : e.obs.ids = [] := List.length_eq_zero_iff.1 (by rw [← h2.aligned, hthis.1]; rfl)
      unfold boardErrorStep
      rw [Outcome.idx_of_getElem? h1, Outcome.bind_ok, hids, (C66_empty pr points _ _ _).1 hthis.2]
      rfl
    · have hne : e.obs.pts ≠ [] ∨ ReproErr.project pr e.obs.cam e.pose [] = .ok [] := by
        rcases hor e (by simp) with a | a | a
        · exact .inl a
        · exact .inr a
        · exact .inl fun hn => hthis ⟨hn, a⟩
      rw [step_ok hp (h e (by simp)) hne, Outcome.bind_ok]
      refine ih (fun x hx => h x (by simp [hx])) (fun x hx => hor x (by simp [hx])) ?_ _
      obtain ⟨x, hx, hx'⟩ := hbad
      rcases List.mem_cons.1 hx with rfl | hx
      · exact absurd hx' hthis
      · exact ⟨x, hx, hx'⟩

/-- What a refinement of the intrinsics may do: it changes poses and intrinsics, neither the observations nor the
camera models; the new projection functions still project each point, throw on an empty list (`cv::projectPoints`) or
accept it (`cv::fisheye::projectPoints`, if it does). -/
def Refines (pr : Projection P2 Pose Pt K) (est : List (Estimated P2 Pose))
    (f : List (Estimated P2 Pose) → Outcome (List (Estimated P2 Pose) × Projection P2 Pose Pt K)) : Prop :=
  ∃ est' pr' pix', f est = .ok (est', pr') ∧ est'.map (·.obs) = est.map (·.obs) ∧ pr'.model = pr.model ∧
    Pointwise pr' pix' ∧ ∀ c g, ReproErr.project pr' c g [] = ReproErr.project pr c g []

private theorem mem_zip_sub {α β : Type} {a a' : List α} {b b' : List β} (hl : a'.length = b'.length)
    (h : (a'.zip b').Sublist (a.zip b)) : ∀ x ∈ b', x ∈ b := by
  intro x hx
  obtain ⟨i, hi, rfl⟩ := List.mem_iff_getElem.1 hx
  have hi' : i < a'.length := by omega
  have : (a'[i], b'[i]) ∈ a'.zip b' := List.mem_iff_getElem.2 ⟨i, by simp; omega, by simp⟩
  exact (List.of_mem_zip (h.subset this)).2

/-- C66: the initialisation of the intrinsics (after the cameras' own): from observations with at least four points, of
cameras with supported models, with `cv::projectPoints` throwing on an empty list.  It throws if outlier removal leaves
some observation of a perspective camera without any point; it succeeds, keeping the filtered observations, if every
observation keeps a point — whether or not the intrinsics are refined. -/
theorem C66_init [Field K] [LinearOrder K] (search : Search Pt P2 Pose) (hS : Sound search) (garbage : Pose)
    (bpts : List (List Pt)) (obs : List (BoardObs P2))
    (hobs : ∀ bo ∈ obs, bo.pts.length = bo.ids.length ∧ 4 ≤ bo.pts.length ∧
      ∃ m, bpts[bo.board]? = some m ∧ ∀ i ∈ bo.ids, i < m.length)
    (pr : Projection P2 Pose Pt K) (pix : Nat → Pose → Pt → P2) (hp : Pointwise pr pix)
    (hm : ∀ bo ∈ obs, pr.model bo.cam = 0 ∨ pr.model bo.cam = 1)
    (hthrow : ∀ c g, pr.brown c g [] = .throw) (hfish : ∀ c g, pr.kannala c g [] = .ok [] ∨ pr.kannala c g [] = .throw)
    (refine : Option (List (Estimated P2 Pose) → Outcome (List (Estimated P2 Pose) × Projection P2 Pose Pt K)))
    (est : List (Estimated P2 Pose)) (hest : estimateAllBoards search garbage bpts obs = .ok est)
    (hr : ∀ f ∈ refine, Refines pr est f) :
    ((∃ e ∈ est, e.obs.pts = [] ∧ pr.model e.obs.cam = 0) →
      ReproErr.initIntrinsic search garbage bpts obs refine pr = .throw) ∧
    ((∀ e ∈ est, e.obs.pts ≠ []) → ∃ est' w, ReproErr.initIntrinsic search garbage bpts obs refine pr = .ok (est', w) ∧
      est'.map (·.obs) = est.map (·.obs)) := by
  obtain ⟨est0, h0, hF⟩ := C30_all search hS garbage bpts obs hobs
  rw [hest] at h0
  simp only [Outcome.ok.injEq] at h0
  subst h0
  -- the observations can be read
  have hread : ∀ e ∈ est, ReadableBoard pr.model bpts e := by
    intro e he
    obtain ⟨i, hi⟩ := List.mem_iff_getElem?.1 he
    have hlen := hF.length_eq
    obtain ⟨hi', rfl⟩ := List.getElem?_eq_some_iff.1 hi
    have hf := hF.get (by omega) hi'
    have hbo : obs[i]'(by omega) ∈ obs := List.getElem_mem _
    obtain ⟨-, -, m, hm1, hm2⟩ := hobs _ hbo
    simp only [List.get_eq_getElem] at hf
    obtain ⟨e1, e2, e3⟩ := hf.same
    refine ⟨m, by rw [e3]; exact hm1, ⟨by rw [e1]; exact hm _ hbo, hf.aligned, fun x hx => hm2 x ?_⟩⟩
    exact mem_zip_sub hf.aligned hf.sub x hx
  -- the state the check runs on
  obtain ⟨est', pr', pix', hx, hmap, hmodel, hpw, hpe⟩ : ∃ est' pr' pix',
      refineStep refine est pr = .ok (est', pr') ∧ est'.map (·.obs) = est.map (·.obs) ∧ pr'.model = pr.model ∧
      Pointwise pr' pix' ∧ ∀ c g, ReproErr.project pr' c g [] = ReproErr.project pr c g [] := by
    cases refine with
    | none => exact ⟨est, pr, pix, rfl, rfl, rfl, hp, fun _ _ => rfl⟩
    | some f => exact hr f rfl
  have hrun : ReproErr.initIntrinsic search garbage bpts obs refine pr =
      computeReproErrAllBoard pr' bpts est' >>= fun w => .ok (est', w) := by
    unfold ReproErr.initIntrinsic
    rw [hest, Outcome.bind_ok, hx, Outcome.bind_ok]
    rfl
  have hobs' : ∀ e' ∈ est', ∃ e ∈ est, e.obs = e'.obs := by
    intro e' he'
    have : e'.obs ∈ est.map (·.obs) := hmap ▸ List.mem_map_of_mem he'
    simpa using this
  have hread' : ∀ e ∈ est', ReadableBoard pr'.model bpts e := by
    intro e' he'
    obtain ⟨e, he, heq⟩ := hobs' e' he'
    obtain ⟨m, h1, h2⟩ := hread e he
    rw [heq] at h1 h2
    exact ⟨m, h1, hmodel ▸ h2⟩
  have hpempty : ∀ c g, (pr.model c = 0 → ReproErr.project pr' c g [] = .throw) ∧
      (pr.model c = 1 → ReproErr.project pr' c g [] = .ok [] ∨ ReproErr.project pr' c g [] = .throw) := by
    intro c g
    rw [hpe]
    unfold ReproErr.project
    constructor
    · intro h; rw [if_pos h]; exact hthrow c g
    · intro h; rw [if_neg (by omega), if_pos h]; exact hfish c g
  constructor
  · rintro ⟨e, he, hn, h0⟩
    rw [hrun, C66_boards_throw hpw hread' ?_ ?_]
    · rfl
    · intro x hx
      obtain ⟨m, -, h2⟩ := hread' x hx
      rcases h2.model with a | a
      · exact .inr (.inr ((hpempty _ _).1 (hmodel ▸ a)))
      · exact .inr ((hpempty _ _).2 (hmodel ▸ a))
    · have : e.obs ∈ est'.map (·.obs) := hmap ▸ List.mem_map_of_mem he
      obtain ⟨e', he', heq⟩ := List.mem_map.1 this
      refine ⟨e', he', by rw [heq]; exact hn, (hpempty _ _).1 (by rw [heq]; exact h0)⟩
  · intro hall
    rw [hrun, C66_boards hpw hread' ?_]
    · exact ⟨_, _, rfl, hmap⟩
    · intro x hx
      obtain ⟨e, he, heq⟩ := hobs' x hx
      exact .inl (heq ▸ hall e he)

/-! ### Objects -/

/-- An object observation that can be evaluated. -/
def ReadableObject {G : Type} (model : Nat → Int) (objs : OMap Nat (Object G Pt)) (o : ObjObs P2) : Prop :=
  o.pts ≠ [] ∧ ∃ obj, OMap.get? objs o.obj = some obj ∧ Readable model obj.pts o.cam o.pts o.ids

/-- C66: the error logged for the object observations is the mean over the observations (each counting the same,
whatever its number of points) of their mean distances; without observations it is 0 / 0. -/
theorem C66_objects [Field K] {G : Type} {pr : Projection P2 Pose Pt K} {pix : Nat → Pose → Pt → P2} (hp : Pointwise pr pix)
    (objs : OMap Nat (Object G Pt)) (oos : List (ObjObs P2 × Pose)) (h : ∀ e ∈ oos, ReadableObject pr.model objs e.1) :
    computeReproErrAllObject pr objs oos = .ok (if oos = [] then none else some (mean (oos.map fun e =>
      mean (distances pr.dist (pix e.1.cam e.2) (((OMap.get? objs e.1.obj).map (·.pts)).getD []) e.1.pts e.1.ids)))) := by
  unfold computeReproErrAllObject
  rw [Lemmas.Collect.foldlM_append_ok (v := fun e : ObjObs P2 × Pose =>
      mean (distances pr.dist (pix e.1.cam e.2) (((OMap.get? objs e.1.obj).map (·.pts)).getD []) e.1.pts e.1.ids))]
  · rw [Outcome.bind_ok]
    by_cases hn : oos = []
    · simp [hn]
    · simp [mean, hn]
  · rintro acc e he
    obtain ⟨hne, obj, h1, h2⟩ := h e he
    unfold objectErrorStep
    obtain ⟨r, h3, h4⟩ := C66_observation hp h2 hne e.2
    rw [h1, Outcome.deref_some, Outcome.bind_ok, h3, Outcome.bind_ok, h4]
    rfl

/-! ### Camera groups -/

section group
variable {V G Pt : Type} [Group G] [SMul G Pt] {sc : Output.Scene V G Pt} {frames : List Nat}
  {r : Spec.Report.Reading G Pt}

/-- The line logged for an object observation of a group. -/
noncomputable def lineOf (r : Spec.Report.Reading G Pt) (o : ObjObs (ℝ × ℝ)) : GroupLine :=
  ⟨o.cam, o.obj, some (Spec.Report.mean (Spec.Report.errors r o)), o.pts.length⟩

private theorem groupSum (seen repro : List (ℝ × ℝ)) (h : seen.length = repro.length) : ∀ k, k ≤ repro.length →
    Outcome.foldlM (logPoint seen repro) 0 (List.range k) =
      .ok (((List.zipWith Output.distance seen repro).take k).sum)
  | 0, _ => by simp
  | k + 1, hk => by
    have h1 : k < repro.length := by omega
    have h2 : k < seen.length := by omega
    rw [List.range_succ, Outcome.foldlM_append, groupSum seen repro h k (by omega), Outcome.bind_ok,
      Outcome.foldlM_cons, logPoint, Outcome.idx_of_getElem? (List.getElem?_eq_getElem h2), Outcome.bind_ok,
      Outcome.idx_of_getElem? (List.getElem?_eq_getElem h1), Outcome.bind_ok]
    simp only [Outcome.pure_eq, Outcome.bind_ok, Outcome.foldlM_nil, Outcome.ok.injEq]
    rw [List.take_succ_eq_append_getElem (by simp; omega)]
    simp

private theorem groupObs_ok (h : Spec.Report.Holds sc frames r) {i : Nat} {o : ObjObs (ℝ × ℝ)} (ho : sc.oo[i]? = some o)
    {gi : Nat} {g : CamGroup G} (hg : OMap.get? sc.t.groups gi = some g) (hc : o.cam ∈ OMap.keys g.cameras)
    (acc : List GroupLine) : logObs sc g o.frame acc i = .ok (acc ++ [lineOf r o]) := by
  have hmem := List.mem_of_getElem? ho
  obtain ⟨g', hg', hc'⟩ := h.group o hmem
  have hgi : r.group o.cam = gi := h.groups.disjoint _ _ g' g hg' hg o.cam hc' hc
  obtain ⟨obj, h1, h2⟩ := h.pts o hmem
  obtain ⟨m, v, h3, h4, h5⟩ := h.objPose o hmem
  have hid := h.groups.id gi g hg
  have hproj : ∀ ps : List Pt, ps ≠ [] → Output.project sc o.cam (r.camPose o.cam) ps =
      .ok (ps.map fun p => r.pix o.cam (r.camPose o.cam • p)) := by
    intro ps hps
    unfold Output.project
    rcases h.model o hmem with hm | hm
    · rw [if_pos hm]; exact h.brown _ _ _ hps
    · rw [if_neg (by omega), if_pos hm]; exact h.kannala _ _ _ hps
  have hal := h.aligned o hmem
  have hne := h.nonempty o hmem
  unfold logObs
  rw [Outcome.idx_of_getElem? ho, Outcome.bind_ok, h1, Outcome.deref_some, Outcome.bind_ok,
    Report.points_ok h2, Outcome.bind_ok, h.camPose gi g o.cam hg hc, hid, ← hgi, h3]
  simp only [Option.bind_some, h4, Option.map_some, Option.getD_some, h5]
  rw [hproj _ (by simpa using hne), Outcome.bind_ok, groupSum _ _ (by simpa using hal) _ le_rfl, Outcome.bind_ok]
  simp only [Outcome.pure_eq, Outcome.ok.injEq, List.append_cancel_left_eq, List.cons.injEq, and_true]
  rw [List.take_of_length_le (by simp)]
  simp only [List.length_map, List.length_eq_zero_iff, hne, if_false]
  unfold lineOf
  have herr : (List.zipWith Output.distance o.pts
      (List.map (fun p => r.pix o.cam (r.camPose o.cam • p))
        (List.map (fun x => r.objPose (r.group o.cam) o.frame o.obj • x) (List.map (r.pt o.obj) o.ids)))) =
      Spec.Report.errors r o := by
    unfold Spec.Report.errors Output.distance
    rw [List.map_map, List.map_map, List.zipWith_map_right, ← List.map_uncurry_zip_eq_zipWith]
    rfl
  rw [herr]
  unfold Spec.Report.mean
  have hlen : (Spec.Report.errors r o).length = o.ids.length := by unfold Spec.Report.errors; simp [hal]
  rw [hlen, hal]

/-- C66: the lines logged for a camera group: frame by frame, for each object observation of a camera of the group, the
mean of the distances from which the average (C41) is computed. -/
theorem C66_group (h : Spec.Report.Holds sc frames r) {gi : Nat} {g : CamGroup G}
    (hg : OMap.get? sc.t.groups gi = some g) :
    reproErrorCameraGroup sc g = .ok ((OMap.keys g.frames).flatMap fun f =>
      (sc.oo.filter fun o => o.frame == f && decide (o.cam ∈ OMap.keys g.cameras)).map (lineOf r)) := by
  unfold reproErrorCameraGroup
  suffices ∀ (l : List Nat) acc, Outcome.foldlM (logFrame sc g) acc l = .ok (acc ++ l.flatMap fun f =>
      (sc.oo.filter fun o => o.frame == f && decide (o.cam ∈ OMap.keys g.cameras)).map (lineOf r)) from this _ []
  intro l
  induction l with
  | nil => simp
  | cons f l ih =>
    intro acc
    have hf : logFrame sc g acc f = .ok (acc ++
        (sc.oo.filter fun o => o.frame == f && decide (o.cam ∈ OMap.keys g.cameras)).map (lineOf r)) := by
      unfold logFrame
      have hrep : Output.reported sc g f = Spec.Store.positions
          (fun o : ObjObs (ℝ × ℝ) => o.frame == f && decide (o.cam ∈ OMap.keys g.cameras)) sc.oo := by
        rw [Report.reported_eq h hg]
        cases hx : OMap.get? sc.t.groupObs (gi, f) with
        | some is =>
          obtain ⟨g', hg', _, _, rfl⟩ := (h.groupObs.obs gi f is).1 hx
          rw [hg] at hg'
          simp only [Option.some.injEq] at hg'
          subst hg'
          rfl
        | none =>
          rw [Option.getD_none]
          by_contra hne
          obtain ⟨i, hi⟩ := List.exists_mem_of_ne_nil _ (Ne.symm hne)
          obtain ⟨o, ho, hp⟩ := (Props.Store.positions_get _ _ _).1 hi
          simp only [Bool.and_eq_true, beq_iff_eq, decide_eq_true_eq] at hp
          have := (Report.mem_reported h hg f i).2 ⟨o, ho, hp.1, hp.2⟩
          rw [Report.reported_eq h hg, hx] at this
          simp at this
      rw [hrep]
      obtain hval : ∀ i ∈ Spec.Store.positions
          (fun o : ObjObs (ℝ × ℝ) => o.frame == f && decide (o.cam ∈ OMap.keys g.cameras)) sc.oo,
          ∃ o, sc.oo[i]? = some o ∧ o.frame = f ∧ o.cam ∈ OMap.keys g.cameras := by
        intro i hi
        obtain ⟨o, ho, hp⟩ := (Props.Store.positions_get _ _ _).1 hi
        simp only [Bool.and_eq_true, beq_iff_eq, decide_eq_true_eq] at hp
        exact ⟨o, ho, hp⟩
      rw [Lemmas.Collect.foldlM_append_ok (v := fun i => ((sc.oo[i]?).map (lineOf r)).getD ⟨0, 0, none, 0⟩)]
      · congr 2
        have := Report.positions_map (fun o : ObjObs (ℝ × ℝ) => o.frame == f && decide (o.cam ∈ OMap.keys g.cameras)) sc.oo
        have h2 := congrArg (List.map fun x : Option (ObjObs (ℝ × ℝ)) => (x.map (lineOf r)).getD ⟨0, 0, none, 0⟩) this
        rw [List.map_map, List.map_map] at h2
        exact h2
      · intro acc i hi
        obtain ⟨o, ho, rfl, hc⟩ := hval i hi
        rw [groupObs_ok h ho hg hc]
        simp [ho]
    rw [Outcome.foldlM_cons, hf, Outcome.bind_ok, ih]
    simp

end group

/-! ### Concrete cases -/

/-- Pixel `k` is the projection of point `k`; `cv::projectPoints` throws on an empty list. -/
def flat : Projection Nat S5 (Fin 5) ℚ where
  model _ := 0
  brown _ _ ps := if ps.isEmpty then .throw else .ok (ps.map fun p => p.val)
  kannala _ _ ps := .ok (ps.map fun p => p.val)
  dist a b := (((a : ℤ) - (b : ℤ)).natAbs : ℚ)

theorem flat_pointwise : Pointwise flat fun _ _ p => p.val := by
  constructor
  · intro c g ps h
    simp [flat, h]
  · intro c g ps h; rfl

/-- C66: from detections of a board of five corners: with a bad pixel the run goes on; with a view of which no pixel fits
it is aborted, although the observation would have done no harm (`C55_none_left`). -/
theorem C66_example :
    (∃ e w, (Store.run 1 1 [seen 0 [0, 1, 77, 3, 4], seen 1 [0, 1, 2, 3, 4]] >>= fun s =>
      ReproErr.initIntrinsic search 1 [[0, 1, 2, 3, 4]] s.obs none flat) = .ok (e, w) ∧ w = [] ∧ e.length = 2) ∧
    (Store.run 1 1 [seen 0 [0, 1, 2, 3, 4], seen 1 [9, 9, 9, 55, 66]] >>= fun s =>
      ReproErr.initIntrinsic search 1 [[0, 1, 2, 3, 4]] s.obs none flat) = .throw := by
  constructor
  · refine ⟨_, _, rfl, ?_, ?_⟩ <;> decide +kernel
  · have : (match (Store.run 1 1 [seen 0 [0, 1, 2, 3, 4], seen 1 [9, 9, 9, 55, 66]] >>= fun s =>
      ReproErr.initIntrinsic search 1 [[0, 1, 2, 3, 4]] s.obs none flat) with
      | .throw => true
      | _ => false) = true := by decide +kernel
    revert this
    generalize (Store.run 1 1 [seen 0 [0, 1, 2, 3, 4], seen 1 [9, 9, 9, 55, 66]] >>= fun s =>
      ReproErr.initIntrinsic search 1 [[0, 1, 2, 3, 4]] s.obs none flat) = x
    cases x <;> simp

/-- The scene of C41 (two groups) meets the hypotheses of C66_group. -/
example : ∃ g l, OMap.get? Report.demo.t.groups 0 = some g ∧ reproErrorCameraGroup Report.demo g = .ok l ∧ l.length = 1 := by
  refine ⟨_, _, rfl, C66_group Report.demo_holds (gi := 0) rfl, ?_⟩
  simp [OMap.keys, Report.demo]

end Verif.Props.ReproErr
