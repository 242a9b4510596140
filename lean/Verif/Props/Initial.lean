import Verif.Spec.Initial
import Verif.Props.InitCamera
import Verif.Lemmas.Idle
import Verif.Lemmas.Detection
import Mathlib.Data.List.Perm.Basic

/-! C104: each camera is initialised from its own detections alone, and no order of detection is preferred. -/
namespace Verif.Props.Initial
open Verif Verif.InitCamera Verif.Store Verif.Spec.Store Verif.Spec.Initial

variable {K Pt Path : Type} [Field K] [LinearOrder K]

/-- One board in turn. -/
def use (bpts : List (List Pt)) (model : Int) (cols rows : K) (st : List (List Pt) × List (List (K × K))) (o : BoardObs (K × K)) :
    Outcome (List (List Pt) × List (List (K × K))) := do
  if (if model = 1 then checkBorder margin cols rows o.pts else true) then do
    let board ← Outcome.idx bpts o.board
    let pts ← Outcome.foldlM (pointStep board) [] o.ids
    pure (st.1 ++ [pts], st.2 ++ [o.pts])
  else pure st

theorem foldlM_range {σ α : Type} {f : σ → Nat → Outcome σ} {g : σ → α → Outcome σ} (X : List α)
    (h : ∀ s (i : Nat) x, X[i]? = some x → f s i = g s x) (k : Nat) (hk : k ≤ X.length) (s : σ) :
    Outcome.foldlM f s (List.range k) = Outcome.foldlM g s (X.take k) := by
  induction k with
  | zero => rfl
  | succ k ih =>
    have hx : X[k]? = some (X[k]'(by omega)) := List.getElem?_eq_getElem (by omega)
    rw [List.range_succ, List.take_add_one, hx, Outcome.foldlM_append, ih (by omega), Outcome.foldlM_append]
    refine Lemmas.Units.bind_congr' fun t => ?_
    simp only [Option.toList_some]
    rw [Outcome.foldlM_cons, Outcome.foldlM_cons, h t k _ hx]
    rfl

/-- The boards are used in the order of the shuffle. -/
theorem correspond_eq (bpts : List (List Pt)) (obs : List (BoardObs (K × K))) (refs : List Nat) (model : Int) (cols rows : K)
    (sh : List Nat) (X : List (BoardObs (K × K))) (hX : ∀ (i : Nat) x, X[i]? = some x → ∃ j r, sh[i]? = some j ∧ refs[j]? = some r ∧ obs[r]? = some x)
    (hlen : X.length = refs.length) :
    correspondences bpts obs refs model cols rows sh =
      Outcome.foldlM (use bpts model cols rows) ([], []) (X.take (boardsUsed model X.length)) := by
  unfold correspondences
  rw [← hlen]
  refine foldlM_range X (fun s i x hx => ?_) _ (by rw [Props.InitCamera.boardsUsed_eq]; omega) _
  obtain ⟨j, r, h1, h2, h3⟩ := hX i x hx
  unfold boardStep use
  rw [Outcome.idx_of_getElem? h1, Outcome.bind_ok, Outcome.idx_of_getElem? h2, Outcome.bind_ok, Outcome.idx_of_getElem? h3,
    Outcome.bind_ok]

/-- Any order of a list is a shuffle of it. -/
theorem shuffle_of {α : Type} {X B : List α} (h : X.Perm B) :
    ∃ sh : List Nat, sh.Perm (List.range B.length) ∧ sh.length = X.length ∧ ∀ (i : Nat) x, X[i]? = some x → ∃ j, sh[i]? = some j ∧ B[j]? = some x := by
  have hB : List.Forall₂ (fun x j => B[j]? = some x) B (List.range B.length) := by
    rw [List.forall₂_iff_get]
    refine ⟨by simp, fun i h1 h2 => ?_⟩
    simp
  obtain ⟨sh, h1, h2⟩ := List.perm_comp_forall₂ h hB
  refine ⟨sh, h2, h1.length_eq.symm, fun i x hx => ?_⟩
  obtain ⟨hi, rfl⟩ := List.getElem?_eq_some_iff.1 hx
  have hi' : i < sh.length := by rw [← h1.length_eq]; exact hi
  exact ⟨sh[i], List.getElem?_eq_getElem hi', h1.get hi hi'⟩

/-- The boards that a shuffle puts in turn. -/
theorem turn_of {α : Type} {B : List α} {sh : List Nat} (h : sh.Perm (List.range B.length)) :
    ∃ X : List α, X.Perm B ∧ X.length = sh.length ∧ ∀ (i : Nat) x, X[i]? = some x → ∃ j, sh[i]? = some j ∧ B[j]? = some x := by
  have hB : List.Forall₂ (fun j x => B[j]? = some x) (List.range B.length) B := by
    rw [List.forall₂_iff_get]
    refine ⟨by simp, fun i h1 h2 => ?_⟩
    simp
  obtain ⟨X, h1, h2⟩ := List.perm_comp_forall₂ h hB
  refine ⟨X, h2, h1.length_eq.symm, fun i x hx => ?_⟩
  obtain ⟨hi, rfl⟩ := List.getElem?_eq_some_iff.1 hx
  have hi' : i < sh.length := by rw [h1.length_eq]; exact hi
  exact ⟨sh[i], List.getElem?_eq_getElem hi', h1.get hi' hi⟩

/-- The stored detections of a camera. -/
theorem stored {nCam nBoard : Nat} {l : List (Insertion (K × K) Path)} (hl : ∀ a ∈ l, a.obs.cam < nCam ∧ a.obs.board < nBoard)
    {s : Store (K × K) Path} (hs : run nCam nBoard l = .ok s) {c : Nat} {r : CamRec} (hr : s.cams[c]? = some r) :
    r.boards.length = (detections c l).length ∧ ∀ (j : Nat) x, (detections c l)[j]? = some x → ∃ q, r.boards[j]? = some q ∧ s.obs[q]? = some x := by
  obtain ⟨s', h1, hd⟩ := Props.Store.C06_indexes nCam nBoard l hl
  rw [hs, Outcome.ok.injEq] at h1
  subst h1
  have hb := (hd.cam c r hr).1
  have hseen := Props.InitCamera.seen_positions c l
  rw [← hb, ← hd.obs] at hseen
  have hlen : r.boards.length = (detections c l).length := by
    simpa [Props.InitCamera.seenBy, detections] using congrArg List.length hseen
  refine ⟨hlen, fun j x hx => ?_⟩
  obtain ⟨hj, rfl⟩ := List.getElem?_eq_some_iff.1 hx
  have hj' : j < r.boards.length := by omega
  have hj2 : j < (Props.InitCamera.seenBy c l).length := hj
  have := congrArg (fun L : List (Option (BoardObs (K × K))) => L[j]?) hseen
  simp only [List.getElem?_map, List.getElem?_eq_getElem hj', Option.map_some, List.getElem?_eq_getElem hj2,
    Option.some.injEq] at this
  exact ⟨r.boards[j], List.getElem?_eq_getElem hj', this⟩

section
variable {nCam nBoard nCam' nBoard' : Nat} {l l' : List (Insertion (K × K) Path)}
  (hl : ∀ a ∈ l, a.obs.cam < nCam ∧ a.obs.board < nBoard) (hl' : ∀ a ∈ l', a.obs.cam < nCam' ∧ a.obs.board < nBoard')
  {s s' : Store (K × K) Path} (hs : run nCam nBoard l = .ok s) (hs' : run nCam' nBoard' l' = .ok s')

include hl hl' hs hs' in
/-- C104: if two histories have the same detections of a camera, in any orders and among any detections of other cameras, then
whatever initial intrinsics the camera gets from the first by some shuffle, it gets from the second by some shuffle (and a
failure of the one is a failure of the other). -/
theorem C104_order {c : Nat} {r r' : CamRec} (hr : s.cams[c]? = some r) (hr' : s'.cams[c]? = some r') (h : SameOf c l l')
    (lib : Lib K Pt) (bpts : List (List Pt)) (model : Int) (cols rows : K) (I : Camera.Intr K) (sh : List Nat)
    (hsh : sh.Perm (List.range (detections c l).length)) :
    ∃ sh' : List Nat, sh'.Perm (List.range (detections c l').length) ∧
      initializeCalibration lib bpts s'.obs r'.boards model cols rows I sh' =
        initializeCalibration lib bpts s.obs r.boards model cols rows I sh := by
  obtain ⟨a1, a2⟩ := stored hl hs hr
  obtain ⟨b1, b2⟩ := stored hl' hs' hr'
  obtain ⟨X, x1, x2, x3⟩ := turn_of hsh
  obtain ⟨sh', y1, y2, y3⟩ := shuffle_of (x1.trans h)
  refine ⟨sh', y1, ?_⟩
  have e : correspondences bpts s'.obs r'.boards model cols rows sh' = correspondences bpts s.obs r.boards model cols rows sh := by
    rw [correspond_eq bpts s.obs r.boards model cols rows sh X, correspond_eq bpts s'.obs r'.boards model cols rows sh' X]
    · intro i x hx
      obtain ⟨j, h1, h2⟩ := y3 i x hx
      obtain ⟨q, h3, h4⟩ := b2 j x h2
      exact ⟨j, q, h1, h3, h4⟩
    · rw [b1, (x1.trans h).length_eq]
    · intro i x hx
      obtain ⟨j, h1, h2⟩ := x3 i x hx
      obtain ⟨q, h3, h4⟩ := a2 j x h2
      exact ⟨j, q, h1, h3, h4⟩
    · rw [a1, x1.length_eq]
  unfold initializeCalibration
  rw [e]

include hl hl' hs hs' in
/-- C104: if moreover the camera has its detections in the same order, the same shuffle does. -/
theorem C104_own {c : Nat} {r r' : CamRec} (hr : s.cams[c]? = some r) (hr' : s'.cams[c]? = some r')
    (h : detections c l = detections c l') (lib : Lib K Pt) (bpts : List (List Pt)) (model : Int) (cols rows : K)
    (I : Camera.Intr K) (sh : List Nat) (hsh : sh.Perm (List.range (detections c l).length)) :
    initializeCalibration lib bpts s'.obs r'.boards model cols rows I sh =
      initializeCalibration lib bpts s.obs r.boards model cols rows I sh := by
  obtain ⟨a1, a2⟩ := stored hl hs hr
  obtain ⟨b1, b2⟩ := stored hl' hs' hr'
  obtain ⟨X, x1, x2, x3⟩ := turn_of hsh
  have e : correspondences bpts s'.obs r'.boards model cols rows sh = correspondences bpts s.obs r.boards model cols rows sh := by
    rw [correspond_eq bpts s.obs r.boards model cols rows sh X, correspond_eq bpts s'.obs r'.boards model cols rows sh X]
    · intro i x hx
      obtain ⟨j, h1, h2⟩ := x3 i x hx
      rw [h] at h2
      obtain ⟨q, h3, h4⟩ := b2 j x h2
      exact ⟨j, q, h1, h3, h4⟩
    · rw [b1, ← h, x1.length_eq]
    · intro i x hx
      obtain ⟨j, h1, h2⟩ := x3 i x hx
      obtain ⟨q, h3, h4⟩ := a2 j x h2
      exact ⟨j, q, h1, h3, h4⟩
    · rw [a1, x1.length_eq]
  unfold initializeCalibration
  rw [e]

/-- Shuffles of the detections of each camera. -/
def Shuffles (nCam : Nat) (l : List (Insertion (K × K) Path)) (shuffles : Nat → List Nat) : Prop :=
  ∀ c < nCam, (shuffles c).Perm (List.range (detections c l).length)

omit hl hl' hs hs' in
/-- C104, all cameras: histories with the same detections allow the same initial intrinsics. -/
theorem C104_all (hl : ∀ a ∈ l, a.obs.cam < nCam ∧ a.obs.board < nBoard) (hl' : ∀ a ∈ l', a.obs.cam < nCam ∧ a.obs.board < nBoard)
    (hs : run nCam nBoard l = .ok s) (hs' : run nCam nBoard l' = .ok s') (h : (l.map (·.obs)).Perm (l'.map (·.obs)))
    (lib : Lib K Pt) (bpts : List (List Pt)) (cams : List (Cam K)) (hc : cams.length = nCam) (shuffles : Nat → List Nat)
    (hsh : Shuffles nCam l shuffles) :
    ∃ shuffles', Shuffles nCam l' shuffles' ∧
      initializeAll lib bpts s' cams shuffles' = initializeAll lib bpts s cams shuffles := by
  have hsame : ∀ c, SameOf c l l' := fun c => h.filter _
  obtain ⟨s0, h1, hd⟩ := Props.Store.C06_indexes nCam nBoard l hl
  rw [hs, Outcome.ok.injEq] at h1
  subst h1
  obtain ⟨s0', h1', hd'⟩ := Props.Store.C06_indexes nCam nBoard l' hl'
  rw [hs', Outcome.ok.injEq] at h1'
  subst h1'
  have key : ∀ c, ∃ sh' : List Nat, c < nCam → sh'.Perm (List.range (detections c l').length) ∧
      ∀ acc (f : Nat → List Nat), f c = sh' → cameraStep lib bpts s' cams f acc c = cameraStep lib bpts s cams shuffles acc c := by
    intro c
    by_cases hcn : c < nCam
    · have hr : s.cams[c]? = some (s.cams[c]'(by rw [hd.cams_length]; exact hcn)) := List.getElem?_eq_getElem _
      have hr' : s'.cams[c]? = some (s'.cams[c]'(by rw [hd'.cams_length]; exact hcn)) := List.getElem?_eq_getElem _
      have hcam : cams[c]? = some (cams[c]'(by omega)) := List.getElem?_eq_getElem _
      obtain ⟨sh', e1, e2⟩ := C104_order hl hl' hs hs' hr hr' (hsame c) lib bpts (cams[c]'(by omega)).model
        (cams[c]'(by omega)).cols (cams[c]'(by omega)).rows (cams[c]'(by omega)).intr (shuffles c) (hsh c hcn)
      refine ⟨sh', fun _ => ⟨e1, fun acc f hf => ?_⟩⟩
      unfold cameraStep
      rw [Outcome.idx_of_getElem? hr, Outcome.idx_of_getElem? hr', Outcome.idx_of_getElem? hcam]
      simp only [Outcome.bind_ok]
      rw [hf, e2]
    · exact ⟨[], fun h => absurd h hcn⟩
  choose sh' hsh' using key
  refine ⟨sh', fun c hc => (hsh' c hc).1, ?_⟩
  unfold initializeAll
  refine Lemmas.Idle.foldlM_eq_of_mem _ (fun c hcm acc => ?_) _
  have : c < nCam := by rw [← hc]; exact List.mem_range.1 hcm
  exact (hsh' c this).2 acc sh' rfl

omit hl hl' hs hs' in
/-- C104, schedules: the initial intrinsics that one schedule of the detection threads allows, every other one allows. -/
theorem C104_schedules (ts : List (List (List (Insertion (K × K) Path)))) (h : Detection.Schedule ts l) (h' : Detection.Schedule ts l')
    (hl : ∀ a ∈ l, a.obs.cam < nCam ∧ a.obs.board < nBoard) (hs : run nCam nBoard l = .ok s) (hs' : run nCam nBoard l' = .ok s')
    (lib : Lib K Pt) (bpts : List (List Pt)) (cams : List (Cam K)) (hc : cams.length = nCam) (shuffles : Nat → List Nat)
    (hsh : Shuffles nCam l shuffles) :
    ∃ shuffles', Shuffles nCam l' shuffles' ∧
      initializeAll lib bpts s' cams shuffles' = initializeAll lib bpts s cams shuffles := by
  have hp : l.Perm l' := h.perm.trans h'.perm.symm
  exact C104_all hl (fun a ha => hl a (hp.mem_iff.2 ha)) hs hs' (hp.map _) lib bpts cams hc shuffles hsh

end

/-! ### A case -/

/-- Two detections of camera 0 and one of camera 1, stored in two orders: the shuffle of the first order that takes camera 0's
detections as they come corresponds to the one of the second that exchanges them. -/
def demo1 : List (Insertion (Rat × Rat) Nat) :=
  [⟨⟨0, 0, 0, [(50, 50), (97, 50)], [1, 0]⟩, 7⟩, ⟨⟨1, 0, 0, [(50, 50)], [0]⟩, 8⟩, ⟨⟨0, 1, 0, [(50, 50), (60, 50)], [0, 1]⟩, 9⟩]

def demo2 : List (Insertion (Rat × Rat) Nat) := demo1.reverse

def store1 : Store (Rat × Rat) Nat := match run 2 1 demo1 with
  | .ok s => s
  | _ => Store.init 0 0

def store2 : Store (Rat × Rat) Nat := match run 2 1 demo2 with
  | .ok s => s
  | _ => Store.init 0 0

example (lib : Lib Rat Nat) (I : Camera.Intr Rat) :
    ∃ f, Shuffles 2 demo2 f ∧
      initializeAll lib [[10, 20]] store2 [⟨0, 100, 100, I⟩, ⟨1, 100, 100, I⟩] f =
        initializeAll lib [[10, 20]] store1 [⟨0, 100, 100, I⟩, ⟨1, 100, 100, I⟩] fun c => List.range (detections c demo1).length :=
  C104_all (nCam := 2) (nBoard := 1) (l := demo1) (l' := demo2) (s := store1) (s' := store2) (by decide +kernel) (by decide +kernel)
    (by decide +kernel) (by decide +kernel) ((List.reverse_perm demo1).symm.map _) lib [[10, 20]]
    [⟨0, 100, 100, I⟩, ⟨1, 100, 100, I⟩] rfl _ fun _ _ => .refl _

/-- The orders are used: the two detections of camera 0 come exchanged. -/
example : correspondences [[10, 20]] store1.obs [0, 2] 0 100 100 [0, 1] = correspondences [[10, 20]] store2.obs [0, 2] 0 100 100 [1, 0] ∧
    correspondences [[10, 20]] store1.obs [0, 2] 0 100 100 [0, 1] ≠ correspondences [[10, 20]] store2.obs [0, 2] 0 100 100 [0, 1] := by
  decide +kernel

end Verif.Props.Initial
