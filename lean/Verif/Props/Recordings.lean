import Verif.Props.Exact

/-!
C106: two recordings of the same rig give the same calibration: the cameras and the boards may be numbered
differently, the rig may move differently, other frames may be taken and other cameras may see other boards, and every
arbitrary choice (draws, ties) may be made differently.
-/
namespace Verif.Props.Recordings
open Verif Verif.Objects Verif.Groups Verif.NonOverlap Verif.Pipeline
open Verif.Spec.NonOverlap Verif.Spec.Pipeline Verif.Spec.Exact Verif.Props.Exact Verif.Props.NonOverlap

variable {V G Pt P Path : Type}

/-- The conditions of C70 on one recording: exact data of `w`, numerical parts that are exact on them, no composition
whose order matters, enough common views between groups. -/
structure Recording [Group G] [SMul G Pt] [DecidableEq P] (nCam nBoard : Nat) (l : List (Insertion P Path))
    (s : Store P Path) (obs : List (BoardObs P)) (bpts : List (List Pt)) (n : Numerics V G) (w : World G) : Prop where
  range : ∀ a ∈ l, a.obs.cam < nCam ∧ a.obs.board < nBoard
  store : Store.run nCam nBoard l = .ok s
  views : Spec.Objects.SameViews s.obs obs
  models : bpts.length = nBoard
  exact : Exact w n bpts l s obs
  tail : ExactTail w n bpts s obs
  simple : Simple G l obs
  pairs : ∀ st, overlapping n bpts s obs = .ok st → StarPairs w (OMap.keys s.frames) st
  both : ∀ st, overlapping n bpts s obs = .ok st → ∀ pp, nonOverlapping n st = .ok pp →
    ∀ a b, (a, b) ∈ OMap.keys pp.pose → (b, a) ∈ OMap.keys pp.pose

/-- `w'` is the same rig and the same body of boards: camera `c` is now number `σ c`, board `b` is number `τ b`, and the
world and the body have other frames of reference. How the body moves is left open. -/
structure SameRig [Group G] (σ τ : Nat → Nat) (w w' : World G) : Prop where
  cams : ∃ q, ∀ c, w'.cam (σ c) = w.cam c * q
  boards : ∃ h, ∀ b, w'.board (τ b) = h * w.board b

/-- Pose of camera `c` relative to camera `d` in some group of the result. -/
def CamsAt [Group G] (st : State G Pt P) (c d : Nat) (T : G) : Prop :=
  ∃ i g x y, OMap.get? st.t.groups i = some g ∧ c ∈ OMap.keys g.cameras ∧ d ∈ OMap.keys g.cameras ∧
    OMap.get? g.poses c = some x ∧ OMap.get? g.poses d = some y ∧ T = x * y⁻¹

/-- Pose of board `b` relative to board `d` in some object of the result. -/
def BoardsAt [Group G] (st : State G Pt P) (b d : Nat) (T : G) : Prop :=
  ∃ i o x y, OMap.get? st.objs i = some o ∧ b ∈ OMap.keys o.boards ∧ d ∈ OMap.keys o.boards ∧
    OMap.get? o.poses b = some x ∧ OMap.get? o.poses d = some y ∧ T = y⁻¹ * x

theorem camsAt_true [Group G] {w : World G} {st : State G Pt P} (h : StateTrue w st) {c d : Nat} {T : G}
    (hT : CamsAt st c d T) : T = w.cam c * (w.cam d)⁻¹ := by
  obtain ⟨i, g, x, y, hg, hc, hd, hx, hy, rfl⟩ := hT
  rw [h.cameras i g c hg hc] at hx
  rw [h.cameras i g d hg hd] at hy
  simp only [Option.some.injEq] at hx hy
  rw [← hx, ← hy]
  group

theorem boardsAt_true [Group G] {w : World G} {st : State G Pt P} (h : StateTrue w st) {b d : Nat} {T : G}
    (hT : BoardsAt st b d T) : T = (w.board d)⁻¹ * w.board b := by
  obtain ⟨i, o, x, y, ho, hb, hd, hx, hy, rfl⟩ := hT
  rw [h.boards i o b ho hb] at hx
  rw [h.boards i o d ho hd] at hy
  simp only [Option.some.injEq] at hx hy
  rw [← hx, ← hy]
  group

/-- The two results do not disagree on any relative pose, and give the same poses to cameras and boards whose
references correspond. -/
structure Agree [Group G] (σ τ : Nat → Nat) (st st' : State G Pt P) : Prop where
  cams : ∀ c d T T', CamsAt st c d T → CamsAt st' (σ c) (σ d) T' → T' = T
  boards : ∀ b d T T', BoardsAt st b d T → BoardsAt st' (τ b) (τ d) T' → T' = T
  camPoses : ∀ i g i' g' c, OMap.get? st.t.groups i = some g → OMap.get? st'.t.groups i' = some g' →
    g'.refCam = σ g.refCam → c ∈ OMap.keys g.cameras → σ c ∈ OMap.keys g'.cameras →
    OMap.get? g'.poses (σ c) = OMap.get? g.poses c
  boardPoses : ∀ i o i' o' b, OMap.get? st.objs i = some o → OMap.get? st'.objs i' = some o' →
    o'.refBoard = τ o.refBoard → b ∈ OMap.keys o.boards → τ b ∈ OMap.keys o'.boards →
    OMap.get? o'.poses (τ b) = OMap.get? o.poses b

theorem agree_of_true [Group G] {σ τ : Nat → Nat} {w w' : World G} (hr : SameRig σ τ w w') {st st' : State G Pt P}
    (h : StateTrue w st) (h' : StateTrue w' st') : Agree σ τ st st' := by
  obtain ⟨⟨q, hq⟩, ⟨k, hk⟩⟩ := hr
  constructor
  · intro c d T T' hT hT'
    rw [camsAt_true h hT, camsAt_true h' hT', hq, hq]
    group
  · intro b d T T' hT hT'
    rw [boardsAt_true h hT, boardsAt_true h' hT', hk, hk]
    group
  · intro i g i' g' c hg hg' href hc hc'
    rw [h.cameras i g c hg hc, h'.cameras i' g' _ hg' hc', href, hq, hq]
    congr 1
    group
  · intro i o i' o' b ho ho' href hb hb'
    rw [h.boards i o b ho hb, h'.boards i' o' _ ho' hb', href, hk, hk]
    congr 1
    group

variable [Group G] [SMul G Pt] [DecidableEq P]

/-- C106: both calibrations succeed, and agree. -/
theorem C106_recordings {nCam nBoard nCam' nBoard' : Nat} {l l' : List (Insertion P Path)} {s s' : Store P Path}
    {obs obs' : List (BoardObs P)} {bpts bpts' : List (List Pt)} {n n' : Numerics V G} {w w' : World G}
    (h : Recording nCam nBoard l s obs bpts n w) (h' : Recording nCam' nBoard' l' s' obs' bpts' n' w')
    {σ τ : Nat → Nat} (hr : SameRig σ τ w w') :
    ∃ st st', workflow n bpts s obs = .ok st ∧ workflow n' bpts' s' obs' = .ok st' ∧ Agree σ τ st st' := by
  obtain ⟨st, e, t, _⟩ := C70_workflow nCam nBoard l h.range s h.store obs h.views bpts h.models n w h.exact h.tail
    h.simple h.pairs h.both
  obtain ⟨st', e', t', _⟩ := C70_workflow nCam' nBoard' l' h'.range s' h'.store obs' h'.views bpts' h'.models n' w'
    h'.exact h'.tail h'.simple h'.pairs h'.both
  exact ⟨st, st', e, e', agree_of_true hr t t'⟩

/-- C106: the same recording, calibrated twice with other draws, ties and solvers. -/
theorem C106_repeat {nCam nBoard : Nat} {l l' : List (Insertion P Path)} {s s' : Store P Path}
    {obs obs' : List (BoardObs P)} {bpts : List (List Pt)} {n n' : Numerics V G} {w : World G}
    (h : Recording nCam nBoard l s obs bpts n w) (h' : Recording nCam nBoard l' s' obs' bpts n' w) :
    ∃ st st', workflow n bpts s obs = .ok st ∧ workflow n' bpts s' obs' = .ok st' ∧ Agree id id st st' :=
  C106_recordings h h' ⟨⟨1, fun _ => (mul_one _).symm⟩, ⟨1, fun _ => (one_mul _).symm⟩⟩

end Verif.Props.Recordings
