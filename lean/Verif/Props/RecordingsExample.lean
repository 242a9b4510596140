import Verif.Props.Recordings

/-! C106: two recordings of one rig of three cameras, with other numbers of cameras and boards, other frames and motions. -/
namespace Verif.Props.Recordings.Second
open Verif Verif.Objects Verif.Groups Verif.Pipeline Verif.NonOverlap Verif.Spec.Exact Verif.Spec.Pipeline
open Verif.Spec.NonOverlap Verif.Spec.Groups Verif.Props.NonOverlap
open Verif.Props.Pipeline Verif.Props.Exact

/-- The true poses: those of the first recording with cameras 0 and 1 exchanged and boards 0 and 1 exchanged, another
world frame, another frame of the body, and another motion. -/
def w : World S3 where
  cam c := [Equiv.swap 1 2, Equiv.swap 0 1, Equiv.swap 0 2].getD c 1 * Equiv.swap 0 1
  motion f := [Equiv.swap 0 1, 1, Equiv.swap 0 2, Equiv.swap 1 2, Equiv.swap 0 1].getD f 1
  board b := Equiv.swap 1 2 * [Equiv.swap 0 1, Equiv.swap 1 2, Equiv.swap 0 1 * Equiv.swap 1 2].getD b 1

/-- In each of seven frames, camera 1 sees boards 0 and 1, camera 0 sees board 1, and camera 2 sees board 2 only. -/
def l : List (Insertion Nat Nat) :=
  (List.range 7).flatMap fun f => [det 0 f 1, det 1 f 0, det 1 f 1, det 2 f 2]

/-- All poses. -/
def all : List S3 := [1, Equiv.swap 0 1, Equiv.swap 1 2, Equiv.swap 0 2, Equiv.swap 0 1 * Equiv.swap 1 2,
  Equiv.swap 1 2 * Equiv.swap 0 1]

/-- A hand-eye solver: the first transform that explains all pairs. -/
def solve (ps : List (S3 × S3)) : Outcome S3 :=
  .ok ((all.find? fun x => all.any fun d => ps.all fun p => p.1⁻¹ * x * p.2 == d).getD 1)

def bpts : List (List (Fin 3)) := [[0], [2], [1]]

def s : Store Nat Nat := storeOf 3 3 l

/-- Camera, frame and reference board of each object observation (they are listed twice after the merge of
objects, see C17). -/
def views : List (Nat × Nat × Nat) :=
  let vs := [(0, 0), (1, 0), (2, 2)].flatMap fun c => (List.range 7).map fun f => (c.1, f, c.2)
  vs ++ vs

def n : Numerics S3 S3 where
  boardPose i := ((l[i]?).map fun a => w.cam a.obs.cam * (w.motion a.obs.frame * w.board a.obs.board)).getD 1
  objPose _ i := ((views[i]?).map fun v => w.cam v.1 * (w.motion v.2.1 * w.board v.2.2)).getD 1
  inGroup _ i f j := w.cam (2 * i) * (w.motion f * w.board (2 * j))
  board _ i b := (w.board (2 * i))⁻¹ * w.board b
  cam _ i c := w.cam c * (w.cam (2 * i))⁻¹
  avg := Props.Objects.firstOr
  avgV := Props.Objects.firstOr
  toVec g := g
  ofVec g := g
  he := solve
  choose _ _ _ _ := 0


/-- The result of a computation that succeeds. -/
def val {A : Type} (d : A) : Outcome A → A
  | .ok a => a
  | _ => d

theorem val_eq {A : Type} {d : A} {x : Outcome A} {a : A} (h : x = .ok a) : a = val d x := by rw [h]; rfl

def r0 : OMap Nat (Object S3 (Fin 3)) := val [] (buildObjects s n.boardPose n.avg bpts (n.choose 0))
def r : OMap Nat (Object S3 (Fin 3)) × List (ObjObs Nat) := val ([], []) (calibrateObjects n bpts s s.obs)
def none' : State S3 (Fin 3) Nat := ⟨[], [], { groups := [] }⟩
def g0 : State S3 (Fin 3) Nat := val none' (placeGroups n s r.1 r.2)
def g1 : State S3 (Fin 3) Nat := val none' (calibrateGroups n bpts s r.1 r.2)
def g2 : State S3 (Fin 3) Nat := val none' (joinObjects n 2 bpts s s.obs g1)
def g3 : State S3 (Fin 3) Nat := val none' (overlapping n bpts s s.obs)
def pp : PairPoses S3 := val {} (nonOverlapping n g3)
def g4 : State S3 (Fin 3) Nat := val none' (mergeGroups1 n s pp g3)
def g5 : State S3 (Fin 3) Nat := val none' (joinObjects n 4 bpts s s.obs g4)
def g6 : State S3 (Fin 3) Nat := val none' (afterMerge n bpts s s.obs pp g3)
def g7 : State S3 (Fin 3) Nat := val none' (mergeGroups2 n s pp g6)

theorem mem_of_get {A : Type} {m : OMap Nat A} {i : Nat} {a : A} (h : OMap.get? m i = some a) : (i, a) ∈ m := by
  induction m with
  | nil => cases h
  | cons e m ih =>
    obtain ⟨k, v⟩ := e
    simp only [OMap.get?] at h
    split at h
    · rename_i hk
      simp only [Option.some.injEq] at h
      rw [hk, h]
      simp
    · exact List.mem_cons_of_mem _ (ih h)

theorem boards_of {objs : OMap Nat (Object S3 (Fin 3))} (h : ∀ e ∈ objs, ∀ b ∈ OMap.keys e.2.boards,
    OMap.get? e.2.poses b = some ((w.board e.2.refBoard)⁻¹ * w.board b)) : BoardsTrue w objs :=
  fun i o b hi hb => h (i, o) (mem_of_get hi) b hb

theorem cams_of {gs : OMap Nat (CamGroup S3)} (h : ∀ e ∈ gs, ∀ c ∈ OMap.keys e.2.cameras,
    OMap.get? e.2.poses c = some (w.cam c * (w.cam e.2.refCam)⁻¹)) : CamerasTrue w gs :=
  fun i o b hi hb => h (i, o) (mem_of_get hi) b hb

theorem poses_of {objs : OMap Nat (Object S3 (Fin 3))} {oo : List (ObjObs Nat)} {pose : Nat → S3}
    (h : ∀ e ∈ oo.zipIdx, ∀ o ∈ objs, e.1.obj = o.1 →
      pose e.2 = w.cam e.1.cam * (w.motion e.1.frame * w.board o.2.refBoard)) : PosesTrue w objs oo pose := by
  intro k x o hx ho
  exact h (x, k) (List.mem_zipIdx_iff_getElem?.2 hx) (x.obj, o) (mem_of_get ho) rfl

theorem keeps_of {k : Nat} {st : State S3 (Fin 3) Nat}
    (h1 : ∀ e ∈ (val none' (refineAll n k bpts st)).objs, ∀ b ∈ OMap.keys e.2.boards,
      OMap.get? e.2.poses b = some ((w.board e.2.refBoard)⁻¹ * w.board b))
    (h2 : ∀ e ∈ (val none' (refineAll n k bpts st)).t.groups, ∀ c ∈ OMap.keys e.2.cameras,
      OMap.get? e.2.poses c = some (w.cam c * (w.cam e.2.refCam)⁻¹)) : Keeps w n k bpts st := by
  intro _ st' h
  rw [h] at h1 h2
  exact ⟨boards_of h1, cams_of h2⟩

theorem solves : Solves solve := by
  intro ps _
  refine ⟨_, rfl, ?_⟩
  rintro ⟨x', d, h⟩
  have hall : ∀ x : S3, x ∈ all := by decide +kernel
  cases hf : all.find? fun x => all.any fun d => ps.all fun p => p.1⁻¹ * x * p.2 == d with
  | none =>
    have := List.find?_eq_none.1 hf x' (hall x')
    exact absurd (by
      rw [List.any_eq_true]
      exact ⟨d, hall d, by simpa [List.all_eq_true] using fun a b hab => h (a, b) hab⟩) this
  | some x =>
    have := List.find?_some hf
    rw [List.any_eq_true] at this
    obtain ⟨d, _, hd⟩ := this
    refine ⟨d, fun p hp => ?_⟩
    have := List.all_eq_true.1 hd p hp
    simpa using this

theorem exact : Exact w n bpts l s s.obs where
  boardPose i a h := by
    show ((l[i]?).map _).getD 1 = _
    rw [h]; rfl
  avg zs x h h' := by
    cases zs with
    | nil => exact absurd rfl h
    | cons z zs => exact h' z (by simp)
  avgV zs x h h' := by
    cases zs with
    | nil => exact absurd rfl h
    | cons z zs => exact h' z (by simp)
  vec _ := rfl
  refine0 objs h _ objs' h' := by
    have := val_eq (d := []) h
    have e : objs' = val [] (refineObjects bpts (n.board 0) r0) := by
      rw [show r0 = objs from this.symm]; exact val_eq h'
    subst e
    exact boards_of (by decide +kernel)
  pose1 q h _ := by
    rw [show q = r from val_eq h]
    exact poses_of (by decide +kernel)
  refine1 q h st hst := by
    rw [show q = r from val_eq h] at hst
    rw [show st = g0 from val_eq hst]
    exact keeps_of (by decide +kernel) (by decide +kernel)
  pose2 q h st hst _ := by
    rw [show q = r from val_eq h] at hst
    rw [show st = g1 from val_eq hst]
    exact poses_of (by decide +kernel)
  refine2 q h st hst st' hst' := by
    rw [show q = r from val_eq h] at hst
    rw [show st = g1 from val_eq hst] at hst'
    rw [show st' = g2 from val_eq hst']
    exact keeps_of (by decide +kernel) (by decide +kernel)

theorem tail : ExactTail w n bpts s s.obs where
  inGroup st h _ := by
    rw [show st = g3 from val_eq h]
    intro i g j o f hg ho _
    have h1 : ∀ e ∈ g3.t.groups, e.2.refCam = 2 * e.1 := by decide +kernel
    have h2 : ∀ e ∈ g3.objs, e.2.refBoard = 2 * e.1 := by decide +kernel
    rw [h1 (i, g) (mem_of_get hg), h2 (j, o) (mem_of_get ho)]
    rfl
  he := solves
  pose4 st h p hp st1 h1 _ := by
    rw [show st = g3 from val_eq h] at hp h1
    rw [show p = pp from val_eq hp] at h1
    rw [show st1 = g4 from val_eq h1]
    exact poses_of (by decide +kernel)
  refine4 st h p hp st1 h1 st2 h2 := by
    rw [show st = g3 from val_eq h] at hp h1
    rw [show p = pp from val_eq hp] at h1
    rw [show st1 = g4 from val_eq h1] at h2
    rw [show st2 = g5 from val_eq h2]
    exact keeps_of (by decide +kernel) (by decide +kernel)
  refine5 st h p hp st3 h3 st4 h4 := by
    rw [show st = g3 from val_eq h] at hp h3
    rw [show p = pp from val_eq hp] at h3 h4
    rw [show st3 = g6 from val_eq h3] at h4
    rw [show st4 = g7 from val_eq h4]
    exact keeps_of (by decide +kernel) (by decide +kernel)

theorem coSeen {a b : Nat} (h : Relation.ReflTransGen (Spec.Objects.CoSeen l) a b) : a = 2 ↔ b = 2 := by
  induction h with
  | refl => rfl
  | tail _ h ih =>
    rw [ih]
    have : ∀ x ∈ l, ∀ y ∈ l, x.obs.cam = y.obs.cam → (x.obs.board = 2 ↔ y.obs.board = 2) := by decide +kernel
    obtain ⟨_, x, hx, y, hy, h1, _, h2, h3⟩ := h
    rw [← h2, ← h3]
    exact this x hx y hy h1

theorem linked {a b : Nat} (h : CamsLinked l s.obs a b) : (a = 0 ∧ b = 1) ∨ (a = 1 ∧ b = 0) := by
  obtain ⟨hne, x, hx, y, hy, rfl, rfl, _, _, _, h⟩ := h
  have h1 : ∀ x ∈ s.obs, x.cam ≤ 2 ∧ (x.cam = 2 ↔ x.board = 2) := by decide +kernel
  have := coSeen h
  have := h1 x hx
  have := h1 y hy
  omega

theorem linked_star {a b : Nat} (h : Relation.ReflTransGen (CamsLinked l s.obs) a b) : a = b ∨ (a ≤ 1 ∧ b ≤ 1) := by
  induction h with
  | refl => exact Or.inl rfl
  | tail _ h ih =>
    have := linked h
    omega

theorem linked01 : CamsLinked l s.obs 0 1 := by
  refine ⟨by decide, ?_⟩
  have : ∃ x ∈ s.obs, ∃ y ∈ s.obs, x.cam = 0 ∧ y.cam = 1 ∧ x.frame = y.frame ∧ x.pts ≠ [] ∧ y.pts ≠ [] ∧ x.board = y.board := by
    decide +kernel
  obtain ⟨x, hx, y, hy, h1, h2, h3, h4, h5, h6⟩ := this
  exact ⟨x, hx, y, hy, h1, h2, h3, h4, h5, h6 ▸ Relation.ReflTransGen.refl⟩

theorem linked10 : CamsLinked l s.obs 1 0 := by
  obtain ⟨_, x, hx, y, hy, h1, h2, h3, h4, h5, h6⟩ := linked01
  refine ⟨by decide, ?_⟩
  have : ∃ x ∈ s.obs, ∃ y ∈ s.obs, x.cam = 1 ∧ y.cam = 0 ∧ x.frame = y.frame ∧ x.pts ≠ [] ∧ y.pts ≠ [] ∧ x.board = y.board := by
    decide +kernel
  obtain ⟨x, hx, y, hy, h1, h2, h3, h4, h5, h6⟩ := this
  exact ⟨x, hx, y, hy, h1, h2, h3, h4, h5, h6 ▸ Relation.ReflTransGen.refl⟩

/-- All hypotheses of C70 hold in the example, whose poses do not commute. -/
theorem hypotheses :
    (∀ a ∈ l, a.obs.cam < 3 ∧ a.obs.board < 3) ∧ Store.run 3 3 l = .ok s ∧ Spec.Objects.SameViews s.obs s.obs ∧
    Exact w n bpts l s s.obs ∧ ExactTail w n bpts s s.obs ∧ Simple S3 l s.obs ∧ TwoGroups 3 l s.obs ∧
    (∀ st, overlapping n bpts s s.obs = .ok st → RichPairs w (OMap.keys s.frames) st) ∧
    (∀ st, overlapping n bpts s s.obs = .ok st → ∀ p, nonOverlapping n st = .ok p →
      ∀ a b, (a, b) ∈ OMap.keys p.pose → (b, a) ∈ OMap.keys p.pose) := by
  refine ⟨by decide +kernel, by decide +kernel, ⟨rfl, by decide +kernel⟩, exact, tail, Or.inr ?_, ?_, ?_, ?_⟩
  · intro r c h1 _ hne
    refine Or.inr fun d h2 => ?_
    have := linked_star h1
    have := linked_star h2
    omega
  · intro a ha b hb c hc
    have hv : ∀ a ∈ observingCams 3 l, a ≤ 2 := by decide +kernel
    have ha := hv a ha
    have hb := hv b hb
    have hc := hv c hc
    have key : ∀ a b, a ≤ 1 → b ≤ 1 → Relation.ReflTransGen (CamsLinked l s.obs) a b := by
      intro a b h1 h2
      have : a = b ∨ (a = 0 ∧ b = 1) ∨ (a = 1 ∧ b = 0) := by omega
      rcases this with rfl | ⟨rfl, rfl⟩ | ⟨rfl, rfl⟩
      · exact Relation.ReflTransGen.refl
      · exact Relation.ReflTransGen.single linked01
      · exact Relation.ReflTransGen.single linked10
    by_cases hab : a = b
    · exact Or.inl (hab ▸ Relation.ReflTransGen.refl)
    by_cases hac : a = c
    · exact Or.inr (Or.inl (hac ▸ Relation.ReflTransGen.refl))
    by_cases hbc : b = c
    · exact Or.inr (Or.inr (hbc ▸ Relation.ReflTransGen.refl))
    have : (a ≤ 1 ∧ b ≤ 1) ∨ (a ≤ 1 ∧ c ≤ 1) ∨ (b ≤ 1 ∧ c ≤ 1) := by omega
    rcases this with h | h | h
    · exact Or.inl (key a b h.1 h.2)
    · exact Or.inr (Or.inl (key a c h.1 h.2))
    · exact Or.inr (Or.inr (key b c h.1 h.2))
  · intro st h
    rw [show st = g3 from val_eq h]
    have key : ∀ e ∈ g3.t.groups, ∀ e' ∈ g3.t.groups, e.1 ≠ e'.1 →
        ∀ y : S3, (∀ f ∈ jointFrames g3.oo (OMap.keys s.frames) e.2 e'.2 (chosen g3.objs g3.t g3.oo e.1 e'.1),
          ∀ f' ∈ jointFrames g3.oo (OMap.keys s.frames) e.2 e'.2 (chosen g3.objs g3.t g3.oo e.1 e'.1),
            (w.motion f)⁻¹ * y * w.motion f = (w.motion f')⁻¹ * y * w.motion f') → y = 1 := by decide +kernel
    have six : ∀ e ∈ g3.t.groups, ∀ e' ∈ g3.t.groups, e.1 ≠ e'.1 →
        6 ≤ (jointFrames g3.oo (OMap.keys s.frames) e.2 e'.2 (chosen g3.objs g3.t g3.oo e.1 e'.1)).length := by decide +kernel
    intro i j gi gj hi hj hne _
    exact ⟨six (i, gi) (mem_of_get hi) (j, gj) (mem_of_get hj) hne, key (i, gi) (mem_of_get hi) (j, gj) (mem_of_get hj) hne⟩
  · intro st h p hp
    rw [show st = g3 from val_eq h] at hp
    rw [show p = pp from val_eq hp]
    have : ∀ k ∈ OMap.keys pp.pose, (k.2, k.1) ∈ OMap.keys pp.pose := by decide +kernel
    exact fun a b h => this (a, b) h


end Verif.Props.Recordings.Second

namespace Verif.Props.Recordings.Example
open Verif Verif.Objects Verif.Groups Verif.Pipeline Verif.NonOverlap Verif.Spec.Exact Verif.Spec.Pipeline
open Verif.Spec.NonOverlap Verif.Spec.Groups Verif.Props.NonOverlap Verif.Props.Pipeline
open Verif.Props.Recordings Verif.Props.Exact

/-- The first recording is that of C70. -/
theorem first : Recording 3 3 Exact.Example.l Exact.Example.s Exact.Example.s.obs Exact.Example.bpts Exact.Example.n
    Exact.Example.w := by
  obtain ⟨h1, h2, h3, h4, h5, h6, h7, h8, h9⟩ := Exact.Example.hypotheses
  exact ⟨h1, h2, h3, rfl, h4, h5, h6, fun st h => C70_two_groups 3 3 _ h1 _ h2 _ h3 _ rfl _ _ h4 h5 h6 h7 st h (h8 st h) (h9 st h), h9⟩

theorem second : Recording 3 3 Second.l Second.s Second.s.obs Second.bpts Second.n Second.w := by
  obtain ⟨h1, h2, h3, h4, h5, h6, h7, h8, h9⟩ := Second.hypotheses
  exact ⟨h1, h2, h3, rfl, h4, h5, h6, fun st h => C70_two_groups 3 3 _ h1 _ h2 _ h3 _ rfl _ _ h4 h5 h6 h7 st h (h8 st h) (h9 st h), h9⟩

/-- Numbers 0 and 1 are exchanged. -/
def σ : Nat → Nat
  | 0 => 1
  | 1 => 0
  | k => k

theorem rig : SameRig σ σ Exact.Example.w Second.w := by
  refine ⟨⟨Equiv.swap 0 1, fun c => ?_⟩, ⟨Equiv.swap 1 2, fun b => ?_⟩⟩
  · match c with
    | 0 => decide +kernel
    | 1 => decide +kernel
    | 2 => decide +kernel
    | c + 3 => simp [Exact.Example.w, Second.w, σ]
  · match b with
    | 0 => decide +kernel
    | 1 => decide +kernel
    | 2 => decide +kernel
    | b + 3 => simp [Exact.Example.w, Second.w, σ]

/-- Pose of camera `c` relative to camera `d` in group 0. -/
def rel (st : State S3 (Fin 3) Nat) (c d : Nat) : Option S3 :=
  (OMap.get? st.t.groups 0).bind fun g => (OMap.get? g.poses c).bind fun x => (OMap.get? g.poses d).map fun y => x * y⁻¹

/-- The poses of cameras are not trivial, and are the same in both recordings. -/
example : ∃ st st', workflow Exact.Example.n Exact.Example.bpts Exact.Example.s Exact.Example.s.obs = .ok st ∧
    workflow Second.n Second.bpts Second.s Second.s.obs = .ok st' ∧ Agree σ σ st st' ∧
    rel st 2 0 = some (Equiv.swap 0 2 * Equiv.swap 0 1) ∧ rel st' 2 1 = some (Equiv.swap 0 2 * Equiv.swap 0 1) := by
  obtain ⟨st, st', e, e', h⟩ := C106_recordings first second rig
  refine ⟨st, st', e, e', h, ?_, ?_⟩
  · rw [show st = Exact.Example.val Exact.Example.none' _ from Exact.Example.val_eq e]
    decide +kernel
  · rw [show st' = Second.val Second.none' _ from Second.val_eq e']
    decide +kernel

end Verif.Props.Recordings.Example
