import Verif.Spec.Majority
import Verif.Props.Trust
import Verif.Props.Rigid

/-!
C94: a minority of wrong measurements is harmless where the code takes medians, and nowhere else.

`boardMeasures`, `cameraMeasures` (Spec/Trust) are the measured relative poses of two boards and of two cameras.
-/
namespace Verif.Props.Majority
open Verif Verif.Objects Verif.Groups Verif.Structure Verif.Spec.Objects Verif.Spec.Groups Verif.Spec.Structure
open Verif.Spec.Store Verif.Spec.Trust Verif.Spec.Majority Verif.Average Verif.Props.Trust Verif.Lemmas.Average

variable {G Pt P Path : Type}

theorem _root_.Verif.Spec.Majority.Most.map {A B : Type} {p : A → Prop} {q : B → Prop} {l : List A} (f : A → B) (h : Most p l) (hpq : ∀ a, p a → q (f a)) :
    Most q (l.map f) := by
  obtain ⟨g, b, h1, h2, h3⟩ := h
  refine ⟨g.map f, b.map f, by rw [← List.map_append]; exact h1.map f, by simpa using h2, ?_⟩
  intro x hx
  obtain ⟨a, ha, rfl⟩ := List.mem_map.1 hx
  exact hpq a (h3 a ha)

theorem _root_.Verif.Spec.Majority.Most.imp {A : Type} {p q : A → Prop} {l : List A} (h : Most p l) (hpq : ∀ a, p a → q a) : Most q l := by
  obtain ⟨g, b, h1, h2, h3⟩ := h
  exact ⟨g, b, h1, h2, fun a ha => hpq a (h3 a ha)⟩

theorem _root_.Verif.Spec.Majority.Most.ne_nil {A : Type} {p : A → Prop} {l : List A} (h : Most p l) : l ≠ [] := by
  obtain ⟨g, b, h1, h2, _⟩ := h
  rintro rfl
  have := h1.length_eq
  simp at this
  omega

section
variable {K : Type} [Field K] [LinearOrder K] [IsStrictOrderedRing K]

/-- C94 (median): if more than half of the values lie between two bounds, so does the median, whatever the other values. -/
theorem C94_median (v : List K) (lo hi : K) (h : Most (fun x => lo ≤ x ∧ x ≤ hi) v) : lo ≤ median v ∧ median v ≤ hi := by
  obtain ⟨good, bad, hp, hlt, hg⟩ := h
  have hlen := hp.length_eq
  rw [List.length_append] at hlen
  constructor
  · by_contra hc
    rw [not_le] at hc
    have h1 := median_half_le v
    rw [(hp.filter _).length_eq, List.filter_append, List.length_append] at h1
    have h2 : (good.filter fun x => decide (x ≤ median v)) = [] := by
      refine List.filter_eq_nil_iff.2 fun x hx => ?_
      have := (hg x hx).1
      simp only [decide_eq_true_eq, not_le]
      exact lt_of_lt_of_le hc this
    have h3 := List.length_filter_le (fun x => decide (x ≤ median v)) bad
    rw [h2] at h1
    simp only [List.length_nil] at h1
    omega
  · by_contra hc
    rw [not_le] at hc
    have h1 := median_half_ge v
    rw [(hp.filter _).length_eq, List.filter_append, List.length_append] at h1
    have h2 : (good.filter fun x => decide (median v ≤ x)) = [] := by
      refine List.filter_eq_nil_iff.2 fun x hx => ?_
      have := (hg x hx).2
      simp only [decide_eq_true_eq, not_le]
      exact lt_of_le_of_lt this hc
    have h3 := List.length_filter_le (fun x => decide (median v ≤ x)) bad
    rw [h2] at h1
    simp only [List.length_nil] at h1
    omega

theorem median_near (ps : List (Vec6 K)) (f : Vec6 K → K) (c δ : K) (h : Most (fun u => |f u - c| ≤ δ) ps) :
    |median (ps.map f) - c| ≤ δ := by
  have := C94_median (ps.map f) (c - δ) (c + δ) (h.map f fun u hu => by
    rw [abs_le] at hu
    constructor <;> linarith [hu.1, hu.2])
  rw [abs_le]
  constructor <;> linarith [this.1, this.2]

/-- C94 (noise): if more than half of the measured relative poses are within `δ` of a pose in each of their six numbers, the
average is within `δ` of it, whatever the other measurements. -/
theorem C94_average (ps : List (Vec6 K)) (x : Vec6 K) (δ : K) (h : Most (Near δ · x) ps) : Near δ (medianPose ps) x :=
  ⟨median_near ps _ _ _ (h.imp fun u hu => hu.r1), median_near ps _ _ _ (h.imp fun u hu => hu.r2),
    median_near ps _ _ _ (h.imp fun u hu => hu.r3), median_near ps _ _ _ (h.imp fun u hu => hu.t1),
    median_near ps _ _ _ (h.imp fun u hu => hu.t2), median_near ps _ _ _ (h.imp fun u hu => hu.t3)⟩

theorem near_zero {u v : Vec6 K} : Near 0 u v ↔ u = v := by
  constructor
  · intro h
    obtain ⟨h1, h2, h3, h4, h5, h6⟩ := h
    simp only [abs_nonpos_iff, sub_eq_zero] at *
    cases u
    cases v
    simp_all
  · rintro rfl
    constructor <;> simp

/-- C94 (exact): if more than half of the measured relative poses are one and the same pose, the average is that pose. -/
theorem C94_exact (toVec : G → Vec6 K) (ofVec : Vec6 K → G) (hv : ∀ g, ofVec (toVec g) = g) (zs : List G) (x : G)
    (h : Most (· = x) zs) : interAverage toVec ofVec zs = x := by
  have := C94_average (zs.map toVec) (toVec x) 0 (h.map toVec fun a ha => by rw [ha]; exact near_zero.2 rfl)
  unfold interAverage
  rw [near_zero.1 this, hv]

/-- C94 (exactly half is not enough): of two measurements, a wrong one moves the result by half of its error. -/
theorem C94_half (u v : Vec6 K) : medianPose [u, v] = ⟨(u.r1 + v.r1) / 2, (u.r2 + v.r2) / 2, (u.r3 + v.r3) / 2,
    (u.t1 + v.t1) / 2, (u.t2 + v.t2) / 2, (u.t3 + v.t3) / 2⟩ := by
  have h : ∀ a b : K, median [a, b] = (a + b) / 2 := by
    intro a b
    obtain ⟨x, y, h1, h2, h3⟩ := median_mid [a, b] (by simp)
    rw [h3]
    simp only [List.insertionSort_cons, List.insertionSort_nil, List.orderedInsert_cons, List.orderedInsert_nil] at h1 h2
    split at h1 <;> simp_all [add_comm]
  simp only [medianPose, List.map_cons, List.map_nil, h]

theorem sum_replicate (n : Nat) (a b : K) : ((List.replicate n a ++ [b]).foldl (· + ·) 0) = n * a + b := by
  rw [← List.sum_eq_foldl, List.sum_append, List.sum_replicate, List.sum_singleton, nsmul_eq_mul]

/-- C94 (means): the translation of an object in a camera group is a mean: a single wrong camera among `n` others that agree
moves it by its error divided by `n + 1`, so that no bound on the error holds. -/
theorem C94_mean (n : Nat) (x y : Vec6 K) :
    (groupAverageVec (List.replicate n x ++ [y])).t1 = x.t1 + (y.t1 - x.t1) / (n + 1) ∧
    (groupAverageVec (List.replicate n x ++ [y])).t2 = x.t2 + (y.t2 - x.t2) / (n + 1) ∧
    (groupAverageVec (List.replicate n x ++ [y])).t3 = x.t3 + (y.t3 - x.t3) / (n + 1) := by
  have hn : (n : K) + 1 ≠ 0 := by
    have : (0 : K) ≤ n := Nat.cast_nonneg n
    linarith
  simp only [groupAverageVec, List.map_append, List.map_replicate, List.map_cons, List.map_nil, sum_replicate, List.length_append,
    List.length_replicate, List.length_singleton, Nat.cast_add, Nat.cast_one]
  refine ⟨?_, ?_, ?_⟩ <;> field_simp <;> ring

end

theorem chain_zip {A : Type} {r : A → A → Prop} {p : List A} (h : p.IsChain r) : ∀ e ∈ p.zip p.tail, r e.1 e.2 := by
  induction p with
  | nil => intro e he; simp at he
  | cons a p ih =>
    cases p with
    | nil => intro e he; simp at he
    | cons b p =>
      intro e he
      rw [List.isChain_cons_cons] at h
      simp only [List.tail_cons, List.zip_cons_cons, List.mem_cons] at he
      rcases he with rfl | he
      · exact h.1
      · exact ih h.2 e he

section Boards
variable {K : Type} [Field K] [LinearOrder K] [IsStrictOrderedRing K] [Group G] [SMul G Pt] (nCam nBoard : Nat)
  (l : List (Insertion P Path)) (hl : ∀ a ∈ l, a.obs.cam < nCam ∧ a.obs.board < nBoard) (s : Store P Path)
  (hs : Store.run nCam nBoard l = .ok s) (pose : Nat → G) (toVec : G → Vec6 K) (ofVec : Vec6 K → G)
  (hv : ∀ g, ofVec (toVec g) = g) (bpts : List (List Pt)) (hb : bpts.length = nBoard)
  (choose : Nat → Nat → Graph.DState → Nat)

include hl hs hb hv in
/-- C94 (boards): if of any two boards seen together more than half of the measured relative poses are the true one, all
boards are at their true poses in their objects, however wrong the other measurements are. -/
theorem C94_boards (Q : Nat → G)
    (hQ : ∀ a b, CoSeen l a b → Most (· = (Q b)⁻¹ * Q a) (boardMeasures l pose a b)) (objs : OMap Nat (Object G Pt))
    (ho : buildObjects s pose (interAverage toVec ofVec) bpts choose = .ok objs) (i : Nat) (o : Object G Pt)
    (hio : OMap.get? objs i = some o) (b : Nat) (hbo : b ∈ OMap.keys o.boards) :
    OMap.get? o.poses b = some ((Q o.refBoard)⁻¹ * Q b) := by
  obtain ⟨p, h1, _, h3⟩ := C79_boards nCam nBoard l hl s hs pose _ bpts hb choose (C79_average toVec ofVec hv).1 objs ho i o hio b hbo
  rw [h3, ← Structure.prod_telescope Q p _ _ h1.head h1.last]
  congr 2
  refine List.map_congr_left fun e he => ?_
  rw [C94_exact toVec ofVec hv _ _ (hQ e.1 e.2 (chain_zip h1.chain e he)), mul_inv_rev, inv_inv]

end Boards

section Cameras
variable {K : Type} [Field K] [LinearOrder K] [IsStrictOrderedRing K] [Group G] [SMul G Pt] (nCam nBoard : Nat)
  (l : List (Insertion P Path)) (hl : ∀ a ∈ l, a.obs.cam < nCam ∧ a.obs.board < nBoard) (s : Store P Path)
  (hs : Store.run nCam nBoard l = .ok s) (obs' : List (BoardObs P)) (hobs : Spec.Objects.SameViews s.obs obs')
  (bpts : List (List Pt)) (objs : OMap Nat (Object G Pt)) (hC : Spec.Objects.Collection bpts objs) (oo : List (ObjObs P))
  (hoo : initAllObjectObs { s with obs := obs' } objs [] = .ok oo) (pose : Nat → G) (toVec : G → Vec6 K) (ofVec : Vec6 K → G)
  (hv : ∀ g, ofVec (toVec g) = g) (choose : Nat → Nat → Graph.DState → Nat)

include hl hs hobs hC hoo hv in
/-- C94 (cameras): a camera that saw objects together with the reference camera of its group at least twice is placed within
`δ` of its true pose, in each of the six numbers, if more than half of these measurements are within `δ` of it; in
particular it is at its true pose if more than half of them are exact (`δ = 0`). -/
theorem C94_cameras (gs : OMap Nat (CamGroup G)) (hg : buildGroups s oo pose (interAverage toVec ofVec) choose = .ok gs) (i : Nat)
    (g : CamGroup G) (hi : OMap.get? gs i = some g) (c : Nat) (hne : c ≠ g.refCam)
    (hdir : 2 ≤ (cameraMeasures oo pose g.refCam c).length) (x : G) (δ : K)
    (hx : Most (fun z => Near δ (toVec z) (toVec x)) (cameraMeasures oo pose g.refCam c)) :
    ∃ v, OMap.get? g.poses c = some (ofVec v) ∧ Near δ v (toVec x) ∧ (δ = 0 → OMap.get? g.poses c = some x) := by
  have h := C80_cameras nCam nBoard l hl s hs obs' hobs bpts objs hC oo hoo pose _ choose (C79_average toVec ofVec hv).1 gs hg i g hi c hne
    (.inl hdir)
  have hn := C94_average _ (toVec x) δ (hx.map toVec fun z hz => hz)
  refine ⟨_, h, hn, ?_⟩
  rintro rfl
  rw [h]
  show some (ofVec _) = _
  rw [near_zero.1 hn, hv]

end Cameras

/-! Concrete cases: poses are translations along one axis. -/

/-- Boards 0 and 1 are seen together three times, boards 1 and 2 once. -/
def demo : List (Insertion Nat Nat) :=
  [⟨⟨0, 0, 0, [7], [0]⟩, 0⟩, ⟨⟨0, 0, 1, [8], [0]⟩, 0⟩, ⟨⟨0, 1, 0, [7], [0]⟩, 0⟩, ⟨⟨0, 1, 1, [8], [0]⟩, 0⟩,
   ⟨⟨0, 2, 0, [7], [0]⟩, 0⟩, ⟨⟨0, 2, 1, [8], [0]⟩, 0⟩, ⟨⟨0, 3, 1, [7], [0]⟩, 0⟩, ⟨⟨0, 3, 2, [8], [0]⟩, 0⟩]

/-- In frame 2 the pose of board 1 is grossly wrong. -/
def demoPose (i : Nat) : Shift := Multiplicative.ofAdd (([0, 10, 5, 15, 0, 1000, 7, 19] : List ℚ)[i]?.getD 0)

def place (b : Nat) : Shift := Multiplicative.ofAdd (([0, 10, 22] : List ℚ)[b]?.getD 0)

theorem demo_most (a b : Nat) (h : CoSeen demo a b) : Most (· = (place b)⁻¹ * place a) (boardMeasures demo demoPose a b) := by
  obtain ⟨hne, x, hx, y, hy, e1, e2, rfl, rfl⟩ := h
  have : ∀ x ∈ demo, ∀ y ∈ demo, x.obs.cam = y.obs.cam → x.obs.frame = y.obs.frame → x.obs.board ≠ y.obs.board →
      (x.obs.board, y.obs.board) = (0, 1) ∨ (x.obs.board, y.obs.board) = (1, 0) ∨ (x.obs.board, y.obs.board) = (1, 2) ∨
      (x.obs.board, y.obs.board) = (2, 1) := by decide
  have hk := this x hx y hy (by omega) (by omega) (by omega)
  simp only [Prod.mk.injEq] at hk
  rcases hk with ⟨h1, h2⟩ | ⟨h1, h2⟩ | ⟨h1, h2⟩ | ⟨h1, h2⟩ <;> rw [h1, h2]
  · exact ⟨[Multiplicative.ofAdd (-10), Multiplicative.ofAdd (-10)], [Multiplicative.ofAdd (-1000)], by decide +kernel, by decide,
      by decide +kernel⟩
  · exact ⟨[Multiplicative.ofAdd 10, Multiplicative.ofAdd 10], [Multiplicative.ofAdd 1000], by decide +kernel, by decide,
      by decide +kernel⟩
  · exact ⟨[Multiplicative.ofAdd (-12)], [], by decide +kernel, by decide, by decide +kernel⟩
  · exact ⟨[Multiplicative.ofAdd 12], [], by decide +kernel, by decide, by decide +kernel⟩

/-- All boards of the object are at their true places. -/
example : ∃ s objs, Store.run 1 3 demo = .ok s ∧
    buildObjects s demoPose shiftAvg ([[0], [0], [0]] : List (List ℚ)) (fun _ _ _ => 0) = .ok objs ∧
    ∀ i o, OMap.get? objs i = some o → ∀ b ∈ OMap.keys o.boards, OMap.get? o.poses b = some ((place o.refBoard)⁻¹ * place b) := by
  have hl : ∀ a ∈ demo, a.obs.cam < 1 ∧ a.obs.board < 3 := by decide
  obtain ⟨s, hs, hd⟩ := Props.Store.C06_indexes 1 3 demo hl
  obtain ⟨objs, h1, _⟩ := Lemmas.Objects.buildObjects_ok (G := Shift) (Pt := ℚ) hl hd demoPose shiftAvg [[0], [0], [0]] rfl
    (fun _ _ _ => 0)
  exact ⟨s, objs, hs, h1, fun i o hi b hb => C94_boards 1 3 demo hl s hs demoPose _ _ (fun _ => rfl) _ rfl _ place demo_most objs h1 i o hi b hb⟩

/-- The hypothesis of the theorem about cameras: one of three measurements is wrong, the others have small errors. -/
example : Most (fun z : Shift => Near (1 / 10 : ℚ) ⟨0, 0, 0, z.toAdd, 0, 0⟩ ⟨0, 0, 0, 5, 0, 0⟩)
    [Multiplicative.ofAdd (51 / 10), Multiplicative.ofAdd (-70), Multiplicative.ofAdd (49 / 10)] := by
  refine ⟨[Multiplicative.ofAdd (51 / 10), Multiplicative.ofAdd (49 / 10)], [Multiplicative.ofAdd (-70)], by decide +kernel, by decide, ?_⟩
  intro a ha
  simp only [List.mem_cons, List.not_mem_nil, or_false] at ha
  rcases ha with rfl | rfl
  · constructor <;> norm_num [abs_le]
  · constructor <;> norm_num [abs_le]

end Verif.Props.Majority
