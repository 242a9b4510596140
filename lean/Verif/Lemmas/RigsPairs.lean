import Verif.Lemmas.Rigs

/-! The search for the transforms between the rigs. -/
namespace Verif.Lemmas.Rigs
open Verif Verif.Objects Verif.Groups Verif.NonOverlap Verif.Pipeline Verif.Spec.Pipeline
open Verif.Spec.Exact Verif.Spec.Structure Verif.Lemmas.Pipeline Verif.Lemmas.Program Verif.Lemmas.Rooted
open Verif.Spec.Rigs Verif.Spec.Objects Verif.Spec.Groups Verif.Spec.NonOverlap
open Verif.Props.NonOverlap Verif.Props.Exact
open Relation

variable {V G Pt P Path : Type}

theorem seenIn_pos {oo : List (ObjObs P)} {g : CamGroup G} {f a : Nat} :
    0 < seenIn oo g f a ↔ ∃ x ∈ oo, x.frame = f ∧ x.cam ∈ OMap.keys g.cameras ∧ x.obj = a := by
  unfold seenIn
  rw [List.length_pos_iff_exists_mem]
  simp only [List.mem_filter, Bool.and_eq_true, beq_iff_eq, decide_eq_true_eq]
  constructor
  · rintro ⟨x, hx, ⟨h1, h2⟩, h3⟩
    exact ⟨x, hx, h1, h2, h3⟩
  · rintro ⟨x, hx, h1, h2, h3⟩
    exact ⟨x, hx, ⟨h1, h2⟩, h3⟩

theorem joint_pos {oo : List (ObjObs P)} {frames : List Nat} {g g' : CamGroup G} {q : Nat × Nat} :
    0 < jointSightings oo frames g g' q ↔ ∃ f ∈ frames, 0 < seenIn oo g f q.1 ∧ 0 < seenIn oo g' f q.2 := by
  unfold jointSightings
  constructor
  · intro h
    by_contra hno
    have : (frames.map fun f => seenIn oo g f q.1 * seenIn oo g' f q.2).sum = 0 := by
      rw [List.sum_eq_zero_iff]
      intro x hx
      obtain ⟨f, hf, rfl⟩ := List.mem_map.1 hx
      rw [Nat.mul_eq_zero]
      by_contra h2
      exact hno ⟨f, hf, by omega, by omega⟩
    omega
  · rintro ⟨f, hf, h1, h2⟩
    have := List.single_le_sum (l := frames.map fun f => seenIn oo g f q.1 * seenIn oo g' f q.2) (by simp) _
      (List.mem_map.2 ⟨f, hf, rfl⟩)
    have := Nat.mul_pos h1 h2
    omega

section
variable [Group G] [MulAction G Pt] [DecidableEq P] (nCam nBoard : Nat) (l : List (Insertion P Path))
  (hl : ∀ a ∈ l, a.obs.cam < nCam ∧ a.obs.board < nBoard) (s : Store P Path)
  (hs : Store.run nCam nBoard l = .ok s) (hpts : ∀ a ∈ l, a.obs.pts ≠ [])
  (hobs : SameViews s.obs s.obs) (bpts : List (List Pt)) (hb : bpts.length = nBoard) (n : Numerics V G)
  {fc fb : Nat → Nat} {cs bs : List Nat} (hT : Rigs nCam nBoard l fc fb cs bs)

include hl hs hobs hb hT hpts in
/-- In every frame in which a rig has a detection, its group has an observation. -/
theorem seen_by (st : State G Pt P) (hst : overlapping n bpts s s.obs = .ok st) {i : Nat} {g : CamGroup G}
    (hg : OMap.get? st.t.groups i = some g) {f : Nat} (hf : InFrame l fc g.refCam f) :
    f ∈ OMap.keys s.frames ∧ ∃ x ∈ st.oo, x.frame = f ∧ x.cam ∈ OMap.keys g.cameras := by
  obtain ⟨hA, -, -⟩ := overlapping_apart nCam nBoard l hl s hs hobs bpts hb n hT st hst
  obtain ⟨_, j1, j2, j3⟩ := Lemmas.FinishRun.overlapping_joins nCam nBoard l hl s hs s.obs hobs bpts hb n st hst
  have hC := hA.consistent
  obtain ⟨a, ha, rfl, e⟩ := hf
  have hm : a.obs ∈ s.obs := by rw [(store_desc nCam nBoard l hl s hs).obs]; exact List.mem_map_of_mem ha
  obtain ⟨x, hx, x1, x2⟩ := (Lemmas.FinishRun.views hC j1.boards a.obs.cam a.obs.frame).2 ⟨_, hm, rfl, rfl, hpts a ha⟩
  obtain ⟨o, ho, hsee⟩ := (hC.sees x.obj x.cam x.frame).1 ⟨x, hx, rfl, rfl, rfl⟩
  obtain ⟨j, g', hg', hc⟩ := j2 _ hm (hpts a ha)
  have hji : j = i := by
    have e1 := hA.cams.ref hC.groups hg' hc
    rw [e] at e1
    exact hC.groups.disjoint j i g' g hg' hg g'.refCam (hC.groups.ref_mem j g' hg') (e1 ▸ hC.groups.ref_mem i g hg)
  subst hji
  rw [hg] at hg'
  cases hg'
  refine ⟨?_, x, hx, x2, by rw [x1]; exact hc⟩
  rw [← x2]
  exact sees_frame nCam nBoard l hl s hs s.obs hobs o x.cam x.frame hsee

include hl hs hobs hb hT hpts in
/-- The frames used for the transform between two groups are those in which both rigs have a detection. -/
theorem joint_used (st : State G Pt P) (hst : overlapping n bpts s s.obs = .ok st) {i j : Nat} {gi gj : CamGroup G}
    (hi : OMap.get? st.t.groups i = some gi) (hj : OMap.get? st.t.groups j = some gj) (hij : i ≠ j) (f : Nat) :
    f ∈ jointFrames st.oo (OMap.keys s.frames) gi gj (chosen st.objs st.t st.oo i j) ↔
      InFrame l fc gi.refCam f ∧ InFrame l fc gj.refCam f := by
  obtain ⟨hA, -, -⟩ := overlapping_apart nCam nBoard l hl s hs hobs bpts hb n hT st hst
  have hC := hA.consistent
  have hfr := frames_sorted nCam nBoard l hl s hs
  constructor
  · intro h
    unfold jointFrames at h
    simp only [List.mem_filter, Bool.and_eq_true, decide_eq_true_eq] at h
    have side : ∀ k (g : CamGroup G) a, OMap.get? st.t.groups k = some g → 0 < seenIn st.oo g f a → InFrame l fc g.refCam f := by
      intro k g a hg h
      obtain ⟨x, hx, x1, x2, _⟩ := seenIn_pos.1 h
      obtain ⟨a, ha, a1, a2, _⟩ := detected nCam nBoard l hl s hs bpts hC hx
      exact ⟨a, ha, by rw [a2, x1], by rw [a1, hA.cams.ref hC.groups hg x2]⟩
    exact ⟨side i gi _ hi h.2.1, side j gj _ hj h.2.2⟩
  rintro ⟨f1, f2⟩
  obtain ⟨p, p1, p2, p3⟩ := C21_choice st.oo (OMap.keys s.frames) hfr st.t hC.groups hC.groupObs hC.lists st.objs i j hij gi gj hi hj
  have ep : chosen st.objs st.t st.oo i j = p := by unfold chosen; rw [p1]; rfl
  obtain ⟨hff, x, hx, x1, x2⟩ := seen_by nCam nBoard l hl s hs hpts hobs bpts hb n hT st hst hi f1
  obtain ⟨_, y, hy, y1, y2⟩ := seen_by nCam nBoard l hl s hs hpts hobs bpts hb n hT st hst hj f2
  obtain ⟨hpos, _⟩ := p3 ⟨(x.obj, y.obj), joint_pos.2 ⟨f, hff, seenIn_pos.2 ⟨x, hx, x1, x2, rfl⟩, seenIn_pos.2 ⟨y, hy, y1, y2, rfl⟩⟩⟩
  obtain ⟨f', _, h1, h2⟩ := joint_pos.1 hpos
  obtain ⟨x', hx', _, z1, z2⟩ := seenIn_pos.1 h1
  obtain ⟨y', hy', _, w1, w2⟩ := seenIn_pos.1 h2
  have e1 : x.obj = p.1 := by
    rw [← z2]
    refine one_object nCam nBoard l hl s hs bpts hT hA hx hx' ?_
    rw [← hA.cams.ref hC.groups hi x2, ← hA.cams.ref hC.groups hi z1]
  have e2 : y.obj = p.2 := by
    rw [← w2]
    refine one_object nCam nBoard l hl s hs bpts hT hA hy hy' ?_
    rw [← hA.cams.ref hC.groups hj y2, ← hA.cams.ref hC.groups hj w1]
  rw [ep]
  unfold jointFrames
  simp only [List.mem_filter, Bool.and_eq_true, decide_eq_true_eq]
  exact ⟨hff, seenIn_pos.2 ⟨x, hx, x1, x2, e1⟩, seenIn_pos.2 ⟨y, hy, y1, y2, e2⟩⟩

include hl hs hobs hb hT hpts in
/-- Their number is at least that of any such frames. -/
theorem joint_length (st : State G Pt P) (hst : overlapping n bpts s s.obs = .ok st) {i j : Nat} {gi gj : CamGroup G}
    (hi : OMap.get? st.t.groups i = some gi) (hj : OMap.get? st.t.groups j = some gj) (hij : i ≠ j) {fs : List Nat}
    (hJ : Joint l fc gi.refCam gj.refCam fs) (hnd : fs.Nodup) :
    fs.length ≤ (jointFrames st.oo (OMap.keys s.frames) gi gj (chosen st.objs st.t st.oo i j)).length :=
  (hnd.subperm fun f hf => (joint_used nCam nBoard l hl s hs hpts hobs bpts hb n hT st hst hi hj hij f).2 (hJ f hf)).length_le

include hl hs hobs hb hT hpts in
theorem joint_list (st : State G Pt P) (hst : overlapping n bpts s s.obs = .ok st) {i j : Nat} {gi gj : CamGroup G}
    (hi : OMap.get? st.t.groups i = some gi) (hj : OMap.get? st.t.groups j = some gj) (hij : i ≠ j) :
    Joint l fc gi.refCam gj.refCam (jointFrames st.oo (OMap.keys s.frames) gi gj (chosen st.objs st.t st.oo i j)) ∧
      (jointFrames st.oo (OMap.keys s.frames) gi gj (chosen st.objs st.t st.oo i j)).Nodup :=
  ⟨fun f hf => (joint_used nCam nBoard l hl s hs hpts hobs bpts hb n hT st hst hi hj hij f).1 hf,
    ((frames_sorted nCam nBoard l hl s hs).imp Nat.ne_of_lt).filter _⟩

include hl hs hobs hb hT hpts in
/-- The transforms found are symmetric. -/
theorem symmetric (st : State G Pt P)
    (hst : overlapping n bpts s s.obs = .ok st) (pp : PairPoses G) (hpp : nonOverlapping n st = .ok pp) (a b : Nat)
    (hab : (a, b) ∈ OMap.keys pp.pose) : a ≠ b ∧ (b, a) ∈ OMap.keys pp.pose := by
  obtain ⟨hA, -, -⟩ := overlapping_apart nCam nBoard l hl s hs hobs bpts hb n hT st hst
  have hC := hA.consistent
  have hfr := frames_sorted nCam nBoard l hl s hs
  unfold nonOverlapping at hpp
  have hrec := fun a b => (C22_recorded st.oo (OMap.keys s.frames) hfr st.t hC.groups hC.groupObs hC.lists st.objs n.ofVec _ n.he [] pp
    List.Pairwise.nil hpp a b).1
  obtain ⟨hne, g1, g2, h1, h2, hlen⟩ := (hrec a b).1 hab
  refine ⟨hne, (hrec b a).2 ⟨hne.symm, g2, g1, h2, h1, ?_⟩⟩
  obtain ⟨q1, q2⟩ := joint_list nCam nBoard l hl s hs hpts hobs bpts hb n hT st hst h1 h2 hne
  exact Nat.lt_of_lt_of_le hlen (joint_length nCam nBoard l hl s hs hpts hobs bpts hb n hT st hst h2 h1 hne.symm
    (fun f hf => (q1 f hf).symm) q2)

end

section
variable [Group G] [MulAction G Pt] [DecidableEq P] (nCam nBoard : Nat) (l : List (Insertion P Path))
  (hl : ∀ a ∈ l, a.obs.cam < nCam ∧ a.obs.board < nBoard) (s : Store P Path)
  (hs : Store.run nCam nBoard l = .ok s) (hpts : ∀ a ∈ l, a.obs.pts ≠ [])
  (hobs : SameViews s.obs s.obs) (bpts : List (List Pt)) (hb : bpts.length = nBoard) (n : Numerics V G)
  {fc fb : Nat → Nat} {c0 b0 : Nat} {cs bs : List Nat} (hT : Rigs nCam nBoard l fc fb (c0 :: cs) (b0 :: bs))
  {w : World G} (hJ : Around w l fc c0 cs)

/-- A number other than 0. -/
theorem get_tail {x : Nat} {xs : List Nat} {i y : Nat} (h0 : i ≠ 0) (h : (x :: xs)[i]? = some y) : y ∈ xs := by
  obtain ⟨k, rfl⟩ := Nat.exists_eq_succ_of_ne_zero h0
  rw [List.getElem?_cons_succ] at h
  exact List.mem_of_getElem? h

include hl hs hobs hb hT hpts hJ in
/-- Every other group shares enough frames with the first. -/
theorem hub (st : State G Pt P) (hst : overlapping n bpts s s.obs = .ok st) {g0 gj : CamGroup G} {j : Nat}
    (h0 : OMap.get? st.t.groups 0 = some g0) (hj : OMap.get? st.t.groups j = some gj) (hne : j ≠ 0) :
    6 ≤ (jointFrames st.oo (OMap.keys s.frames) g0 gj (chosen st.objs st.t st.oo 0 j)).length ∧
      Rich w (jointFrames st.oo (OMap.keys s.frames) g0 gj (chosen st.objs st.t st.oo 0 j)) := by
  have hB := table nCam nBoard l hl s hs hpts hobs bpts hb n hT st hst
  have e0 : c0 = g0.refCam := Option.some.inj (hB.groups 0 g0 h0)
  obtain ⟨fs, k1, k2, k3, k4⟩ := hJ.hub _ (get_tail hne (hB.groups j gj hj))
  rw [e0] at k1
  refine ⟨k3.trans (joint_length nCam nBoard l hl s hs hpts hobs bpts hb n hT st hst h0 hj hne.symm k1 k2), fun y hy => ?_⟩
  have hin := fun f hf => (joint_used nCam nBoard l hl s hs hpts hobs bpts hb n hT st hst h0 hj hne.symm f).2 (k1 f hf)
  exact k4 y fun f hf f' hf' => hy f (hin f hf) f' (hin f' hf')

include hl hs hobs hb hT hpts hJ in
/-- The pairs of groups form a star around the first. -/
theorem star (st : State G Pt P) (hst : overlapping n bpts s s.obs = .ok st) : StarPairs w (OMap.keys s.frames) st := by
  have hB := table nCam nBoard l hl s hs hpts hobs bpts hb n hT st hst
  obtain ⟨g0, hg0, -⟩ := hB.group 0 c0 rfl
  have hjl := fun {i j : Nat} {gi gj : CamGroup G} (hi : OMap.get? st.t.groups i = some gi)
    (hj : OMap.get? st.t.groups j = some gj) (hij : i ≠ j) => joint_list nCam nBoard l hl s hs hpts hobs bpts hb n hT st hst hi hj hij
  refine ⟨fun i j gi gj hi hj hij h3 => ?_, fun j g0' gj h0 hj hne _ => ?_, fun _ _ _ _ _ _ _ _ k gk hk hne _ => ⟨g0, hg0, ?_⟩⟩
  · by_cases h0 : i = 0
    · subst h0
      exact (hub nCam nBoard l hl s hs hpts hobs bpts hb n hT hJ st hst hi hj hij.symm).1
    by_cases h0' : j = 0
    · subst h0'
      obtain ⟨q1, q2⟩ := hjl hj hi hij.symm
      exact (hub nCam nBoard l hl s hs hpts hobs bpts hb n hT hJ st hst hj hi hij).1.trans
        (joint_length nCam nBoard l hl s hs hpts hobs bpts hb n hT st hst hi hj hij (fun f hf => (q1 f hf).symm) q2)
    obtain ⟨q1, q2⟩ := hjl hi hj hij
    obtain ⟨fs, k1, k2, k3⟩ := hJ.others _ (get_tail h0 (hB.groups i gi hi)) _ (get_tail h0' (hB.groups j gj hj)) (fun e => by
      obtain ⟨hA, -, -⟩ := overlapping_apart nCam nBoard l hl s hs hobs bpts hb n hT st hst
      have hC := hA.consistent.groups
      exact hij (hC.disjoint i j gi gj hi hj _ (hC.ref_mem i gi hi) (e ▸ hC.ref_mem j gj hj))) _ q1 q2 h3
    exact k3.trans (joint_length nCam nBoard l hl s hs hpts hobs bpts hb n hT st hst hi hj hij k1 k2)
  · exact (hub nCam nBoard l hl s hs hpts hobs bpts hb n hT hJ st hst h0 hj hne).2
  · exact Nat.lt_of_lt_of_le (by decide) (hub nCam nBoard l hl s hs hpts hobs bpts hb n hT hJ st hst hg0 hk hne).1

include hl hs hobs hb hT hpts hJ in
/-- All groups have a transform to and from the first. -/
theorem recorded (st : State G Pt P) (hst : overlapping n bpts s s.obs = .ok st) (pp : PairPoses G)
    (hpp : nonOverlapping n st = .ok pp) {j : Nat} (hj : j ∈ OMap.keys st.t.groups) (hne : j ≠ 0) :
    (0, j) ∈ OMap.keys pp.pose ∧ (j, 0) ∈ OMap.keys pp.pose := by
  obtain ⟨hA, -, -⟩ := overlapping_apart nCam nBoard l hl s hs hobs bpts hb n hT st hst
  have hC := hA.consistent
  obtain ⟨g0, hg0, -⟩ := (table nCam nBoard l hl s hs hpts hobs bpts hb n hT st hst).group 0 c0 rfl
  obtain ⟨gj, hgj⟩ := OMap.mem_keys.1 hj
  have h0 : (0, j) ∈ OMap.keys pp.pose := by
    unfold nonOverlapping at hpp
    refine ((C22_recorded st.oo (OMap.keys s.frames) (frames_sorted nCam nBoard l hl s hs) st.t hC.groups hC.groupObs hC.lists
      st.objs n.ofVec _ n.he [] pp List.Pairwise.nil hpp 0 j).1).2 ⟨hne.symm, g0, gj, hg0, hgj, ?_⟩
    exact Nat.lt_of_lt_of_le (by decide) (hub nCam nBoard l hl s hs hpts hobs bpts hb n hT hJ st hst hg0 hgj hne).1
  exact ⟨h0, (symmetric nCam nBoard l hl s hs hpts hobs bpts hb n hT st hst pp hpp 0 j h0).2⟩

end
end Verif.Lemmas.Rigs
