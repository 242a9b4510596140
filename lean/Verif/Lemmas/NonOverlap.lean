import Verif.Lemmas.ObjectPairs
import Verif.Spec.NonOverlap

namespace Verif.Lemmas.NonOverlap
open Verif Verif.NonOverlap Verif.GroupPose Verif.Groups Verif.Objects Verif.Structure
open Verif.Spec.Store Verif.Spec.Groups Verif.Spec.NonOverlap Verif.Spec.Structure
open Verif.Lemmas.Structure Verif.Lemmas.Groups Verif.Lemmas.Objects Relation

variable {V G Pt P Path : Type}

theorem merge_listsCover [Group G] (oo : List (ObjObs P)) (frames : List Nat) (hnd : frames.Nodup)
    (t0 t : GroupTables G) (hC : Collection t0.groups)
    (hfs : ∀ i g, OMap.get? t0.groups i = some g → OMap.Sorted g.frames)
    (ht : mergeAllCameraGroupObs oo frames t0 = .ok t) : ListsCover t := by
  have hid : ∀ e ∈ t0.groups, e.2.id = e.1 := fun e he =>
    hC.id e.1 e.2 ((OMap.get?_eq_some hC.sorted).2 he)
  obtain ⟨t', h1, h2⟩ := groupsDone oo frames hnd t0.groups hC.sorted hfs (OMap.keys t0.groups)
    (OMap.keys_nodup hC.sorted) fun i hi => hi
  unfold mergeAllCameraGroupObs at ht
  rw [initAllCameraGroupObs_eq oo frames { groups := t0.groups } hid] at ht
  rw [h1] at ht
  simp only [Outcome.ok.injEq] at ht
  subst ht
  refine ⟨h2.frames_sorted, ?_, ?_⟩
  · intro i g f is hg his
    obtain ⟨hd, g0, hg0, hf, rfl, hne⟩ := (h2.obs i f is).1 his
    exact (h2.group_frames i g g0 hg hg0 hd f).2 (Or.inr ⟨hf, hne⟩)
  · intro i g f is hg his
    obtain ⟨hd, g0, hg0, hf, rfl, hne⟩ := (h2.obs i f is).1 his
    have := h2.groups i
    rw [hg, hg0, Option.map_some, if_pos hd, Option.some.injEq] at this
    rw [this]
    dsimp only
    intro h
    obtain ⟨x, hx⟩ := List.exists_mem_of_ne_nil _ hne
    have hmem : x ∈ g0.objObs ++ frames.flatMap (groupSees oo g0.camIdx) :=
      List.mem_append_right _ (List.mem_flatMap.2 ⟨f, hf, hx⟩)
    rw [h] at hmem
    cases hmem

/-! ### Counting -/

/-- Value of a count. -/
def cntOf (m : OMap (Nat × Nat) Nat) (q : Nat × Nat) : Nat := (OMap.get? m q).getD 0

theorem countObs_spec (a b : Nat) (m : OMap (Nat × Nat) Nat) (hm : OMap.Sorted m) :
    OMap.Sorted (countObs a m b) ∧ ∀ q, cntOf (countObs a m b) q = cntOf m q + if q = (a, b) then 1 else 0 := by
  unfold countObs OMap.modify
  refine ⟨OMap.sorted_set _ _ _ hm, fun q => ?_⟩
  unfold cntOf
  rw [OMap.get?_set _ _ _ _ hm]
  by_cases h : q = (a, b)
  · subst h; simp
  · simp [h]

theorem countRow_spec (a : Nat) (bs : List Nat) (m : OMap (Nat × Nat) Nat) (hm : OMap.Sorted m) :
    OMap.Sorted (bs.foldl (countObs a) m) ∧ ∀ q, cntOf (bs.foldl (countObs a) m) q =
      cntOf m q + if q.1 = a then bs.count q.2 else 0 := by
  induction bs using List.reverseRecOn with
  | nil => simp [hm]
  | append_singleton bs b ih =>
    obtain ⟨i1, i2⟩ := ih
    rw [List.foldl_append, List.foldl_cons, List.foldl_nil]
    generalize bs.foldl (countObs a) m = st at i1 i2
    obtain ⟨h1, h2⟩ := countObs_spec a b st i1
    refine ⟨h1, fun q => ?_⟩
    rw [h2, i2, List.count_append]
    obtain ⟨q1, q2⟩ := q
    by_cases ha : q1 = a
    · subst ha
      by_cases hb : q2 = b
      · subst hb; simp; omega
      · have : ¬ (b = q2) := fun h => hb h.symm
        simp [hb, this]
    · simp [ha]

theorem countFrame_spec (as bs : List Nat) (m : OMap (Nat × Nat) Nat) (hm : OMap.Sorted m) :
    OMap.Sorted (countFrame as bs m) ∧ ∀ q, cntOf (countFrame as bs m) q =
      cntOf m q + as.count q.1 * bs.count q.2 := by
  unfold countFrame
  induction as using List.reverseRecOn with
  | nil => simp [hm]
  | append_singleton as a ih =>
    obtain ⟨i1, i2⟩ := ih
    rw [List.foldl_append, List.foldl_cons, List.foldl_nil]
    generalize as.foldl (fun m a => bs.foldl (countObs a) m) m = st at i1 i2
    obtain ⟨h1, h2⟩ := countRow_spec a bs st i1
    refine ⟨h1, fun q => ?_⟩
    rw [h2, i2, List.count_append, Nat.add_mul]
    by_cases ha : q.1 = a
    · subst ha; simp; omega
    · have : ¬ (a = q.1) := fun h => ha h.symm
      simp [ha, this]

theorem count_filter_eq (l : List Nat) (a : Nat) : (l.filter fun x => x == a).length = l.count a := by
  rw [List.count_eq_length_filter]

theorem objIdx_count (oo : List (ObjObs P)) (p : ObjObs P → Bool) (a : Nat) :
    (objIdx oo (positions p oo)).count a = (oo.filter fun o => p o && o.obj == a).length := by
  have h : objIdx oo (positions p oo) = (oo.filter p).map (·.obj) := by
    unfold objIdx
    rw [← Lemmas.GroupPose.positions_filterMap, List.map_filterMap]
  rw [h, ← count_filter_eq, List.filter_map, List.length_map, List.filter_filter]
  congr 1
  apply List.filter_congr
  intro o _
  rw [Bool.and_comm]
  rfl

section
variable [Group G] {oo : List (ObjObs P)} {frames : List Nat} {t : GroupTables G}
  (ht : GroupObsOf oo frames t) (hL : ListsCover t)

include ht in
/-- What the search in a frame finds for a group. -/
theorem objIdx_group {i : Nat} {g : CamGroup G} (hg : OMap.get? t.groups i = some g) (f : Nat)
    (hf : f ∈ frames) (a : Nat) :
    (match OMap.get? t.groupObs (i, f) with
      | some is => (objIdx oo is).count a
      | none => 0) = seenIn oo g f a := by
  have hcount := objIdx_count oo
    (fun o : ObjObs P => o.frame == f && decide (o.cam ∈ OMap.keys g.cameras)) a
  cases h : OMap.get? t.groupObs (i, f) with
  | some is =>
    obtain ⟨g', hg', _, _, rfl⟩ := (ht.obs i f is).1 h
    rw [hg] at hg'
    simp only [Option.some.injEq] at hg'
    subst hg'
    exact hcount
  | none =>
    dsimp only
    have hnil : positions (fun o : ObjObs P => o.frame == f && decide (o.cam ∈ OMap.keys g.cameras)) oo = [] := by
      by_contra hne
      have := (ht.obs i f _).2 ⟨g, hg, hf, hne, rfl⟩
      rw [h] at this
      cases this
    rw [hnil] at hcount
    exact hcount

include ht in
theorem countStep_spec {i j : Nat} {g1 g2 : CamGroup G} (h1 : OMap.get? t.groups i = some g1)
    (h2 : OMap.get? t.groups j = some g2) (f : Nat) (hf : f ∈ frames) (m : OMap (Nat × Nat) Nat)
    (hm : OMap.Sorted m) :
    OMap.Sorted (countStep t oo i j m f) ∧ ∀ q, cntOf (countStep t oo i j m f) q =
      cntOf m q + seenIn oo g1 f q.1 * seenIn oo g2 f q.2 := by
  have e1 := objIdx_group ht h1 f hf
  have e2 := objIdx_group ht h2 f hf
  unfold countStep
  cases ha : OMap.get? t.groupObs (i, f) with
  | none =>
    rw [ha] at e1
    dsimp only at e1 ⊢
    refine ⟨hm, fun q => ?_⟩
    rw [← e1]; simp
  | some as =>
    cases hb : OMap.get? t.groupObs (j, f) with
    | none =>
      rw [hb] at e2
      dsimp only at e2 ⊢
      refine ⟨hm, fun q => ?_⟩
      rw [← e2]; simp
    | some bs =>
      rw [ha] at e1
      rw [hb] at e2
      dsimp only at e1 e2 ⊢
      obtain ⟨k1, k2⟩ := countFrame_spec (objIdx oo as) (objIdx oo bs) m hm
      refine ⟨k1, fun q => ?_⟩
      rw [k2, e1, e2]

include ht in
theorem countFold_spec {i j : Nat} {g1 g2 : CamGroup G} (h1 : OMap.get? t.groups i = some g1)
    (h2 : OMap.get? t.groups j = some g2) (fs : List Nat) (hfs : ∀ f ∈ fs, f ∈ frames)
    (m : OMap (Nat × Nat) Nat) (hm : OMap.Sorted m) :
    OMap.Sorted (fs.foldl (countStep t oo i j) m) ∧ ∀ q, cntOf (fs.foldl (countStep t oo i j) m) q =
      cntOf m q + jointSightings oo fs g1 g2 q := by
  induction fs using List.reverseRecOn with
  | nil => simp [hm, jointSightings]
  | append_singleton fs f ih =>
    obtain ⟨i1, i2⟩ := ih fun x hx => hfs x (by simp [hx])
    rw [List.foldl_append, List.foldl_cons, List.foldl_nil]
    generalize fs.foldl (countStep t oo i j) m = st at i1 i2
    obtain ⟨k1, k2⟩ := countStep_spec ht h1 h2 f (hfs f (by simp)) st i1
    refine ⟨k1, fun q => ?_⟩
    rw [k2, i2]
    simp only [jointSightings, List.map_append, List.sum_append, List.map_cons, List.map_nil,
      List.sum_cons, List.sum_nil]
    omega

end

theorem zeroRow_spec (a : Nat × Object G Pt) (l : OMap Nat (Object G Pt)) (m : OMap (Nat × Nat) Nat)
    (hm : OMap.Sorted m) (h0 : ∀ q, cntOf m q = 0) :
    OMap.Sorted (zeroRow l m a) ∧ ∀ q, cntOf (zeroRow l m a) q = 0 := by
  unfold zeroRow
  induction l using List.reverseRecOn with
  | nil => exact ⟨hm, h0⟩
  | append_singleton l b ih =>
    rw [List.foldl_append, List.foldl_cons, List.foldl_nil]
    generalize l.foldl (fun m b => if a.2.id ≠ b.2.id then OMap.set m (a.2.id, b.2.id) 0 else m) m = st at ih
    split
    · refine ⟨OMap.sorted_set _ _ _ ih.1, fun q => ?_⟩
      unfold cntOf
      rw [OMap.get?_set _ _ _ _ ih.1]
      split
      · rfl
      · exact ih.2 q
    · exact ih

theorem zeroCounts_spec (objs : OMap Nat (Object G Pt)) :
    OMap.Sorted (zeroCounts objs) ∧ ∀ q, cntOf (zeroCounts objs) q = 0 := by
  unfold zeroCounts
  suffices H : ∀ l : OMap Nat (Object G Pt), OMap.Sorted (l.foldl (zeroRow objs) []) ∧
      ∀ q, cntOf (l.foldl (zeroRow objs) []) q = 0 from H objs
  intro l
  induction l using List.reverseRecOn with
  | nil => exact ⟨List.Pairwise.nil, fun q => rfl⟩
  | append_singleton l a ih =>
    rw [List.foldl_append, List.foldl_cons, List.foldl_nil]
    exact zeroRow_spec a objs _ ih.1 ih.2

/-! ### The maximum -/

theorem maxFold_spec (m : OMap (Nat × Nat) Nat) (hm : OMap.Sorted m) :
    ((m.foldl maxStep ((0, 0), 0)) = ((0, 0), 0) ∧ ∀ e ∈ m, e.2 = 0) ∨
    (0 < (m.foldl maxStep ((0, 0), 0)).2 ∧ (m.foldl maxStep ((0, 0), 0)) ∈ m ∧
      ∀ e ∈ m, e.2 ≤ (m.foldl maxStep ((0, 0), 0)).2 ∧
        (e.2 = (m.foldl maxStep ((0, 0), 0)).2 → Key.lt e.1 (m.foldl maxStep ((0, 0), 0)).1 = false)) := by
  induction m using List.reverseRecOn with
  | nil => left; simp
  | append_singleton m x ih =>
    unfold OMap.Sorted at hm
    rw [List.pairwise_append] at hm
    obtain ⟨hm1, _, hm3⟩ := hm
    have ih := ih hm1
    rw [List.foldl_append, List.foldl_cons, List.foldl_nil]
    generalize m.foldl maxStep ((0, 0), 0) = st at ih
    unfold maxStep
    rcases ih with ⟨rfl, i2⟩ | ⟨i1, i2, i3⟩
    · by_cases hx : x.2 > 0
      · rw [if_pos hx]
        right
        refine ⟨hx, by simp, fun e he => ?_⟩
        rcases List.mem_append.1 he with he | he
        · rw [i2 e he]
          exact ⟨Nat.zero_le _, fun h => by dsimp only at h; omega⟩
        · simp only [List.mem_singleton] at he
          subst he
          exact ⟨Nat.le_refl _, fun _ => by
            cases hh : Key.lt e.1 e.1 with
            | false => rfl
            | true => exact absurd rfl (OMap.lt_ne hh)⟩
      · rw [if_neg hx]
        left
        refine ⟨rfl, fun e he => ?_⟩
        rcases List.mem_append.1 he with he | he
        · exact i2 e he
        · simp only [List.mem_singleton] at he
          subst he; omega
    · by_cases hx : x.2 > st.2
      · rw [if_pos hx]
        right
        refine ⟨by dsimp only; omega, by simp, fun e he => ?_⟩
        rcases List.mem_append.1 he with he | he
        · have := (i3 e he).1
          exact ⟨by dsimp only; omega, fun h => by dsimp only at h; omega⟩
        · simp only [List.mem_singleton] at he
          subst he
          exact ⟨Nat.le_refl _, fun _ => by
            cases hh : Key.lt e.1 e.1 with
            | false => rfl
            | true => exact absurd rfl (OMap.lt_ne hh)⟩
      · rw [if_neg hx]
        right
        refine ⟨i1, List.mem_append_left _ i2, fun e he => ?_⟩
        rcases List.mem_append.1 he with he | he
        · exact i3 e he
        · simp only [List.mem_singleton] at he
          subst he
          exact ⟨by omega, fun _ => OMap.lt_asymm (hm3 st i2 e (by simp))⟩

theorem argMax_spec (m : OMap (Nat × Nat) Nat) (hm : OMap.Sorted m) :
    ((∀ q, cntOf m q = 0) → argMax m = (0, 0)) ∧
    ((∃ q, 0 < cntOf m q) → 0 < cntOf m (argMax m) ∧ ∀ q, cntOf m q ≤ cntOf m (argMax m) ∧
      (cntOf m q = cntOf m (argMax m) → lexLe (argMax m) q)) := by
  have hget : ∀ q n, (q, n) ∈ m → cntOf m q = n := by
    intro q n h
    unfold cntOf
    rw [(OMap.get?_eq_some hm).2 h]; rfl
  have hpos : ∀ q, 0 < cntOf m q → (q, cntOf m q) ∈ m := by
    intro q h
    unfold cntOf at h ⊢
    cases hq : OMap.get? m q with
    | none => rw [hq] at h; simp at h
    | some n => exact (OMap.get?_eq_some hm).1 hq
  have hs := maxFold_spec m hm
  unfold argMax
  generalize m.foldl maxStep ((0, 0), 0) = st at hs
  rcases hs with ⟨rfl, h2⟩ | ⟨h1, h2, h3⟩
  · refine ⟨fun _ => rfl, fun ⟨q, hq⟩ => ?_⟩
    have := h2 _ (hpos q hq)
    dsimp only at this
    omega
  · have hst := hget st.1 st.2 h2
    refine ⟨fun h0 => ?_, fun _ => ?_⟩
    · have := h0 st.1
      omega
    · rw [hst]
      refine ⟨h1, fun q => ?_⟩
      by_cases hq : 0 < cntOf m q
      · obtain ⟨k1, k2⟩ := h3 _ (hpos q hq)
        refine ⟨k1, fun h => ?_⟩
        have hlt := k2 h
        dsimp only at hlt
        by_cases heq : q = st.1
        · subst heq; exact Or.inr ⟨rfl, Nat.le_refl _⟩
        · rcases Key.tri q st.1 heq with h' | h'
          · rw [hlt] at h'; cases h'
          · obtain ⟨q1, q2⟩ := q
            obtain ⟨⟨s1, s2⟩, n⟩ := st
            simp only [Key.lt, decide_eq_true_eq, Bool.or_eq_true, Bool.and_eq_true] at h'
            unfold lexLe
            dsimp only
            rcases h' with h' | h'
            · exact Or.inl h'
            · exact Or.inr ⟨h'.1, Nat.le_of_lt h'.2⟩
      · exact ⟨by omega, fun h => by omega⟩

end Verif.Lemmas.NonOverlap
