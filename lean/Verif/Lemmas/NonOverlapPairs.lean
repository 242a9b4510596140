import Verif.Lemmas.NonOverlap

namespace Verif.Lemmas.NonOverlap
open Verif Verif.NonOverlap Verif.GroupPose Verif.Groups Verif.Objects Verif.Structure
open Verif.Spec.Store Verif.Spec.Groups Verif.Spec.NonOverlap Verif.Spec.Structure
open Verif.Lemmas.Structure Verif.Lemmas.Groups Verif.Lemmas.Objects Relation

variable {V G Pt P Path : Type}

theorem nat_sorted_ext {l l' : List Nat} (h : l.Pairwise (· < ·)) (h' : l'.Pairwise (· < ·))
    (hm : ∀ x, x ∈ l ↔ x ∈ l') : l = l' :=
  OMap.sorted_keys_ext (natKey_sorted h) (natKey_sorted h') hm

theorem keys_lt {A : Type} {m : OMap Nat A} (h : OMap.Sorted m) : (OMap.keys m).Pairwise (· < ·) :=
  (OMap.keys_sorted h).imp fun h => by simpa [Key.lt] using h

section
variable [Group G] {oo : List (ObjObs P)} {frames : List Nat} {t : GroupTables G}
  (ht : GroupObsOf oo frames t) (hL : ListsCover t) (hfr : frames.Pairwise (· < ·))

include ht in
theorem seenIn_pos {i : Nat} {g : CamGroup G} (hg : OMap.get? t.groups i = some g) {f a : Nat}
    (hf : f ∈ frames) : 0 < seenIn oo g f a ↔ ∃ is, OMap.get? t.groupObs (i, f) = some is ∧ a ∈ objIdx oo is := by
  rw [← objIdx_group ht hg f hf a]
  cases OMap.get? t.groupObs (i, f) with
  | none => simp
  | some is => simp [List.count_pos_iff]

include ht hL in
theorem mem_common {i j : Nat} {g1 g2 : CamGroup G} (h1 : OMap.get? t.groups i = some g1)
    (h2 : OMap.get? t.groups j = some g2) {f : Nat} {as bs : List Nat}
    (ha : OMap.get? t.groupObs (i, f) = some as) (hb : OMap.get? t.groupObs (j, f) = some bs) :
    f ∈ commonFrames g1 g2 ∧ f ∈ frames := by
  refine ⟨List.mem_filter.2 ⟨hL.frames i g1 f as h1 ha, by simpa using hL.frames j g2 f bs h2 hb⟩, ?_⟩
  obtain ⟨_, _, hf, _⟩ := (ht.obs i f as).1 ha
  exact hf

include hL in
theorem common_sorted {i : Nat} {g1 g2 : CamGroup G} (h1 : OMap.get? t.groups i = some g1) :
    (commonFrames g1 g2).Pairwise (· < ·) :=
  List.Pairwise.filter _ (keys_lt (hL.sorted i g1 h1))

include ht in
theorem countStep_outside {i j f : Nat} (hf : f ∉ frames) (m : OMap (Nat × Nat) Nat) :
    countStep t oo i j m f = m := by
  unfold countStep
  have : OMap.get? t.groupObs (i, f) = none := by
    cases h : OMap.get? t.groupObs (i, f) with
    | none => rfl
    | some is =>
      obtain ⟨_, _, hf', _⟩ := (ht.obs i f is).1 h
      exact absurd hf' hf
  rw [this]

include ht hL hfr in
/-- The counts are the joint sightings. -/
theorem counts_spec (objs : OMap Nat (Object G Pt)) {i j : Nat} {g1 g2 : CamGroup G}
    (h1 : OMap.get? t.groups i = some g1) (h2 : OMap.get? t.groups j = some g2) :
    OMap.Sorted ((commonFrames g1 g2).foldl (countStep t oo i j) (zeroCounts objs)) ∧
    ∀ q, cntOf ((commonFrames g1 g2).foldl (countStep t oo i j) (zeroCounts objs)) q =
      jointSightings oo frames g1 g2 q := by
  obtain ⟨z1, z2⟩ := zeroCounts_spec objs
  have hskip : ∀ (l : List Nat) (m : OMap (Nat × Nat) Nat), l.foldl (countStep t oo i j) m =
      (l.filter fun f => decide (f ∈ frames)).foldl (countStep t oo i j) m := by
    intro l
    induction l with
    | nil => intro m; rfl
    | cons f l ih =>
      intro m
      rw [List.foldl_cons, List.filter_cons]
      by_cases hf : f ∈ frames
      · simp only [hf, decide_true, if_true, List.foldl_cons]; exact ih _
      · simp only [hf, decide_false]
        rw [countStep_outside ht hf, ih]
        rfl
  rw [hskip]
  obtain ⟨k1, k2⟩ := countFold_spec ht h1 h2 ((commonFrames g1 g2).filter fun f => decide (f ∈ frames))
    (fun f hf => by simpa using (List.mem_filter.1 hf).2) (zeroCounts objs) z1
  refine ⟨k1, fun q => ?_⟩
  rw [k2, z2, Nat.zero_add]
  have e : ((commonFrames g1 g2).filter fun f => decide (f ∈ frames)) =
      frames.filter fun f => decide (f ∈ commonFrames g1 g2) := by
    apply nat_sorted_ext (List.Pairwise.filter _ (common_sorted hL h1)) (List.Pairwise.filter _ hfr)
    intro f
    simp only [List.mem_filter, decide_eq_true_eq]
    exact and_comm
  rw [e]
  unfold jointSightings
  have hz : ∀ f ∈ frames, f ∉ commonFrames g1 g2 →
      seenIn oo g1 f q.1 * seenIn oo g2 f q.2 = 0 := by
    intro f hf hn
    rcases Nat.eq_zero_or_pos (seenIn oo g1 f q.1) with h | h
    · rw [h, Nat.zero_mul]
    · rcases Nat.eq_zero_or_pos (seenIn oo g2 f q.2) with h' | h'
      · rw [h', Nat.mul_zero]
      · obtain ⟨as, ha, _⟩ := (seenIn_pos ht h1 hf).1 h
        obtain ⟨bs, hb, _⟩ := (seenIn_pos ht h2 hf).1 h'
        exact absurd (mem_common ht hL h1 h2 ha hb).1 hn
  clear e k1 k2 hskip hfr
  generalize hS : commonFrames g1 g2 = S at hz ⊢
  clear ht
  induction frames with
  | nil => rfl
  | cons f l ih =>
    rw [List.filter_cons, List.map_cons, List.sum_cons, ← ih fun f' hf' => hz f' (by simp [hf'])]
    by_cases hf : f ∈ S
    · simp [hf]
    · simp [hf, hz f (by simp) hf]

include ht hL hfr in
/-- The frames of the poses used. -/
theorem framePoses_spec (ofVec : V → G) (op : OMap (Nat × Nat) (OMap Nat V)) {i j : Nat}
    {g1 g2 : CamGroup G} (h1 : OMap.get? t.groups i = some g1) (h2 : OMap.get? t.groups j = some g2)
    (ab : Nat × Nat) :
    (commonFrames g1 g2).filterMap (framePoses ofVec op t oo i j ab) =
      (jointFrames oo frames g1 g2 ab).map fun f =>
        ((((OMap.get? op (i, f)).bind fun m => OMap.get? m ab.1).map ofVec).getD 1,
          (((OMap.get? op (j, f)).bind fun m => OMap.get? m ab.2).map ofVec).getD 1) := by
  have hval : ∀ f, framePoses ofVec op t oo i j ab f =
      if (framePoses ofVec op t oo i j ab f).isSome then some
        ((((OMap.get? op (i, f)).bind fun m => OMap.get? m ab.1).map ofVec).getD 1,
          (((OMap.get? op (j, f)).bind fun m => OMap.get? m ab.2).map ofVec).getD 1) else none := by
    intro f
    unfold framePoses
    split
    · split <;> rfl
    · rfl
  have hsome : ∀ f, (framePoses ofVec op t oo i j ab f).isSome = true ↔
      ∃ as bs, OMap.get? t.groupObs (i, f) = some as ∧ OMap.get? t.groupObs (j, f) = some bs ∧
        ab.1 ∈ objIdx oo as ∧ ab.2 ∈ objIdx oo bs := by
    intro f
    unfold framePoses
    cases ha : OMap.get? t.groupObs (i, f) with
    | none => simp
    | some as =>
      cases hb : OMap.get? t.groupObs (j, f) with
      | none => simp
      | some bs =>
        dsimp only
        constructor
        · intro h
          split at h
          · rename_i h'
            exact ⟨as, bs, rfl, rfl, h'.1, h'.2⟩
          · cases h
        · rintro ⟨as', bs', e1, e2, h⟩
          simp only [Option.some.injEq] at e1 e2
          subst e1 e2
          rw [if_pos h]; rfl
  have hfil : ∀ (l : List Nat), l.filterMap (framePoses ofVec op t oo i j ab) =
      (l.filter fun f => (framePoses ofVec op t oo i j ab f).isSome).map fun f =>
        ((((OMap.get? op (i, f)).bind fun m => OMap.get? m ab.1).map ofVec).getD 1,
          (((OMap.get? op (j, f)).bind fun m => OMap.get? m ab.2).map ofVec).getD 1) := by
    intro l
    induction l with
    | nil => rfl
    | cons f l ih =>
      rw [List.filterMap_cons, List.filter_cons]
      by_cases h : (framePoses ofVec op t oo i j ab f).isSome = true
      · rw [if_pos h, List.map_cons, ← ih, hval f, if_pos h]
      · rw [if_neg h, hval f, if_neg h]
        exact ih
  rw [hfil]
  congr 1
  apply nat_sorted_ext (List.Pairwise.filter _ (common_sorted hL h1)) (List.Pairwise.filter _ hfr)
  intro f
  simp only [List.mem_filter, hsome, Bool.and_eq_true, decide_eq_true_eq]
  constructor
  · rintro ⟨_, as, bs, ha, hb, h3, h4⟩
    have hf := (mem_common ht hL h1 h2 ha hb).2
    exact ⟨hf, (seenIn_pos ht h1 hf).2 ⟨as, ha, h3⟩, (seenIn_pos ht h2 hf).2 ⟨bs, hb, h4⟩⟩
  · rintro ⟨hf, h3, h4⟩
    obtain ⟨as, ha, h3⟩ := (seenIn_pos ht h1 hf).1 h3
    obtain ⟨bs, hb, h4⟩ := (seenIn_pos ht h2 hf).1 h4
    exact ⟨(mem_common ht hL h1 h2 ha hb).1, as, bs, ha, hb, h3, h4⟩

end

/-! ### The double loop over groups -/

theorem pairRow_fold {A B : Type} (gs : OMap Nat A) (hgs : OMap.Sorted gs) (a : Nat) (v : Nat → A → B)
    (m : OMap (Nat × Nat) B) (hm : OMap.Sorted m) :
    OMap.Sorted (gs.foldl (fun m b => if a ≠ b.1 then OMap.set m (a, b.1) (v b.1 b.2) else m) m) ∧
    ∀ q, OMap.get? (gs.foldl (fun m b => if a ≠ b.1 then OMap.set m (a, b.1) (v b.1 b.2) else m) m) q =
      if q.1 = a ∧ a ≠ q.2 ∧ q.2 ∈ OMap.keys gs then (OMap.get? gs q.2).map (v q.2)
      else OMap.get? m q := by
  induction gs using List.reverseRecOn with
  | nil => simp [hm, OMap.keys]
  | append_singleton gs e ih =>
    have hgs' := hgs
    unfold OMap.Sorted at hgs'
    rw [List.pairwise_append] at hgs'
    obtain ⟨hg1, _, hg3⟩ := hgs'
    have he : e.1 ∉ OMap.keys gs := by
      intro h
      obtain ⟨x, hx, hx'⟩ := List.mem_map.1 h
      exact OMap.lt_ne (hg3 x hx e (by simp)) hx'
    obtain ⟨i1, i2⟩ := ih hg1
    rw [List.foldl_append, List.foldl_cons, List.foldl_nil]
    generalize gs.foldl (fun m b => if a ≠ b.1 then OMap.set m (a, b.1) (v b.1 b.2) else m) m = st at i1 i2
    have hkeys : OMap.keys (gs ++ [e]) = OMap.keys gs ++ [e.1] := by simp [OMap.keys]
    have hsplit : ∀ q, OMap.get? (gs ++ [e]) q = if q = e.1 then some e.2 else OMap.get? gs q := by
      intro q
      by_cases hq : q = e.1
      · rw [if_pos hq, hq]
        exact (OMap.get?_eq_some hgs).2 (by simp)
      · rw [if_neg hq]
        cases h : OMap.get? gs q with
        | none =>
          rw [OMap.get?_eq_none] at h ⊢
          rw [hkeys, List.mem_append, List.mem_singleton, not_or]
          exact ⟨h, hq⟩
        | some x =>
          have := (OMap.get?_eq_some hg1).1 h
          exact (OMap.get?_eq_some hgs).2 (List.mem_append_left _ this)
    by_cases hae : a = e.1
    · rw [if_neg (by simpa using hae)]
      refine ⟨i1, fun q => ?_⟩
      rw [i2, hkeys, hsplit]
      by_cases hq : q.2 = e.1
      · have h1 : ¬ (q.1 = a ∧ a ≠ q.2 ∧ q.2 ∈ OMap.keys gs) := by rintro ⟨_, h, _⟩; exact h (hae.trans hq.symm)
        have h2 : ¬ (q.1 = a ∧ a ≠ q.2 ∧ q.2 ∈ OMap.keys gs ++ [e.1]) := by
          rintro ⟨_, h, _⟩; exact h (hae.trans hq.symm)
        rw [if_neg h1, if_neg h2]
      · simp [hq]
    · rw [if_pos hae]
      refine ⟨OMap.sorted_set _ _ _ i1, fun q => ?_⟩
      rw [OMap.get?_set _ _ _ _ i1, i2, hkeys, hsplit]
      obtain ⟨q1, q2⟩ := q
      simp only [Prod.mk.injEq]
      by_cases hq1 : q1 = a
      · by_cases hq2 : q2 = e.1
        · subst hq1 hq2
          simp [hae]
        · simp [hq1, hq2]
      · simp [hq1]

theorem findPairs_get? (objs : OMap Nat (Object G Pt)) (t : GroupTables G) (hs : OMap.Sorted t.groups)
    (oo : List (ObjObs P)) (i j : Nat) :
    OMap.get? (findPairs objs t oo) (i, j) =
      if i ≠ j then
        (OMap.get? t.groups i).bind fun g1 => (OMap.get? t.groups j).map fun g2 =>
          objectPairFor objs t oo i j g1 g2
      else none := by
  unfold findPairs
  suffices H : ∀ l : OMap Nat (CamGroup G), OMap.Sorted l →
      OMap.Sorted (l.foldl (pairRow objs t oo) []) ∧
      ∀ i j, OMap.get? (l.foldl (pairRow objs t oo) []) (i, j) = if i ≠ j then
        (OMap.get? l i).bind fun g1 => (OMap.get? t.groups j).map fun g2 =>
          objectPairFor objs t oo i j g1 g2
      else none from (H _ hs).2 i j
  intro l
  induction l using List.reverseRecOn with
  | nil => intro _; exact ⟨List.Pairwise.nil, by simp⟩
  | append_singleton l e ih =>
    intro hl
    have hl' := hl
    unfold OMap.Sorted at hl'
    rw [List.pairwise_append] at hl'
    obtain ⟨hg1, _, hg3⟩ := hl'
    obtain ⟨i1, i2⟩ := ih hg1
    rw [List.foldl_append, List.foldl_cons, List.foldl_nil]
    generalize l.foldl (pairRow objs t oo) [] = st at i1 i2
    unfold pairRow
    obtain ⟨k1, k2⟩ := pairRow_fold t.groups hs e.1
      (fun j g2 => objectPairFor objs t oo e.1 j e.2 g2) st i1
    refine ⟨k1, fun i j => ?_⟩
    rw [k2, i2]
    have hnot : e.1 ∉ OMap.keys l := by
      intro h
      obtain ⟨x, hx, hx'⟩ := List.mem_map.1 h
      exact OMap.lt_ne (hg3 x hx e (by simp)) hx'
    by_cases hi : i = e.1
    · subst hi
      have hge : OMap.get? (l ++ [e]) e.1 = some e.2 := (OMap.get?_eq_some hl).2 (by simp)
      have hln : OMap.get? l e.1 = none := OMap.get?_eq_none.2 hnot
      rw [hge, hln]
      by_cases hj : e.1 = j
      · simp [hj]
      · by_cases hjk : j ∈ OMap.keys t.groups
        · simp [hj, hjk]
        · rw [OMap.get?_eq_none.2 hjk]; simp
    · have hge : OMap.get? (l ++ [e]) i = OMap.get? l i := by
        cases h : OMap.get? l i with
        | none =>
          rw [OMap.get?_eq_none] at h ⊢
          simp only [OMap.keys, List.map_append, List.mem_append, List.map_cons, List.map_nil,
            List.mem_singleton, not_or]
          exact ⟨h, hi⟩
        | some x =>
          exact (OMap.get?_eq_some hl).2 (List.mem_append_left _ ((OMap.get?_eq_some hg1).1 h))
      rw [hge]
      simp [hi]

end Verif.Lemmas.NonOverlap
