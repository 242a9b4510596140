import Verif.Lemmas.Groups

namespace Verif.Lemmas.Groups
open Verif Verif.Objects Verif.Groups Verif.Structure Verif.Spec.Groups Verif.Spec.Store
open Verif.Spec.Structure Verif.Lemmas.Structure Verif.Lemmas.Objects Relation

variable {G Pt P Path : Type}

theorem groupSees_eq (oo : List (ObjObs P)) (cams : List Nat) (f : Nat) :
    groupSees oo cams f =
      positions (fun o : ObjObs P => o.frame == f && decide (o.cam ∈ cams)) oo := by
  unfold groupSees frameObjs positions
  rw [List.filter_filter]
  apply List.filter_congr
  intro i _
  cases oo[i]? <;> simp [Bool.and_comm]

/-- State after some frames `fs` of group `gi` with cameras `cams` have been processed, from `st0`. -/
structure FramesDone (oo : List (ObjObs P)) (cams : List Nat) (gi : Nat) (fs : List Nat)
    (st0 st : CamGroup G × OMap (Nat × Nat) (List Nat) × OMap Nat (List Nat)) : Prop where
  group : st.1 = { st0.1 with objObs := st.1.objObs, frames := st.1.frames }
  objObs : st.1.objObs = st0.1.objObs ++ fs.flatMap (groupSees oo cams)
  frames_sorted : OMap.Sorted st.1.frames
  frames : ∀ f, f ∈ OMap.keys st.1.frames ↔
    f ∈ OMap.keys st0.1.frames ∨ (f ∈ fs ∧ groupSees oo cams f ≠ [])
  obs_sorted : OMap.Sorted st.2.1
  obs : ∀ k, OMap.get? st.2.1 k = if k.1 = gi ∧ k.2 ∈ fs ∧ groupSees oo cams k.2 ≠ [] then
    some (groupSees oo cams k.2) else OMap.get? st0.2.1 k
  fg_sorted : OMap.Sorted st.2.2
  fg : ∀ f, (OMap.get? st.2.2 f).getD [] = (OMap.get? st0.2.2 f).getD [] ++
    if f ∈ fs ∧ groupSees oo cams f ≠ [] then [gi] else []

theorem framesDone (oo : List (ObjObs P)) (cams : List Nat) (gi : Nat) (fs : List Nat)
    (hnd : fs.Nodup) (st0 : CamGroup G × OMap (Nat × Nat) (List Nat) × OMap Nat (List Nat))
    (h1 : OMap.Sorted st0.1.frames) (h2 : OMap.Sorted st0.2.1) (h3 : OMap.Sorted st0.2.2) :
    FramesDone oo cams gi fs st0 (fs.foldl (groupFrameStep oo cams gi) st0) := by
  induction fs using List.reverseRecOn with
  | nil =>
    refine ⟨rfl, by simp, h1, by simp, h2, by simp, h3, by simp⟩
  | append_singleton fs f ih =>
    have hnd' := (List.nodup_append.1 hnd)
    have hf : f ∉ fs := fun h => hnd'.2.2 f h f (by simp) rfl
    have ih := ih hnd'.1
    rw [List.foldl_append, List.foldl_cons, List.foldl_nil]
    generalize fs.foldl (groupFrameStep oo cams gi) st0 = st at ih
    obtain ⟨i1, i2, i3, i4, i5, i6, i7, i8⟩ := ih
    unfold groupFrameStep
    by_cases hs : groupSees oo cams f = []
    · rw [hs]
      simp only [List.append_nil, List.length_nil, gt_iff_lt, Nat.lt_irrefl, if_false]
      refine ⟨i1, ?_, i3, ?_, i5, ?_, i7, ?_⟩
      · rw [List.flatMap_append, List.flatMap_cons, hs]; simpa using i2
      · intro q
        rw [i4]
        by_cases hq : q = f
        · subst hq; simp [hs]
        · simp [hq]
      · rintro ⟨a, q⟩
        rw [i6]
        by_cases hq : q = f
        · subst hq; simp [hs]
        · simp [hq]
      · intro q
        rw [i8]
        by_cases hq : q = f
        · subst hq; simp [hs]
        · simp [hq]
    · have hlen : (groupSees oo cams f).length > 0 := List.length_pos_iff.2 hs
      dsimp only
      rw [if_pos hlen]
      refine ⟨?_, ?_, OMap.sorted_set _ _ _ i3, ?_, OMap.sorted_set _ _ _ i5, ?_,
        OMap.sorted_set _ _ _ i7, ?_⟩
      · dsimp only; rw [i1]
      · dsimp only
        rw [i2, List.flatMap_append, List.flatMap_cons]; simp
      · intro q
        dsimp only
        rw [OMap.mem_keys_set i3, i4]
        by_cases hq : q = f
        · subst hq; simp [hs]
        · simp [hq]
      · rintro ⟨a, q⟩
        dsimp only
        rw [OMap.get?_set _ _ _ _ i5, i6]
        by_cases hq : q = f
        · subst hq
          by_cases ha : a = gi
          · subst ha; simp [hs]
          · simp [ha]
        · simp [hq]
      · intro q
        unfold OMap.modify
        rw [OMap.get?_set _ _ _ _ i7]
        by_cases hq : q = f
        · subst hq
          rw [if_pos rfl]
          simp only [Option.getD_some]
          rw [i8]
          simp [hs, hf]
        · rw [if_neg hq, i8]; simp [hq]

/-- State of the tables after the groups `done` have been processed. -/
structure GroupsDone (oo : List (ObjObs P)) (frames : List Nat) (gs : OMap Nat (CamGroup G))
    (done : List Nat) (t0 t : GroupTables G) : Prop where
  sorted : OMap.Sorted t.groups
  groups : ∀ i, OMap.get? t.groups i = (OMap.get? gs i).map fun g =>
    if i ∈ done then
      { g with objObs := g.objObs ++ frames.flatMap (groupSees oo g.camIdx)
               frames := ((OMap.get? t.groups i).map (·.frames)).getD [] } else g
  frames_sorted : ∀ i g, OMap.get? t.groups i = some g → OMap.Sorted g.frames
  group_frames : ∀ i g g0, OMap.get? t.groups i = some g → OMap.get? gs i = some g0 → i ∈ done →
    ∀ f, f ∈ OMap.keys g.frames ↔
      f ∈ OMap.keys g0.frames ∨ (f ∈ frames ∧ groupSees oo g0.camIdx f ≠ [])
  obs_sorted : OMap.Sorted t.groupObs
  obs : ∀ i f is, OMap.get? t.groupObs (i, f) = some is ↔ i ∈ done ∧ ∃ g, OMap.get? gs i = some g ∧
    f ∈ frames ∧ is = groupSees oo g.camIdx f ∧ is ≠ []
  fg_sorted : OMap.Sorted t.frameGroups
  fg : ∀ f, (OMap.get? t.frameGroups f).getD [] = done.filter fun i =>
    (OMap.get? gs i).any fun g => decide (f ∈ frames ∧ groupSees oo g.camIdx f ≠ [])

theorem groupsDone (oo : List (ObjObs P)) (frames : List Nat) (hnd : frames.Nodup)
    (gs : OMap Nat (CamGroup G)) (hgs : OMap.Sorted gs)
    (hfs : ∀ i g, OMap.get? gs i = some g → OMap.Sorted g.frames) (done : List Nat)
    (hdn : done.Nodup) (hd : ∀ i ∈ done, i ∈ OMap.keys gs) :
    ∃ t, Outcome.foldlM (initCameraGroupObs oo frames) { groups := gs } done = .ok t ∧
      GroupsDone oo frames gs done { groups := gs } t := by
  induction done using List.reverseRecOn with
  | nil =>
    refine ⟨_, rfl, hgs, by intro i; cases OMap.get? gs i <;> simp, hfs, by simp, List.Pairwise.nil,
      by simp, List.Pairwise.nil, by simp⟩
  | append_singleton done gi ih =>
    have hdn' := List.nodup_append.1 hdn
    have hgi : gi ∉ done := fun h => hdn'.2.2 gi h gi (by simp) rfl
    obtain ⟨t, e, h1, h2, h3, h4, h5, h6, h7, h8⟩ := ih hdn'.1 fun i hi => hd i (by simp [hi])
    obtain ⟨g0, hg0⟩ := OMap.mem_keys.1 (hd gi (by simp))
    have hg : OMap.get? t.groups gi = some g0 := by rw [h2, hg0]; simp [hgi]
    have hF := framesDone oo g0.camIdx gi frames hnd (g0, t.groupObs, t.frameGroups)
      (h3 gi g0 hg) h5 h7
    rw [Outcome.foldlM_append, e, Outcome.bind_ok, Outcome.foldlM_cons, initCameraGroupObs, hg,
      Outcome.deref_some, Outcome.bind_ok]
    simp only [Outcome.pure_eq, Outcome.bind_ok, Outcome.foldlM_nil]
    generalize frames.foldl (groupFrameStep oo g0.camIdx gi) (g0, t.groupObs, t.frameGroups) = st at hF
    obtain ⟨f1, f2, f3, f4, f5, f6, f7, f8⟩ := hF
    refine ⟨_, rfl, OMap.sorted_set _ _ _ h1, ?_, ?_, ?_, f5, ?_, f7, ?_⟩
    · intro i
      dsimp only
      rw [OMap.get?_set _ _ _ _ h1]
      by_cases hi : i = gi
      · subst hi
        rw [if_pos rfl, hg0]
        simp only [Option.map_some, List.mem_append, List.mem_singleton, or_true, if_true,
          Option.getD_some, Option.some.injEq]
        rw [f1]
        dsimp only
        rw [f2]
      · rw [if_neg hi]
        have hm : (i ∈ done ++ [gi]) ↔ i ∈ done := by simp [hi]
        simp only [hm]
        exact h2 i
    · intro i g
      dsimp only
      rw [OMap.get?_set _ _ _ _ h1]
      split
      · intro h
        simp only [Option.some.injEq] at h
        subst h; exact f3
      · exact h3 i g
    · intro i g g1 hi hg1 hm f
      dsimp only at hi
      rw [OMap.get?_set _ _ _ _ h1] at hi
      split at hi
      · rename_i hh
        subst hh
        simp only [Option.some.injEq] at hi
        subst hi
        rw [hg0] at hg1
        simp only [Option.some.injEq] at hg1
        subst hg1
        exact f4 f
      · rename_i hh
        refine h4 i g g1 hi hg1 ?_ f
        rcases List.mem_append.1 hm with h | h
        · exact h
        · exact absurd (List.mem_singleton.1 h) hh
    · intro i f is
      dsimp only
      rw [f6]
      by_cases hi : i = gi
      · subst hi
        dsimp only
        split
        · rename_i hh
          simp only [Option.some.injEq, List.mem_append, List.mem_singleton, or_true, true_and]
          constructor
          · rintro rfl
            exact ⟨g0, hg0, hh.2.1, rfl, hh.2.2⟩
          · rintro ⟨g, hg', _, rfl, _⟩
            rw [hg0] at hg'
            simp only [Option.some.injEq] at hg'
            subst hg'; rfl
        · rename_i hh
          constructor
          · intro h
            exact absurd ((h6 i f is).1 h).1 hgi
          · rintro ⟨_, g, hg', hf, rfl, hne⟩
            rw [hg0] at hg'
            simp only [Option.some.injEq] at hg'
            subst hg'
            exact absurd ⟨rfl, hf, hne⟩ hh
      · rw [if_neg (fun h => hi h.1)]
        rw [h6]
        simp [hi]
    · intro f
      dsimp only
      rw [f8]
      dsimp only
      rw [h8, List.filter_append]
      congr 1
      simp only [List.filter_cons, hg0, Option.any_some, List.filter_nil]
      by_cases hh : f ∈ frames ∧ groupSees oo g0.camIdx f ≠ [] <;> simp [hh]

theorem initAllCameraGroupObs_eq (oo : List (ObjObs P)) (frames : List Nat)
    (t : GroupTables G) (hid : ∀ e ∈ t.groups, e.2.id = e.1) :
    initAllCameraGroupObs oo frames t =
      Outcome.foldlM (initCameraGroupObs oo frames) t (OMap.keys t.groups) := by
  unfold initAllCameraGroupObs OMap.keys
  generalize hm : t.groups = m at hid
  clear hm
  induction m generalizing t with
  | nil => rfl
  | cons e m ih =>
    rw [Outcome.foldlM_cons, List.map_cons, Outcome.foldlM_cons, hid e (by simp)]
    cases initCameraGroupObs oo frames t e.1 with
    | ok t' => simp only [Outcome.bind_ok]; exact ih t' fun e' h => hid e' (by simp [h])
    | _ => rfl

end Verif.Lemmas.Groups
