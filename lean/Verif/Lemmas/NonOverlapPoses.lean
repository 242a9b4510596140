import Verif.Lemmas.NonOverlapPairs

namespace Verif.Lemmas.NonOverlap
open Verif Verif.NonOverlap Verif.GroupPose Verif.Groups Verif.Objects Verif.Structure
open Verif.Spec.Store Verif.Spec.Groups Verif.Spec.NonOverlap Verif.Spec.Structure
open Verif.Lemmas.Structure Verif.Lemmas.Groups Verif.Lemmas.Objects Relation

variable {V G Pt P Path : Type}

/-- Loop body on flattened pairs. -/
def recStep [Group G] (ps : Nat × Nat → List (G × G)) (he : List (G × G) → Outcome G)
    (st : PairPoses G) (k : Nat × Nat) : Outcome (PairPoses G) :=
  if (ps k).length ≤ 3 then .ok st
  else do
    let x ← he (ps k)
    pure { pose := OMap.set st.pose k x⁻¹, cnt := OMap.set st.cnt k (ps k).length }

theorem recFold_ok [Group G] (ps : Nat × Nat → List (G × G)) (he : List (G × G) → Outcome G)
    (L : List (Nat × Nat)) (st st' : PairPoses G) (h1 : OMap.Sorted st.pose) (h2 : OMap.Sorted st.cnt)
    (h : Outcome.foldlM (recStep ps he) st L = .ok st') :
    OMap.Sorted st'.pose ∧ OMap.Sorted st'.cnt ∧
    (∀ k ∈ L, 3 < (ps k).length → ∃ x, he (ps k) = .ok x ∧ OMap.get? st'.pose k = some x⁻¹ ∧
      OMap.get? st'.cnt k = some (ps k).length) ∧
    ∀ k, (k ∈ L → (ps k).length ≤ 3) → OMap.get? st'.pose k = OMap.get? st.pose k ∧
      OMap.get? st'.cnt k = OMap.get? st.cnt k := by
  induction L using List.reverseRecOn generalizing st' with
  | nil =>
    simp only [Outcome.foldlM_nil, Outcome.ok.injEq] at h
    subst h
    exact ⟨h1, h2, by simp, fun k _ => ⟨rfl, rfl⟩⟩
  | append_singleton L k ih =>
    rw [Outcome.foldlM_append, Outcome.bind_eq_ok] at h
    obtain ⟨s1, e1, e2⟩ := h
    obtain ⟨i1, i2, i3, i4⟩ := ih s1 e1
    rw [Outcome.foldlM_cons, Outcome.bind_eq_ok] at e2
    obtain ⟨s2, e2, e3⟩ := e2
    simp only [Outcome.foldlM_nil, Outcome.ok.injEq] at e3
    subst e3
    unfold recStep at e2
    by_cases hk : (ps k).length ≤ 3
    · rw [if_pos hk, Outcome.ok.injEq] at e2
      subst e2
      refine ⟨i1, i2, ?_, ?_⟩
      · intro q hq hlen
        rcases List.mem_append.1 hq with hq | hq
        · exact i3 q hq hlen
        · simp only [List.mem_singleton] at hq
          subst hq
          omega
      · intro q hq
        exact i4 q fun h => hq (by simp [h])
    · rw [if_neg hk, Outcome.bind_eq_ok] at e2
      obtain ⟨x, hx, e2⟩ := e2
      simp only [Outcome.pure_eq, Outcome.ok.injEq] at e2
      subst e2
      refine ⟨OMap.sorted_set _ _ _ i1, OMap.sorted_set _ _ _ i2, ?_, ?_⟩
      · intro q hq hlen
        dsimp only
        rw [OMap.get?_set _ _ _ _ i1, OMap.get?_set _ _ _ _ i2]
        by_cases hqk : q = k
        · subst hqk
          exact ⟨x, hx, by simp, by simp⟩
        · rw [if_neg hqk, if_neg hqk]
          rcases List.mem_append.1 hq with hq | hq
          · exact i3 q hq hlen
          · exact absurd (List.mem_singleton.1 hq) hqk
      · intro q hq
        dsimp only
        rw [OMap.get?_set _ _ _ _ i1, OMap.get?_set _ _ _ _ i2]
        by_cases hqk : q = k
        · subst hqk
          exact absurd (hq (by simp)) hk
        · rw [if_neg hqk, if_neg hqk]
          exact i4 q fun h => hq (by simp [h])

theorem recFold_total [Group G] (ps : Nat × Nat → List (G × G)) (he : List (G × G) → Outcome G)
    (L : List (Nat × Nat)) (hL : ∀ k ∈ L, 3 < (ps k).length → ∃ x, he (ps k) = .ok x)
    (st : PairPoses G) : ∃ st', Outcome.foldlM (recStep ps he) st L = .ok st' := by
  induction L generalizing st with
  | nil => exact ⟨st, rfl⟩
  | cons k L ih =>
    rw [Outcome.foldlM_cons]
    unfold recStep
    by_cases hk : (ps k).length ≤ 3
    · rw [if_pos hk, Outcome.bind_ok]
      exact ih (fun q hq => hL q (by simp [hq])) st
    · rw [if_neg hk]
      obtain ⟨x, hx⟩ := hL k (by simp) (by omega)
      rw [hx]
      simp only [Outcome.bind_ok, Outcome.pure_eq]
      exact ih (fun q hq => hL q (by simp [hq])) _

/-- The ordered pairs of different groups. -/
def groupPairs (gs : OMap Nat (CamGroup G)) : List (Nat × Nat) :=
  gs.flatMap fun a => (gs.filter fun b => decide (a.1 ≠ b.1)).map fun b => (a.1, b.1)

theorem mem_groupPairs {gs : OMap Nat (CamGroup G)} {k : Nat × Nat} :
    k ∈ groupPairs gs ↔ k.1 ∈ OMap.keys gs ∧ k.2 ∈ OMap.keys gs ∧ k.1 ≠ k.2 := by
  obtain ⟨i, j⟩ := k
  unfold groupPairs OMap.keys
  simp only [List.mem_flatMap, List.mem_map, List.mem_filter, decide_eq_true_eq, Prod.mk.injEq]
  constructor
  · rintro ⟨a, ha, b, ⟨hb, hne⟩, rfl, rfl⟩
    exact ⟨⟨a, ha, rfl⟩, ⟨b, hb, rfl⟩, hne⟩
  · rintro ⟨⟨a, ha, rfl⟩, ⟨b, hb, rfl⟩, hne⟩
    exact ⟨a, ha, b, ⟨hb, hne⟩, rfl, rfl⟩

theorem foldlM_filter {σ α : Type} (f : σ → α → Outcome σ) (p : α → Prop) [DecidablePred p] (l : List α) (s : σ) :
    Outcome.foldlM (fun s x => if p x then f s x else .ok s) s l =
      Outcome.foldlM f s (l.filter fun x => decide (p x)) := by
  induction l generalizing s with
  | nil => rfl
  | cons x l ih =>
    rw [Outcome.foldlM_cons, List.filter_cons]
    by_cases h : p x
    · simp only [h, if_true, decide_true, Outcome.foldlM_cons]
      congr 1
      funext s'
      exact ih s'
    · simp only [h, if_false, decide_false, Outcome.bind_ok]
      exact ih s

/-- Poses used for a pair of groups. -/
def posesFor [Group G] (ofVec : V → G) (op : OMap (Nat × Nat) (OMap Nat V)) (t : GroupTables G)
    (oo : List (ObjObs P)) (pairs : OMap (Nat × Nat) (Nat × Nat)) (k : Nat × Nat) : List (G × G) :=
  match OMap.get? t.groups k.1, OMap.get? t.groups k.2 with
  | some g1, some g2 => (commonFrames g1 g2).filterMap
      (framePoses ofVec op t oo k.1 k.2 ((OMap.get? pairs k).getD (0, 0)))
  | _, _ => []

theorem findPoses_flat [Group G] (ofVec : V → G) (op : OMap (Nat × Nat) (OMap Nat V))
    (t : GroupTables G) (hs : OMap.Sorted t.groups)
    (oo : List (ObjObs P)) (pairs : OMap (Nat × Nat) (Nat × Nat)) (he : List (G × G) → Outcome G)
    (cnt0 : OMap (Nat × Nat) Nat) :
    findPoses ofVec op t oo pairs he cnt0 =
      Outcome.foldlM (recStep (posesFor ofVec op t oo pairs) he) { pose := [], cnt := cnt0 }
        (groupPairs t.groups) := by
  unfold findPoses groupPairs
  apply foldlM_flatMap
  intro s a ha
  unfold initPairRow
  rw [foldlM_map', foldlM_filter]
  have hga := (OMap.get?_eq_some hs).2 ha
  have hcongr : ∀ (l : List (Nat × CamGroup G)) (s : PairPoses G), (∀ b ∈ l, b ∈ t.groups) →
      Outcome.foldlM (fun st b => initPair ofVec op t oo pairs he st a b) s l =
      Outcome.foldlM (fun st (b : Nat × CamGroup G) =>
        recStep (posesFor ofVec op t oo pairs) he st (a.1, b.1)) s l := by
    intro l
    induction l with
    | nil => intro s _; rfl
    | cons b l ih =>
      intro s hl
      rw [Outcome.foldlM_cons, Outcome.foldlM_cons]
      have hgb := (OMap.get?_eq_some hs).2 (hl b (by simp))
      have e : initPair ofVec op t oo pairs he s a b =
          recStep (posesFor ofVec op t oo pairs) he s (a.1, b.1) := by
        unfold initPair recStep posesFor
        rw [hga, hgb]
      rw [e]
      congr 1
      funext s'
      exact ih s' fun b hb => hl b (by simp [hb])
  exact hcongr _ s fun b hb => (List.mem_filter.1 hb).1

end Verif.Lemmas.NonOverlap
