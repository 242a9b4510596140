import Verif.Lemmas.GraphHistory

/-! Neighbours of the source of a search: a direct edge that is a shortest walk is the path returned. -/
namespace Verif.Lemmas.DijkstraDirect
open Verif Verif.Graph Verif.Spec.Graph Relation

variable {α : Type} [DecidableEq α]

/-- The neighbours of the source are not farther than their edge, and those at the end of a shortest edge point to the
source. -/
def Near (s : Nat) (L : List (Nat × Rat)) (st : DState) : Prop :=
  ∀ e ∈ L, e.1 ≠ s → ∃ d, st.dist e.1 = some d ∧ d ≤ trunc e.2 ∧ (d = trunc e.2 → st.pred e.1 = s)

theorem relax_cases (u v : Nat) (w : Rat) (st : DState) :
    (∀ x, (relax u v w st).dist x = st.dist x ∧ (relax u v w st).pred x = st.pred x) ∨
    ∃ du, st.dist u = some du ∧ distLe (st.dist v) (some (du + trunc w)) = false ∧
      (∀ x, (relax u v w st).dist x = if x = v then some (du + trunc w) else st.dist x) ∧
      (∀ x, (relax u v w st).pred x = if x = v then u else st.pred x) := by
  unfold relax
  split
  · exact Or.inl fun _ => ⟨rfl, rfl⟩
  · rename_i du hdu
    dsimp only
    split
    · exact Or.inl fun _ => ⟨rfl, rfl⟩
    · rename_i hh
      exact Or.inr ⟨du, hdu, by simpa using hh, fun x => rfl, fun x => rfl⟩

theorem relax_near (s u v : Nat) (w : Rat) (L : List (Nat × Rat)) (st : DState) (h : Near s L st) :
    Near s L (relax u v w st) := by
  rcases relax_cases u v w st with hc | ⟨du, h1, h2, h3, h4⟩
  · intro e he hs
    obtain ⟨d, q1, q2, q3⟩ := h e he hs
    exact ⟨d, by rw [(hc _).1]; exact q1, q2, fun q => by rw [(hc _).2]; exact q3 q⟩
  · intro e he hs
    obtain ⟨d, q1, q2, q3⟩ := h e he hs
    rw [h3, h4]
    split
    · rename_i hv
      rw [hv] at q1
      rw [q1] at h2
      have : ¬ d ≤ du + trunc w := by
        intro hle
        rw [distLe_some.2 hle] at h2
        cases h2
      exact ⟨_, rfl, by omega, fun q => by omega⟩
    · exact ⟨d, q1, q2, q3⟩

/-- The state after one edge, apart from the queue. -/
theorem visitEdge_relax {u : Nat} {st st' : DState} {e : Nat × Rat} (h : visitEdge u st e = .ok st') :
    st'.done = st.done ∧ (((e.1 ∈ st.done ∨ e.1 = u) ∧ st' = st) ∨
      (st'.dist = (relax u e.1 e.2 st).dist ∧ st'.pred = (relax u e.1 e.2 st).pred)) := by
  have hd : (relax u e.1 e.2 st).done = st.done := by
    unfold relax; split
    · rfl
    · dsimp only; split <;> rfl
  unfold visitEdge at h
  split at h
  · cases h
  · split at h
    · rename_i hh
      cases h
      exact ⟨rfl, Or.inl ⟨hh, rfl⟩⟩
    · split at h
      · cases h
        exact ⟨hd, Or.inr ⟨rfl, rfl⟩⟩
      · cases h
        exact ⟨hd, Or.inr ⟨rfl, rfl⟩⟩

theorem visitEdge_near {s u : Nat} {L : List (Nat × Rat)} {st st' : DState} {e : Nat × Rat}
    (h : visitEdge u st e = .ok st') (hn : Near s L st) : Near s L st' := by
  rcases (visitEdge_relax h).2 with ⟨_, rfl⟩ | ⟨h1, h2⟩
  · exact hn
  · intro x hx hs
    rw [h1, h2]
    exact relax_near s u e.1 e.2 L st hn x hx hs

theorem dloop_near {g : Graph α} {choose : DState → Nat} {s : Nat} {L : List (Nat × Rat)} :
    ∀ (f : Nat) (st st' : DState), Near s L st → dloop g choose f st = .ok st' → Near s L st'
  | 0, st, st', hn, h => by cases h; exact hn
  | f + 1, st, st', hn, h => by
    unfold dloop at h
    split at h
    · cases h; exact hn
    · rename_i u hu
      cases hf : Outcome.foldlM (visitEdge u) { st with queue := st.queue.erase u } (g.outEdges u) with
      | ok t =>
        rw [hf] at h
        have ht : Near s L t := Outcome.foldlM_inv (Near s L) (fun a b e _ ha hb => visitEdge_near hb ha)
          (show Near s L { st with queue := st.queue.erase u } from hn) hf
        exact dloop_near f { t with done := u :: t.done } st' ht h
      | throw => rw [hf] at h; cases h
      | ub => rw [hf] at h; cases h
      | diverge => rw [hf] at h; cases h

/-- While the source is examined. -/
def First (s : Nat) (L : List (Nat × Rat)) (st : DState) : Prop :=
  st.dist s = some 0 ∧ st.done = [] ∧ (∀ v d, v ≠ s → st.dist v = some d → st.pred v = s) ∧
  ∀ e ∈ L, e.1 ≠ s → ∃ d, st.dist e.1 = some d ∧ d ≤ trunc e.2

theorem first_step {s : Nat} {L : List (Nat × Rat)} {st st' : DState} {e : Nat × Rat}
    (h : visitEdge s st e = .ok st') (hf : First s L st) : First s (L ++ [e]) st' := by
  obtain ⟨h0, h1, h2, h3⟩ := hf
  obtain ⟨hd, hc⟩ := visitEdge_relax h
  rcases hc with ⟨hs, rfl⟩ | ⟨q1, q2⟩
  · refine ⟨h0, h1, h2, ?_⟩
    intro x hx hxs
    rcases List.mem_append.1 hx with hx | hx
    · exact h3 x hx hxs
    · simp only [List.mem_singleton] at hx
      subst hx
      rw [h1] at hs
      simp [hxs] at hs
  · by_cases hes : e.1 = s
    · have hst : st' = st := by
        unfold visitEdge at h
        split at h
        · cases h
        · rw [if_pos (Or.inr hes)] at h
          cases h; rfl
      subst hst
      refine ⟨h0, h1, h2, ?_⟩
      intro x hx hxs
      rcases List.mem_append.1 hx with hx | hx
      · exact h3 x hx hxs
      · simp only [List.mem_singleton] at hx
        subst hx
        exact absurd hes hxs
    · rcases relax_cases s e.1 e.2 st with hc | ⟨du, r1, r2, r3, r4⟩
      · refine ⟨by rw [q1, (hc _).1]; exact h0, by rw [hd]; exact h1, ?_, ?_⟩
        · intro v d hv hdv
          rw [q1, (hc _).1] at hdv
          rw [q2, (hc _).2]
          exact h2 v d hv hdv
        · intro x hx hxs
          rw [q1, (hc _).1]
          rcases List.mem_append.1 hx with hx | hx
          · exact h3 x hx hxs
          · simp only [List.mem_singleton] at hx
            subst hx
            -- the relaxation changed nothing although the source is at distance 0
            have : (relax s x.1 x.2 st).dist x.1 = st.dist x.1 := (hc _).1
            unfold relax at this
            rw [h0] at this
            dsimp only at this
            split at this
            · rename_i hle
              cases hdx : st.dist x.1 with
              | none => rw [hdx] at hle; cases hle
              | some d =>
                rw [hdx] at hle
                exact ⟨d, rfl, by have := distLe_some.1 hle; omega⟩
            · simp only [upd, if_true] at this
              exact ⟨_, this.symm, by omega⟩
      · rw [h0] at r1
        simp only [Option.some.injEq] at r1
        subst r1
        refine ⟨?_, by rw [hd]; exact h1, ?_, ?_⟩
        · rw [q1, r3, if_neg (Ne.symm hes)]; exact h0
        · intro v d hv hdv
          rw [q2, r4]
          split
          · rfl
          · rename_i hve
            rw [q1, r3, if_neg hve] at hdv
            exact h2 v d hv hdv
        · intro x hx hxs
          rw [q1, r3]
          by_cases hxe : x.1 = e.1
          · rw [if_pos hxe]
            refine ⟨_, rfl, ?_⟩
            rcases List.mem_append.1 hx with hx | hx
            · obtain ⟨d, p1, p2⟩ := h3 x hx hxs
              rw [hxe] at p1
              rw [p1] at r2
              have : ¬ d ≤ 0 + trunc e.2 := by
                intro hle
                rw [distLe_some.2 hle] at r2
                cases r2
              omega
            · simp only [List.mem_singleton] at hx
              subst hx
              omega
          · rw [if_neg hxe]
            rcases List.mem_append.1 hx with hx | hx
            · exact h3 x hx hxs
            · simp only [List.mem_singleton] at hx
              exact absurd (by rw [hx]) hxe

theorem first_fold {s : Nat} : ∀ (M : List (Nat × Rat)) {L : List (Nat × Rat)} {st st' : DState},
    First s L st → Outcome.foldlM (visitEdge s) st M = .ok st' → First s (L ++ M) st'
  | [], L, st, st', h, e => by cases e; simpa using h
  | x :: M, L, st, st', h, e => by
    rw [Outcome.foldlM_cons] at e
    cases hx : visitEdge s st x with
    | ok t =>
      rw [hx] at e
      have := first_fold M (first_step hx h) e
      simpa using this
    | throw => rw [hx] at e; cases e
    | ub => rw [hx] at e; cases e
    | diverge => rw [hx] at e; cases e

theorem dijkstra_near {g : Graph α} {choose : DState → Nat} {s : Nat} {st : DState}
    (h : dijkstra g choose s = .ok st) : Near s (g.outEdges s) st := by
  have hp : popMin choose (dinit s) = some s := by
    unfold popMin
    split
    · rename_i hc
      have := hc.1
      simp only [dinit, List.mem_singleton] at this
      rw [show choose (dinit s) = s from this]
    · rfl
  unfold dijkstra at h
  unfold dloop at h
  rw [hp] at h
  dsimp only at h
  cases hf : Outcome.foldlM (visitEdge s) { dinit s with queue := (dinit s).queue.erase s } (g.outEdges s) with
  | ok t =>
    rw [hf] at h
    have hF : First s ([] ++ g.outEdges s) t := by
      refine first_fold _ ?_ hf
      refine ⟨by simp [dinit, upd], rfl, ?_, by simp⟩
      intro v d hv hd
      simp [dinit, upd, hv] at hd
    refine dloop_near g.names.length _ st ?_ h
    intro e he hs
    obtain ⟨d, p1, p2⟩ := hF.2.2.2 e (by simpa using he) hs
    exact ⟨d, p1, p2, fun _ => hF.2.2.1 _ d hs p1⟩
  | throw => rw [hf] at h; cases h
  | ub => rw [hf] at h; cases h
  | diverge => rw [hf] at h; cases h

/-- A direct edge that is a shortest walk is the path returned. -/
theorem direct {g : Graph α} {h : List (Call α)} (r : Rep g h) (choose : DState → Nat) {a b : α} {w : Rat}
    (hne : a ≠ b) (hab : Step h a b w) (ha : a ∈ vertices h)
    (hw : ∀ x y w, Linked h a x → Step h x y w → 0 ≤ trunc w)
    (hmin : ∀ p k, Walk h trunc a b p k → trunc w ≤ k) :
    g.shortestPathBetween choose a b = .ok [a, b] := by
  rw [← r.names] at ha
  obtain ⟨i, hi, hia⟩ := List.getElem_of_mem ha
  have hia' : g.names[i]? = some a := List.getElem?_eq_some_iff.2 ⟨hi, hia⟩
  obtain ⟨j, hjb, hr⟩ := r.linked_reach (ReflTransGen.single ⟨w, hab⟩ : Linked h a b) hia'
  have he : (j, w) ∈ g.outEdges i := r.out_iff.2 ⟨a, b, hia', hjb, hab⟩
  have hij : j ≠ i := by
    rintro rfl
    rw [hia'] at hjb
    exact hne (Option.some.inj hjb)
  obtain ⟨st, hst, hinv⟩ := dijkstra_inv r.bounded hi choose (fun u hu e he => by
    obtain ⟨x, y, hx, _, hs⟩ := r.out_iff.1 he
    obtain ⟨x', hx', hl⟩ := r.reach_linked hu hia'
    rw [hx] at hx'; simp at hx'; subst hx'
    exact hw x y e.2 hl hs)
  obtain ⟨d, h1, h2, h3⟩ := dijkstra_near hst _ he hij
  have hjD : j ∈ st.done := (hinv.done_reach j).2 hr
  obtain ⟨l1, l2, hD⟩ := List.append_of_mem hjD
  obtain ⟨p, k, _, _, _, h4, h5⟩ := walkBack_spec hinv l1 l2 j hD
  obtain ⟨b', hb', hwk⟩ := r.iwalk_walk h5 hia'
  rw [hjb] at hb'; simp at hb'; subst hb'
  have hk := hmin _ _ hwk
  dsimp only at h1 h2 h3
  rw [h1] at h4
  simp only [Option.some.injEq] at h4
  subst h4
  have hpred := h3 (by omega)
  have hlen : 1 ≤ g.names.length := by omega
  obtain ⟨n, hn⟩ : ∃ n, g.names.length = n + 1 := ⟨g.names.length - 1, by omega⟩
  have hwb : walkBack st.pred i (g.names.length + 1) j = some [j, i] := by
    rw [hn]
    unfold walkBack
    rw [if_neg hij, hpred]
    unfold walkBack
    simp
  unfold shortestPathBetween
  rw [(r.find a i).2 hia', (r.find b j).2 hjb]
  simp only [hst, Outcome.bind_ok, getPath, hwb]
  simp [hia', hjb]

end Verif.Lemmas.DijkstraDirect
