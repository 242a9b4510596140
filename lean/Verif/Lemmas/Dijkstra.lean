import Verif.Lemmas.GraphIndex
import Mathlib.Data.Fintype.Basic
import Mathlib.Data.Finset.Card

/-! Invariant of the Dijkstra loop and correctness of the path extraction, at index level. -/
set_option linter.unusedSectionVars false
namespace Verif.Graph
open Relation

variable {α : Type} [DecidableEq α]

@[simp] theorem distLe_some {a b : Int} : distLe (some a) (some b) = true ↔ a ≤ b := by simp [distLe]
theorem distLe_refl (a : Option Int) : distLe a a = true := by cases a <;> simp [distLe]
theorem distLe_trans {a b c : Option Int} (h1 : distLe a b = true) (h2 : distLe b c = true) :
    distLe a c = true := by
  cases a <;> cases b <;> cases c <;> simp_all [distLe]; omega
theorem distLe_total {a b : Option Int} (h : ¬ distLe a b = true) : distLe b a = true := by
  cases a <;> cases b <;> simp_all [distLe]; omega

theorem firstMin_none {dist : Nat → Option Int} : ∀ {q : List Nat}, firstMin dist q = none → q = []
  | [], _ => rfl
  | x :: xs, h => by
    unfold firstMin at h
    split at h
    · simp at h
    · split at h <;> simp at h

theorem firstMin_some {dist : Nat → Option Int} : ∀ {q : List Nat} {u : Nat},
    firstMin dist q = some u → u ∈ q ∧ ∀ x ∈ q, distLe (dist u) (dist x) = true
  | [], u, h => by simp [firstMin] at h
  | x :: xs, u, h => by
    unfold firstMin at h
    split at h
    · rename_i hn
      have := firstMin_none hn
      subst this
      simp at h; subst h
      simp [distLe_refl]
    · rename_i y hy
      obtain ⟨h1, h2⟩ := firstMin_some hy
      split at h
      · rename_i hle
        simp at h; subst h
        refine ⟨by simp, ?_⟩
        intro z hz
        rcases List.mem_cons.1 hz with rfl | hz
        · exact distLe_refl _
        · exact distLe_trans hle (h2 z hz)
      · rename_i hle
        simp at h; subst h
        refine ⟨by simp [h1], ?_⟩
        intro z hz
        rcases List.mem_cons.1 hz with rfl | hz
        · exact distLe_total hle
        · exact h2 z hz

theorem popMin_none {choose : DState → Nat} {st : DState} (h : popMin choose st = none) :
    st.queue = [] := by
  unfold popMin at h
  split at h
  · simp at h
  · exact firstMin_none h

theorem popMin_some {choose : DState → Nat} {st : DState} {u : Nat}
    (h : popMin choose st = some u) :
    u ∈ st.queue ∧ ∀ x ∈ st.queue, distLe (st.dist u) (st.dist x) = true := by
  unfold popMin at h
  split at h
  · rename_i hc; simp at h; subst h; exact hc
  · exact firstMin_some h

/-- Invariant of the search.  `D`: finished vertices and the one being examined, latest first.
`P u e`: the edge `e` out of `u ∈ D` has been processed. -/
structure DInv (g : Graph α) (s : Nat) (dist : Nat → Option Int) (pred : Nat → Nat)
    (queue D : List Nat) (P : Nat → Nat × Rat → Prop) : Prop where
  src : dist s = some 0
  seen_s : s ∈ queue ∨ s ∈ D
  nodupQ : queue.Nodup
  nodupD : D.Nodup
  disj : ∀ v ∈ queue, v ∉ D
  bound : ∀ v, v ∈ queue ∨ v ∈ D → v < g.names.length
  fin : ∀ v, (v ∈ queue ∨ v ∈ D) ↔ ∃ d, dist v = some d
  nonneg : ∀ v d, dist v = some d → 0 ≤ d
  unseen : ∀ v, ¬ (v ∈ queue ∨ v ∈ D) → pred v = v
  reach : ∀ v, v ∈ queue ∨ v ∈ D → g.Reach s v
  predOK : ∀ v, v ∈ queue ∨ v ∈ D → v ≠ s → pred v ∈ D ∧
    ∃ w dp, (v, w) ∈ g.outEdges (pred v) ∧ dist (pred v) = some dp ∧ dist v = some (dp + trunc w)
  chain : ∀ l1 v l2, D = l1 ++ v :: l2 → v ≠ s → pred v ∈ l2
  mono : ∀ u ∈ D, ∀ q ∈ queue, distLe (dist u) (dist q) = true
  top : ∀ u r, D = u :: r → ∀ x ∈ D, distLe (dist x) (dist u) = true
  closed : ∀ u ∈ D, ∀ e ∈ g.outEdges u, P u e → (e.1 ∈ queue ∨ e.1 ∈ D) ∧ 0 ≤ trunc e.2 ∧
    ∃ du dv, dist u = some du ∧ dist e.1 = some dv ∧ dv ≤ du + trunc e.2

theorem DInv.init {g : Graph α} {s : Nat} (hs : s < g.names.length) :
    DInv g s (dinit s).dist (dinit s).pred (dinit s).queue (dinit s).done (fun _ _ => True) := by
  unfold dinit
  constructor <;> simp [upd, hs]
  exact ReflTransGen.refl

/-- Taking the minimum from the queue. -/
theorem DInv.pop {g : Graph α} {s : Nat} {dist pred queue D}
    (h : DInv g s dist pred queue D (fun _ _ => True)) {u : Nat} (hu : u ∈ queue)
    (hmin : ∀ x ∈ queue, distLe (dist u) (dist x) = true) :
    DInv g s dist pred (queue.erase u) (u :: D) (fun x _ => x ≠ u) := by
  have hseen : ∀ v, (v ∈ queue.erase u ∨ v ∈ u :: D) ↔ (v ∈ queue ∨ v ∈ D) := by
    intro v
    rw [h.nodupQ.mem_erase_iff, List.mem_cons]
    by_cases hv : v = u
    · subst hv; simp [hu]
    · simp [hv]
  have huD := h.disj u hu
  constructor
  · exact h.src
  · exact (hseen s).2 h.seen_s
  · exact h.nodupQ.erase u
  · exact List.nodup_cons.2 ⟨huD, h.nodupD⟩
  · intro v hv
    rw [h.nodupQ.mem_erase_iff] at hv
    simp [hv.1, h.disj v hv.2]
  · intro v hv; exact h.bound v ((hseen v).1 hv)
  · intro v; rw [hseen]; exact h.fin v
  · exact h.nonneg
  · intro v hv; rw [hseen] at hv; exact h.unseen v hv
  · intro v hv; exact h.reach v ((hseen v).1 hv)
  · intro v hv hvs
    obtain ⟨h1, h2⟩ := h.predOK v ((hseen v).1 hv) hvs
    exact ⟨List.mem_cons_of_mem _ h1, h2⟩
  · intro l1 v l2 hl hvs
    cases l1 with
    | nil =>
      simp at hl; obtain ⟨rfl, rfl⟩ := hl
      exact (h.predOK u (Or.inl hu) hvs).1
    | cons a l1 =>
      simp at hl; exact h.chain l1 v l2 hl.2 hvs
  · intro x hx q hq
    have hq' := List.mem_of_mem_erase hq
    rcases List.mem_cons.1 hx with rfl | hx
    · exact hmin q hq'
    · exact h.mono x hx q hq'
  · intro x r hr y hy
    simp at hr; obtain ⟨rfl, rfl⟩ := hr
    rcases List.mem_cons.1 hy with rfl | hy
    · exact distLe_refl _
    · exact h.mono y hy u hu
  · intro x hx e he hne
    rcases List.mem_cons.1 hx with rfl | hx
    · exact absurd rfl hne
    · obtain ⟨h1, h2⟩ := h.closed x hx e he trivial
      exact ⟨(hseen _).2 h1, h2⟩

/-- Processing one out-edge of the vertex `u` being examined. -/
theorem DInv.edge {g : Graph α} {s : Nat} (hb : g.Bounded) {st : DState} {u : Nat}
    {Q : Nat × Rat → Prop}
    (h : DInv g s st.dist st.pred st.queue (u :: st.done) (fun x e => x ≠ u ∨ Q e))
    {e : Nat × Rat} (he : e ∈ g.outEdges u) (hw : 0 ≤ trunc e.2) :
    ∃ st', visitEdge u st e = .ok st' ∧ st'.done = st.done ∧
      DInv g s st'.dist st'.pred st'.queue (u :: st'.done) (fun x e' => x ≠ u ∨ Q e' ∨ e' = e) := by
  obtain ⟨v, w⟩ := e
  have huD : u ∈ u :: st.done := by simp
  obtain ⟨du, hdu⟩ := (h.fin u).1 (Or.inr huD)
  simp only at hw
  have hvn := (hb.out he).2
  by_cases hvD : v ∈ u :: st.done
  · refine ⟨st, ?_, rfl, ?_⟩
    · unfold visitEdge
      simp only
      rw [if_neg (by omega), if_pos]
      rcases List.mem_cons.1 hvD with h | h
      · exact Or.inr h
      · exact Or.inl h
    · refine { h with closed := ?_ }
      intro x hx e' he' hP
      by_cases hold : x ≠ u ∨ Q e'
      · exact h.closed x hx e' he' hold
      · have hxu : x = u := by by_contra hh; exact hold (Or.inl hh)
        have hee : e' = (v, w) := by
          rcases hP with h1 | h1 | h1
          · exact absurd hxu h1
          · exact absurd (Or.inr h1) hold
          · exact h1
        subst hee; subst hxu
        refine ⟨Or.inr hvD, hw, ?_⟩
        obtain ⟨dv, hdv⟩ := (h.fin v).1 (Or.inr hvD)
        refine ⟨du, dv, hdu, hdv, ?_⟩
        have := h.top x st.done rfl v hvD
        rw [hdv, hdu] at this
        simp at this
        simp; omega
  · have hvu : v ≠ u := fun hh => hvD (by simp [hh])
    have hvdone : v ∉ st.done := fun hh => hvD (by simp [hh])
    -- the two non-trivial updates
    have key : ∀ q', (v ∈ q' ∧ (∀ x, x ∈ q' ↔ x ∈ st.queue ∨ x = v) ∧ q'.Nodup) →
        ¬ distLe (st.dist v) (some (du + trunc w)) = true →
        DInv g s (upd st.dist v (some (du + trunc w))) (upd st.pred v u) q' (u :: st.done)
          (fun x e' => x ≠ u ∨ Q e' ∨ e' = (v, w)) := by
      rintro q' ⟨hv', hq', hnd⟩ hlt
      have hvs : v ≠ s := by
        rintro rfl
        rw [h.src] at hlt
        simp at hlt
        have := h.nonneg u du hdu
        omega
      have hdo : ∀ x ∈ u :: st.done, upd st.dist v (some (du + trunc w)) x = st.dist x := by
        intro x hx
        unfold upd; rw [if_neg]; rintro rfl; exact hvD hx
      have hseen : ∀ x, (x ∈ q' ∨ x ∈ u :: st.done) ↔
          ((x ∈ st.queue ∨ x ∈ u :: st.done) ∨ x = v) := by
        intro x; rw [hq']; tauto
      constructor
      · unfold upd; rw [if_neg (Ne.symm hvs)]; exact h.src
      · exact (hseen s).2 (Or.inl h.seen_s)
      · exact hnd
      · exact h.nodupD
      · intro x hx
        rcases (hq' x).1 hx with hx | rfl
        · exact h.disj x hx
        · exact hvD
      · intro x hx
        rcases (hseen x).1 hx with hx | rfl
        · exact h.bound x hx
        · exact hvn
      · intro x
        rw [hseen]
        unfold upd
        by_cases hxv : x = v
        · simp [hxv]
        · simp only [hxv, or_false, if_false]; exact h.fin x
      · intro x d hd
        unfold upd at hd
        split at hd
        · simp at hd; have := h.nonneg u du hdu; omega
        · exact h.nonneg x d hd
      · intro x hx
        rw [hseen] at hx
        unfold upd
        rw [if_neg (fun hh => hx (Or.inr hh))]
        exact h.unseen x (fun hh => hx (Or.inl hh))
      · intro x hx
        rcases (hseen x).1 hx with hx | rfl
        · exact h.reach x hx
        · exact (h.reach u (Or.inr huD)).tail ⟨w, he⟩
      · intro x hx hxs
        by_cases hxv : x = v
        · subst hxv
          refine ⟨by simp [upd], w, du, ?_, ?_, ?_⟩
          · simpa [upd] using he
          · have : upd st.pred x u x = u := by simp [upd]
            rw [this, hdo u huD]; exact hdu
          · simp [upd]
        · have hx' := ((hseen x).1 hx).resolve_right hxv
          obtain ⟨h1, w', dp, h2, h3, h4⟩ := h.predOK x hx' hxs
          have hp : upd st.pred v u x = st.pred x := by simp [upd, hxv]
          rw [hp]
          refine ⟨h1, w', dp, h2, ?_, ?_⟩
          · rw [hdo _ h1]; exact h3
          · simp only [upd, hxv, if_false]; exact h4
      · intro l1 x l2 hl hxs
        have hxD : x ∈ u :: st.done := by rw [hl]; simp
        have hxv : x ≠ v := by rintro rfl; exact hvD hxD
        have hp : upd st.pred v u x = st.pred x := by simp [upd, hxv]
        rw [hp]; exact h.chain l1 x l2 hl hxs
      · intro x hx q hq
        rw [hdo x hx]
        by_cases hqv : q = v
        · subst hqv
          have := h.top u st.done rfl x hx
          refine distLe_trans this ?_
          rw [hdu]; simp [upd]; omega
        · have hq'' := ((hq' q).1 hq).resolve_right hqv
          simp only [upd, hqv, if_false]
          exact h.mono x hx q hq''
      · intro x r hr y hy
        have hxu : x = u := by simp at hr; exact hr.1.symm
        subst hxu
        rw [hdo x huD, hdo y hy]
        exact h.top x st.done rfl y hy
      · intro x hx e' he' hP
        by_cases hold : x ≠ u ∨ Q e'
        · obtain ⟨h1, h2, dx, de, h3, h4, h5⟩ := h.closed x hx e' he' hold
          refine ⟨(hseen _).2 (Or.inl h1), h2, ?_⟩
          rw [hdo x hx]
          by_cases hev : e'.1 = v
          · refine ⟨dx, du + trunc w, h3, by simp [upd, hev], ?_⟩
            have : ¬ distLe (some de) (some (du + trunc w)) = true := by
              rw [← h4, hev]; exact hlt
            simp at this; omega
          · exact ⟨dx, de, h3, by simp [upd, hev, h4], h5⟩
        · have hxu : x = u := by by_contra hh; exact hold (Or.inl hh)
          have hee : e' = (v, w) := by
            rcases hP with h1 | h1 | h1
            · exact absurd hxu h1
            · exact absurd (Or.inr h1) hold
            · exact h1
          subst hee; subst hxu
          refine ⟨Or.inl hv', hw, du, du + trunc w, ?_, by simp [upd], Int.le_refl _⟩
          rw [hdo x hx]; exact hdu
    by_cases hvq : v ∈ st.queue
    · refine ⟨relax u v w st, ?_, ?_, ?_⟩
      · unfold visitEdge
        simp only
        rw [if_neg (by omega), if_neg, if_pos hvq]
        rintro (hh | hh)
        · exact hvdone hh
        · exact hvu hh
      · unfold relax; rw [hdu]; simp only; split <;> rfl
      · unfold relax
        rw [hdu]; simp only
        split
        · rename_i hle
          refine { h with closed := ?_ }
          intro x hx e' he' hP
          by_cases hold : x ≠ u ∨ Q e'
          · exact h.closed x hx e' he' hold
          · have hxu : x = u := by by_contra hh; exact hold (Or.inl hh)
            have hee : e' = (v, w) := by
              rcases hP with h1 | h1 | h1
              · exact absurd hxu h1
              · exact absurd (Or.inr h1) hold
              · exact h1
            subst hee; subst hxu
            refine ⟨Or.inl hvq, hw, ?_⟩
            obtain ⟨dv, hdv⟩ := (h.fin v).1 (Or.inl hvq)
            refine ⟨du, dv, hdu, hdv, ?_⟩
            rw [hdv] at hle
            simpa using hle
        · rename_i hle
          exact key st.queue ⟨hvq, fun x => ⟨Or.inl, fun hh => hh.elim id (fun e => e ▸ hvq)⟩,
            h.nodupQ⟩ hle
    · have hnone : st.dist v = none := by
        cases hd : st.dist v with
        | none => rfl
        | some d =>
          exact absurd ((h.fin v).2 ⟨d, hd⟩) (by rintro (hh | hh); exacts [hvq hh, hvD hh])
      have hlt : ¬ distLe (st.dist v) (some (du + trunc w)) = true := by
        rw [hnone]; simp [distLe]
      refine ⟨{ relax u v w st with queue := (relax u v w st).queue ++ [v] }, ?_, ?_, ?_⟩
      · unfold visitEdge
        simp only
        rw [if_neg (by omega), if_neg, if_neg hvq]
        rintro (hh | hh)
        · exact hvdone hh
        · exact hvu hh
      · unfold relax; rw [hdu]; simp only; split <;> rfl
      · unfold relax
        rw [hdu]; simp only
        rw [if_neg hlt]
        simp only
        refine key (st.queue ++ [v]) ⟨by simp, by simp, ?_⟩ hlt
        rw [List.nodup_append]
        refine ⟨h.nodupQ, by simp, ?_⟩
        intro a ha b hb' hab
        simp at hb'; subst hb'; subst hab; exact hvq ha

/-- Processing all out-edges of `u`. -/
theorem DInv.edges {g : Graph α} {s : Nat} (hb : g.Bounded) {u : Nat} :
    ∀ (L : List (Nat × Rat)) {st : DState} {Q : Nat × Rat → Prop},
    DInv g s st.dist st.pred st.queue (u :: st.done) (fun x e => x ≠ u ∨ Q e) →
    (∀ e ∈ L, e ∈ g.outEdges u) → (∀ e ∈ L, 0 ≤ trunc e.2) →
    ∃ st', Outcome.foldlM (visitEdge u) st L = .ok st' ∧ st'.done = st.done ∧
      DInv g s st'.dist st'.pred st'.queue (u :: st'.done) (fun x e => x ≠ u ∨ Q e ∨ e ∈ L)
  | [], st, Q, h, _, _ => ⟨st, rfl, rfl, by simpa using h⟩
  | e :: L, st, Q, h, hL, hw => by
    obtain ⟨st1, h1, h2, h3⟩ := h.edge hb (hL e (by simp)) (hw e (by simp))
    obtain ⟨st2, h4, h5, h6⟩ := DInv.edges hb L (Q := fun e' => Q e' ∨ e' = e) h3
      (fun x hx => hL x (by simp [hx])) (fun x hx => hw x (by simp [hx]))
    refine ⟨st2, ?_, h5.trans h2, ?_⟩
    · rw [Outcome.foldlM_cons, h1]; exact h4
    · refine { h6 with closed := ?_ }
      intro x hx e' he' hP
      refine h6.closed x hx e' he' ?_
      rcases hP with hP | hP | hP
      · exact Or.inl hP
      · exact Or.inr (Or.inl (Or.inl hP))
      · rcases List.mem_cons.1 hP with rfl | hP
        · exact Or.inr (Or.inl (Or.inr rfl))
        · exact Or.inr (Or.inr hP)

theorem nodup_bounded_length {n : Nat} {l : List Nat} (hd : l.Nodup) (hb : ∀ v ∈ l, v < n) :
    l.length ≤ n := by
  have h : l ⊆ List.range n := fun x hx => by simpa using hb x hx
  have := (List.subperm_of_subset hd h).length_le
  simpa using this

/-! A loop either succeeds or throws. -/
theorem visitEdges_neg {u : Nat} : ∀ (L : List (Nat × Rat)) (st : DState),
    (∃ e ∈ L, trunc e.2 < 0) → Outcome.foldlM (visitEdge u) st L = .throw
  | [], st, h => by simp at h
  | e :: L, st, h => by
    rw [Outcome.foldlM_cons]
    by_cases he : trunc e.2 < 0
    · have : visitEdge u st e = .throw := by unfold visitEdge; rw [if_pos he]
      rw [this]; rfl
    · have hL : ∃ e ∈ L, trunc e.2 < 0 := by
        obtain ⟨e', he', h'⟩ := h
        rcases List.mem_cons.1 he' with rfl | he'
        · exact absurd h' he
        · exact ⟨e', he', h'⟩
      have : ∃ st', visitEdge u st e = .ok st' := by
        unfold visitEdge; rw [if_neg he]; split
        · exact ⟨_, rfl⟩
        · split <;> exact ⟨_, rfl⟩
      obtain ⟨st', hst'⟩ := this
      rw [hst']
      exact visitEdges_neg L st' hL

theorem dloop_cases {g : Graph α} {s : Nat} (hb : g.Bounded) (choose : DState → Nat) :
    ∀ (f : Nat) (st : DState), g.names.length + 1 ≤ f + st.done.length →
    DInv g s st.dist st.pred st.queue st.done (fun _ _ => True) →
    (∃ st', dloop g choose f st = .ok st' ∧ st'.queue = [] ∧
      DInv g s st'.dist st'.pred st'.queue st'.done (fun _ _ => True)) ∨
    (dloop g choose f st = .throw ∧ ∃ u, g.Reach s u ∧ ∃ e ∈ g.outEdges u, trunc e.2 < 0)
  | 0, st, hf, h => by
    have := nodup_bounded_length h.nodupD (fun v hv => h.bound v (Or.inr hv))
    omega
  | f + 1, st, hf, h => by
    unfold dloop
    split
    · rename_i hn; exact Or.inl ⟨st, rfl, popMin_none hn, h⟩
    · rename_i u hu
      obtain ⟨hu1, hu2⟩ := popMin_some hu
      by_cases hneg : ∃ e ∈ g.outEdges u, trunc e.2 < 0
      · rw [visitEdges_neg _ _ hneg]
        exact Or.inr ⟨rfl, u, h.reach u (Or.inl hu1), hneg⟩
      have h1 := h.pop hu1 hu2
      have h1' : DInv g s st.dist st.pred (st.queue.erase u) (u :: st.done)
          (fun x e => x ≠ u ∨ False) := by simpa using h1
      obtain ⟨st2, h2, h3, h4⟩ := DInv.edges hb (g.outEdges u)
        (st := { st with queue := st.queue.erase u }) (Q := fun _ => False) h1'
        (fun _ h => h) (fun e he => by
          by_contra hlt; exact hneg ⟨e, he, by omega⟩)
      rw [h2]
      simp only [Outcome.bind]
      refine dloop_cases hb choose f _ ?_ ?_
      · simp only [List.length_cons, h3]; omega
      · refine { h4 with closed := ?_ }
        intro x hx e he _
        refine h4.closed x hx e he ?_
        by_cases hxu : x = u
        · subst hxu; exact Or.inr (Or.inr he)
        · exact Or.inl hxu

/-- Dijkstra terminates normally with the invariant and an empty queue, or throws because of a
negative edge. -/
theorem dijkstra_cases {g : Graph α} {s : Nat} (hb : g.Bounded) (hs : s < g.names.length)
    (choose : DState → Nat) :
    (∃ st, dijkstra g choose s = .ok st ∧
      DInv g s st.dist st.pred [] st.done (fun _ _ => True)) ∨
    (dijkstra g choose s = .throw ∧ ∃ u, g.Reach s u ∧ ∃ e ∈ g.outEdges u, trunc e.2 < 0) := by
  rcases dloop_cases hb choose (g.names.length + 1) (dinit s) (by simp) (DInv.init hs) with
    ⟨st, h1, h2, h3⟩ | h
  · exact Or.inl ⟨st, h1, h2 ▸ h3⟩
  · exact Or.inr h

theorem dijkstra_inv {g : Graph α} {s : Nat} (hb : g.Bounded) (hs : s < g.names.length)
    (choose : DState → Nat)
    (hw : ∀ u, g.Reach s u → ∀ e ∈ g.outEdges u, 0 ≤ trunc e.2) :
    ∃ st, dijkstra g choose s = .ok st ∧
      DInv g s st.dist st.pred [] st.done (fun _ _ => True) := by
  rcases dijkstra_cases hb hs choose with h | ⟨_, u, hu, e, he, hlt⟩
  · exact h
  · have := hw u hu e he; omega

theorem DInv.done_reach {g : Graph α} {s : Nat} {dist pred D}
    (h : DInv g s dist pred [] D (fun _ _ => True)) (v : Nat) : v ∈ D ↔ g.Reach s v := by
  constructor
  · intro hv; exact h.reach v (Or.inr hv)
  · intro hv
    induction hv with
    | refl => simpa using h.seen_s
    | tail _ hbc ih =>
      obtain ⟨w, hw⟩ := hbc
      have := (h.closed _ ih _ hw trivial).1
      simpa using this

/-! ### Following predecessors -/

theorem walkBack_mono {pred : Nat → Nat} {s : Nat} : ∀ {f f' : Nat} {c : Nat} {p : List Nat},
    f ≤ f' → walkBack pred s f c = some p → walkBack pred s f' c = some p
  | 0, _, _, _, _, h => by simp [walkBack] at h
  | f + 1, 0, c, p, hf, h => by omega
  | f + 1, f' + 1, c, p, hf, h => by
    unfold walkBack at h ⊢
    split at h
    · rename_i hc; rw [if_pos hc]; exact h
    · rename_i hc
      rw [if_neg hc]
      rw [Option.map_eq_some_iff] at h
      obtain ⟨q, hq, rfl⟩ := h
      rw [walkBack_mono (by omega) hq]; rfl

theorem walkBack_self_none {pred : Nat → Nat} {s d : Nat} (hd : pred d = d) (hne : d ≠ s) :
    ∀ f, walkBack pred s f d = none
  | 0 => rfl
  | f + 1 => by
    unfold walkBack
    rw [if_neg hne, hd, walkBack_self_none hd hne f]; rfl

/-- Index-level walks with the total of the truncated weights. -/
inductive IWalk (g : Graph α) : Nat → Nat → List Nat → Int → Prop
  | nil (a) : IWalk g a a [a] 0
  | cons {a b c w p k} : (b, w) ∈ g.outEdges a → IWalk g b c p k →
      IWalk g a c (a :: p) (trunc w + k)

theorem IWalk.snoc {g : Graph α} {a b c : Nat} {p : List Nat} {k : Int} {w : Rat}
    (h : IWalk g a b p k) (he : (c, w) ∈ g.outEdges b) : IWalk g a c (p ++ [c]) (k + trunc w) := by
  induction h with
  | nil a =>
    have := IWalk.cons he (IWalk.nil c)
    simpa [Int.add_comm] using this
  | cons h1 _ ih =>
    have := IWalk.cons h1 (ih he)
    simpa [Int.add_assoc] using this

theorem IWalk.reach {g : Graph α} {a b : Nat} {p : List Nat} {k : Int}
    (h : IWalk g a b p k) : g.Reach a b := by
  induction h with
  | nil => exact ReflTransGen.refl
  | cons h _ ih => exact ReflTransGen.head ⟨_, h⟩ ih

/-- The path found: following predecessors from a finished vertex ends at the source after at most
`|D|` rounds, visits each vertex once, uses edges, and its length is the distance. -/
theorem walkBack_spec {g : Graph α} {s : Nat} {dist pred D}
    (h : DInv g s dist pred [] D (fun _ _ => True)) :
    ∀ (l1 l2 : List Nat) (v : Nat), D = l1 ++ v :: l2 →
    ∃ p k, walkBack pred s (l2.length + 1) v = some p ∧ (∀ x ∈ p, x ∈ v :: l2) ∧ p.Nodup ∧
      dist v = some k ∧ IWalk g s v p.reverse k := by
  intro l1 l2
  induction hn : l2.length using Nat.strongRecOn generalizing l1 l2 with
  | _ n ih =>
    intro v hD
    by_cases hvs : v = s
    · subst hvs
      refine ⟨[v], 0, ?_, by simp, by simp, h.src, ?_⟩
      · unfold walkBack; simp
      · simpa using IWalk.nil v
    · have hp := h.chain l1 v l2 hD hvs
      obtain ⟨m1, m2, hm⟩ := List.append_of_mem hp
      have hD' : D = (l1 ++ v :: m1) ++ pred v :: m2 := by rw [hD, hm]; simp
      have hlen : m2.length < n := by rw [← hn, hm]; simp; omega
      obtain ⟨p, k, h1, h2, h3, h4, h5⟩ := ih m2.length hlen _ m2 rfl (pred v) hD'
      have hvD : v ∈ D := by rw [hD]; simp
      obtain ⟨_, w, dp, h6, h7, h8⟩ := h.predOK v (Or.inr hvD) hvs
      have hk : dp = k := by rw [h4] at h7; simpa using h7.symm
      subst hk
      have hsub : ∀ x ∈ p, x ∈ l2 := by
        intro x hx
        rw [hm]
        have := h2 x hx
        simp only [List.mem_append]; exact Or.inr this
      refine ⟨v :: p, dp + trunc w, ?_, ?_, ?_, h8, ?_⟩
      · unfold walkBack
        rw [if_neg hvs, walkBack_mono (f := m2.length + 1) (by omega) h1]; rfl
      · intro x hx
        rcases List.mem_cons.1 hx with rfl | hx
        · simp
        · exact List.mem_cons_of_mem _ (hsub x hx)
      · refine List.nodup_cons.2 ⟨fun hvp => ?_, h3⟩
        have hnd := h.nodupD
        rw [hD] at hnd
        have := (List.nodup_append.1 hnd).2.1
        exact (List.nodup_cons.1 this).1 (hsub v hvp)
      · rw [List.reverse_cons]; exact h5.snoc h6

/-- No walk from the source is shorter than the distance. -/
theorem IWalk.dist_le {g : Graph α} {s : Nat} {dist pred D}
    (h : DInv g s dist pred [] D (fun _ _ => True)) {a b : Nat} {p : List Nat} {k : Int}
    (hwk : IWalk g a b p k) : a ∈ D → ∀ da, dist a = some da →
    ∃ db, dist b = some db ∧ db ≤ da + k := by
  induction hwk with
  | nil => intro _ da hda; exact ⟨da, hda, by omega⟩
  | cons he _ ih =>
    intro ha da hda
    obtain ⟨h1, _, du, dv, h3, h4, h5⟩ := h.closed _ ha _ he trivial
    simp at h1 h4 h5
    obtain ⟨db, h6, h7⟩ := ih h1 dv h4
    rw [hda] at h3
    simp at h3
    subst h3
    exact ⟨db, h6, by omega⟩

end Verif.Graph
