import Verif.Lemmas.Objects

namespace Verif.Lemmas.Objects
open Verif Verif.Objects Verif.Spec.Objects

variable {G Pt P Path : Type}

/-- The points of one board are overwritten. -/
theorem foldlM_updatePt {size : Nat → Nat} (o : Object G Pt) (hn : Numbering size o) (b : Nat)
    (hb : b ∈ OMap.keys o.boards) (q : List Pt) (hq : q.length ≤ size b) :
    ∃ pts', Outcome.foldlM (updatePt b) o q.zipIdx = .ok { o with pts := pts' } ∧
      pts'.length = o.pts.length ∧
      (∀ i : Nat, (∀ k, o.o2b[i]? ≠ some (b, k)) → pts'[i]? = o.pts[i]?) ∧
      ∀ i k : Nat, o.o2b[i]? = some (b, k) → k < q.length → pts'[i]? = q[k]? := by
  induction q using List.reverseRecOn with
  | nil => exact ⟨o.pts, rfl, rfl, fun _ _ => rfl, fun _ _ _ h => absurd h (by simp)⟩
  | append_singleton q x ih =>
    rw [List.length_append, List.length_singleton] at hq
    obtain ⟨pts', e, h1, h2, h3⟩ := ih (by omega)
    have hmem : (b, q.length) ∈ o.o2b := (hn.mem b q.length).2 ⟨hb, by omega⟩
    obtain ⟨j, hj⟩ := List.mem_iff_getElem?.1 hmem
    have hjl : j < o.o2b.length := (List.getElem?_eq_some_iff.1 hj).1
    have hjp : j < pts'.length := by rw [h1, hn.pts_length]; exact hjl
    have hget := (hn.inverse (b, q.length) j).2 hj
    refine ⟨pts'.set j x, ?_, by simp [h1], ?_, ?_⟩
    · rw [List.zipIdx_append, Outcome.foldlM_append, e, Outcome.bind_ok]
      simp only [List.zipIdx_cons, List.zipIdx_nil, Outcome.foldlM_cons, Outcome.foldlM_nil,
        Nat.zero_add]
      unfold updatePt
      simp only [hget, Option.getD_some]
      rw [if_pos hjp, Outcome.bind_ok]
    · intro i hi
      rw [List.getElem?_set_ne, h2 i hi]
      rintro rfl
      exact hi _ hj
    · intro i k hi hk
      rw [List.length_append, List.length_singleton] at hk
      by_cases hij : j = i
      · subst hij
        rw [hj] at hi
        simp only [Option.some.injEq, Prod.mk.injEq, true_and] at hi
        subst hi
        rw [List.getElem?_set_self hjp]
        simp
      · rw [List.getElem?_set_ne hij]
        have hk' : k < q.length := by
          rcases Nat.lt_succ_iff_lt_or_eq.1 hk with h | h
          · exact h
          · exfalso
            subst h
            have := (hn.inverse _ i).2 hi
            rw [hget] at this
            simp only [Option.some.injEq] at this
            exact hij this
        rw [h3 i k hi hk', List.getElem?_append_left hk']

theorem foldlM_updateBoard [Group G] [SMul G Pt] {bpts : List (List Pt)} (o : Object G Pt)
    (hn : Numbering (cornerCount bpts) o) (hv : ∀ b ∈ OMap.keys o.boards, b < bpts.length)
    (hp : ∀ b ∈ OMap.keys o.boards, ∃ g, OMap.get? o.poses b = some g)
    (bs : List (Nat × Unit)) (hbs : ∀ e ∈ bs, e.1 ∈ OMap.keys o.boards) :
    ∃ pts', Outcome.foldlM (updateBoard bpts) o bs = .ok { o with pts := pts' } ∧
      pts'.length = o.pts.length ∧
      (∀ i : Nat, (∀ b k, o.o2b[i]? = some (b, k) → (b, ()) ∉ bs) → pts'[i]? = o.pts[i]?) ∧
      ∀ i b k : Nat, o.o2b[i]? = some (b, k) → (b, ()) ∈ bs → ∃ g ps p,
        OMap.get? o.poses b = some g ∧ bpts[b]? = some ps ∧ ps[k]? = some p ∧
        pts'[i]? = some (g • p) := by
  induction bs using List.reverseRecOn with
  | nil => exact ⟨o.pts, rfl, rfl, fun _ _ => rfl, by simp⟩
  | append_singleton bs e ih =>
    obtain ⟨pts', e1, h1, h2, h3⟩ := ih (fun e' h => hbs e' (by simp [h]))
    obtain ⟨b, u⟩ := e
    cases u
    have hb := hbs (b, ()) (by simp)
    have hlt := hv b hb
    have hps : bpts[b]? = some bpts[b] := List.getElem?_eq_getElem hlt
    obtain ⟨g, hg⟩ := hp b hb
    have hn' : Numbering (cornerCount bpts) { o with pts := pts' } :=
      ⟨hn.inverse, hn.once, hn.mem, by show pts'.length = _; rw [h1, hn.pts_length], hn.nb_pts, hn.total⟩
    obtain ⟨pts'', e2, k1, k2, k3⟩ := foldlM_updatePt { o with pts := pts' } hn' b hb
      (bpts[b].map (g • ·)) (by simp [cornerCount, hps])
    refine ⟨pts'', ?_, k1.trans h1, ?_, ?_⟩
    · rw [Outcome.foldlM_append, e1, Outcome.bind_ok, Outcome.foldlM_cons]
      unfold updateBoard
      rw [Outcome.idx_of_getElem? hps, Outcome.bind_ok]
      simp only [hg, Option.getD_some]
      rw [e2]
      rfl
    · intro i hi
      have hi' : ∀ k, o.o2b[i]? ≠ some (b, k) := fun k hk => hi b k hk (by simp)
      exact (k2 i hi').trans (h2 i fun b' k hk hm => hi b' k hk (by simp [hm]))
    · intro i b' k hi hm
      by_cases hbb : b' = b
      · subst hbb
        have hk : k < cornerCount bpts b' := ((hn.mem b' k).1 (List.mem_of_getElem? hi)).2
        have hk' : k < bpts[b'].length := by simpa [cornerCount, hps] using hk
        refine ⟨g, bpts[b'], bpts[b'][k], hg, hps, List.getElem?_eq_getElem hk', ?_⟩
        rw [k3 i k hi (by simpa using hk'), List.getElem?_map, List.getElem?_eq_getElem hk']
        rfl
      · have hm' : (b', ()) ∈ bs := by
          rcases List.mem_append.1 hm with h | h
          · exact h
          · simp at h; exact absurd h hbb
        obtain ⟨g', ps, p, q1, q2, q3, q4⟩ := h3 i b' k hi hm'
        refine ⟨g', ps, p, q1, q2, q3, ?_⟩
        rw [← q4]
        apply k2
        intro k' hk'
        change o.o2b[i]? = some (b, k') at hk'
        rw [hi] at hk'
        simp only [Option.some.injEq, Prod.mk.injEq] at hk'
        exact hbb hk'.1

/-- After any change of the poses, `updateObjectPts` re-establishes the object's points. -/
theorem updateObjectPts_good [Group G] [SMul G Pt] {bpts : List (List Pt)} (o : Object G Pt)
    (h : Good bpts o) (poses' : OMap Nat G) (hs' : OMap.Sorted poses')
    (hk' : OMap.keys poses' = OMap.keys o.poses) :
    ∃ pts', updateObjectPts bpts { o with poses := poses' } =
        .ok { o with poses := poses', pts := pts' } ∧
      Good bpts { o with poses := poses', pts := pts' } := by
  have hkeys : OMap.keys poses' = OMap.keys o.boards := hk'.trans h.posed.keys
  obtain ⟨pts', e, h1, h2, h3⟩ := foldlM_updateBoard (bpts := bpts) { o with poses := poses' }
    ⟨h.numbering.inverse, h.numbering.once, h.numbering.mem, h.numbering.pts_length,
      h.numbering.nb_pts, h.numbering.total⟩ h.boards_valid
    (fun b hb => OMap.mem_keys.1 (by rw [hkeys]; exact hb)) o.boards
    (fun e he => List.mem_map.2 ⟨e, he, rfl⟩)
  refine ⟨pts', e, h.boards_sorted, hs', h.b2o_sorted, h.boards_valid,
    ⟨h.numbering.inverse, h.numbering.once, h.numbering.mem, h1.trans h.numbering.pts_length,
      h.numbering.nb_pts, h.numbering.total⟩, hkeys, ?_⟩
  intro i b k hi
  apply h3 i b k hi
  have := ((h.numbering.mem b k).1 (List.mem_of_getElem? hi)).1
  obtain ⟨⟨b', u⟩, hm, rfl⟩ := List.mem_map.1 this
  exact hm

end Verif.Lemmas.Objects
