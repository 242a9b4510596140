import Verif.Lemmas.Objects
import Verif.Lemmas.ObjectsBuild
import Verif.Lemmas.Placement

namespace Verif.Lemmas.Objects
open Verif Verif.Objects Verif.Structure Verif.Spec.Objects Verif.Spec.Structure
open Verif.Lemmas.Structure Relation

variable {G Pt P Path : Type}

theorem foldlM_flatMap {σ α β : Type} (f : σ → α → Outcome σ) (h : σ → β → Outcome σ)
    (g : α → List β) (l : List α) (hf : ∀ s, ∀ x ∈ l, f s x = Outcome.foldlM h s (g x)) (s : σ) :
    Outcome.foldlM f s l = Outcome.foldlM h s (l.flatMap g) := by
  induction l generalizing s with
  | nil => rfl
  | cons x l ih =>
    rw [Outcome.foldlM_cons, List.flatMap_cons, Outcome.foldlM_append, hf s x (by simp)]
    congr 1
    funext s'
    exact ih (fun s y hy => hf s y (by simp [hy])) s'

theorem foldlM_map' {σ α β : Type} (f : σ → β → Outcome σ) (g : α → β) (l : List α) (s : σ) :
    Outcome.foldlM f s (l.map g) = Outcome.foldlM (fun s x => f s (g x)) s l := by
  induction l generalizing s with
  | nil => rfl
  | cons x l ih =>
    rw [List.map_cons, Outcome.foldlM_cons, Outcome.foldlM_cons]
    congr 1
    funext s'
    exact ih s'

/-- Inserting a list of boards with given poses. -/
def insertAll [SMul G Pt] (bpts : List (List Pt)) (st : Object G Pt × Nat) (e : Nat × G) :
    Outcome (Object G Pt × Nat) := do
  let pts ← Outcome.idx bpts e.1
  pure (insertBoard e.1 e.2 pts st)

theorem foldlM_insertAll [Group G] [SMul G Pt] {bpts : List (List Pt)} (L : List (Nat × G))
    (hnd : (L.map (·.1)).Nodup) (hlt : ∀ e ∈ L, e.1 < bpts.length)
    (st : Object G Pt × Nat) (hst : Building bpts st)
    (hnew : ∀ e ∈ L, e.1 ∉ OMap.keys st.1.boards) :
    ∃ st', Outcome.foldlM (insertAll bpts) st L = .ok st' ∧ Building bpts st' ∧
      st'.1.id = st.1.id ∧ st'.1.refBoard = st.1.refBoard ∧ st'.1.nbBoards = st.1.nbBoards ∧
      (∀ b, b ∈ OMap.keys st'.1.boards ↔ b ∈ OMap.keys st.1.boards ∨ ∃ g, (b, g) ∈ L) ∧
      (∀ b ∈ OMap.keys st.1.boards, OMap.get? st'.1.poses b = OMap.get? st.1.poses b) ∧
      (∀ e ∈ L, OMap.get? st'.1.poses e.1 = some e.2) ∧
      (OMap.keys st'.1.boards).length = (OMap.keys st.1.boards).length + L.length := by
  induction L generalizing st with
  | nil => exact ⟨st, rfl, hst, rfl, rfl, rfl, by simp, by simp, by simp, by simp⟩
  | cons e c ih =>
    obtain ⟨b, x⟩ := e
    have hb := hlt (b, x) (by simp)
    have hps : bpts[b]? = some bpts[b] := List.getElem?_eq_getElem hb
    obtain ⟨k1, k2, k3, k4, k5, k6⟩ := insertBoard_building hst (hnew (b, x) (by simp)) x hps
    rw [List.map_cons] at hnd
    have hbc : b ∉ c.map (·.1) := (List.nodup_cons.1 hnd).1
    have hbk := hnew (b, x) (by simp)
    have hs1 := hst.good.boards_sorted
    have hs2 := hst.good.poses_sorted
    obtain ⟨st', e, hB, i1, i2, i3, i4, i5, i6, i7⟩ := ih (List.nodup_cons.1 hnd).2
      (fun b' h => hlt b' (by simp [h])) _ k1 (by
        intro b' hb' hk
        rw [k5, OMap.mem_keys_set hs1] at hk
        rcases hk with hk | hk
        · exact hbc (List.mem_map.2 ⟨b', hb', hk⟩)
        · exact hnew b' (by simp [hb']) hk)
    refine ⟨st', ?_, hB, i1.trans k2, i2.trans k3, i3.trans k4, ?_, ?_, ?_, ?_⟩
    · rw [Outcome.foldlM_cons]
      have : insertAll bpts st (b, x) = .ok (insertBoard b x bpts[b] st) := by
        unfold insertAll
        rw [Outcome.idx_of_getElem? hps, Outcome.bind_ok]; rfl
      rw [this, Outcome.bind_ok, e]
    · intro q
      rw [i4, k5, OMap.mem_keys_set hs1]
      simp only [List.mem_cons, Prod.mk.injEq]
      constructor
      · rintro ((rfl | h) | ⟨g, h⟩)
        · exact Or.inr ⟨x, Or.inl ⟨rfl, rfl⟩⟩
        · exact Or.inl h
        · exact Or.inr ⟨g, Or.inr h⟩
      · rintro (h | ⟨g, (⟨h, _⟩ | h)⟩)
        · exact Or.inl (Or.inr h)
        · exact Or.inl (Or.inl h)
        · exact Or.inr ⟨g, h⟩
    · intro q hq
      rw [i5 q (by rw [k5, OMap.mem_keys_set hs1]; exact Or.inr hq), k6,
        OMap.get?_set _ _ _ _ hs2, if_neg]
      rintro rfl
      exact hbk hq
    · intro q hq
      rcases List.mem_cons.1 hq with rfl | hq
      · rw [i5 b (by rw [k5, OMap.mem_keys_set hs1]; exact Or.inl rfl), k6,
          OMap.get?_set_self _ _ _ hs2]
      · exact i6 q hq
    · rw [i7, k5]
      have : (OMap.keys (OMap.set st.1.boards b ())).length = (OMap.keys st.1.boards).length + 1 := by
        have := sum_keys_set (fun _ => 1) st.1.boards b hbk
        simpa using this
      rw [this, List.length_cons]
      omega

theorem foldlM_mergePlace [Group G] (objs : OMap Nat (Object G Pt)) (T : OMap (Nat × Nat) G)
    (g : Graph Nat) (choose : Nat → Nat → Graph.DState → Nat) (r : Nat) (c : List Nat)
    (hnd : c.Nodup) (pl : Nat → G)
    (hpl : ∀ j ∈ c, placement (fun x => x⁻¹) T g (choose r j) r j = .ok (pl j))
    (ob : Nat → Object G Pt) (hob : ∀ j ∈ c, OMap.get? objs j = some (ob j))
    (st : OMap Nat G × Nat) (hs : OMap.Sorted st.1) :
    ∃ st', Outcome.foldlM (mergePlace objs T g choose r) st c = .ok st' ∧ OMap.Sorted st'.1 ∧
      (∀ j, OMap.get? st'.1 j = if j ∈ c then some (pl j) else OMap.get? st.1 j) ∧
      st'.2 = st.2 + (c.map fun j => (ob j).boards.length).sum := by
  induction c generalizing st with
  | nil => exact ⟨st, rfl, hs, by simp, by simp⟩
  | cons j c ih =>
    have hj : mergePlace objs T g choose r st j =
        .ok (OMap.set st.1 j (pl j), st.2 + (ob j).boards.length) := by
      unfold mergePlace
      rw [hob j (by simp), Outcome.deref_some, Outcome.bind_ok, hpl j (by simp), Outcome.bind_ok]
      rfl
    obtain ⟨st', e, h1, h2, h3⟩ := ih (List.nodup_cons.1 hnd).2 (fun k hk => hpl k (by simp [hk]))
      (fun k hk => hob k (by simp [hk])) (OMap.set st.1 j (pl j), st.2 + (ob j).boards.length)
      (OMap.sorted_set _ _ _ hs)
    refine ⟨st', ?_, h1, ?_, ?_⟩
    · rw [Outcome.foldlM_cons, hj, Outcome.bind_ok, e]
    · intro k
      rw [h2, OMap.get?_set _ _ _ _ hs]
      simp only [List.mem_cons]
      by_cases hk : k ∈ c <;> by_cases hkj : k = j <;> simp [hk, hkj]
    · rw [h3, List.map_cons, List.sum_cons]; omega

/-- What is known of an object merged from the component `c` of objects. -/
structure MergedFrom [Group G] [SMul G Pt] (bpts : List (List Pt)) (objs : OMap Nat (Object G Pt))
    (pl : Nat → Nat → G) (i : Nat) (c : List Nat) (o : Object G Pt) : Prop where
  good : Good bpts o
  id : o.id = i
  ref : ∃ r ro, c.head? = some r ∧ OMap.get? objs r = some ro ∧ o.refBoard = ro.refBoard
  nb : o.nbBoards = (OMap.keys o.boards).length
  keys : ∀ b, b ∈ OMap.keys o.boards ↔ ∃ j ∈ c, ∃ oj, OMap.get? objs j = some oj ∧
    b ∈ OMap.keys oj.boards
  pose : ∀ j ∈ c, ∀ oj, OMap.get? objs j = some oj → ∀ b g, OMap.get? oj.poses b = some g →
    ∃ r, c.head? = some r ∧ OMap.get? o.poses b = some (pl r j * g)

theorem mergeObject_ok [Group G] [SMul G Pt] {bpts : List (List Pt)} {objs : OMap Nat (Object G Pt)}
    (hC : Collection bpts objs) (T : OMap (Nat × Nat) G)
    (g : Graph Nat) (choose : Nat → Nat → Graph.DState → Nat) (i r : Nat) (c : List Nat)
    (hs : (r :: c).Pairwise (· < ·)) (pl : Nat → Nat → G)
    (hpl : ∀ j ∈ r :: c, placement (fun x => x⁻¹) T g (choose r j) r j = .ok (pl r j))
    (hmem : ∀ j ∈ r :: c, j ∈ OMap.keys objs) :
    ∃ o : Object G Pt, mergeObject bpts objs T g choose i (r :: c) = .ok o ∧
      MergedFrom bpts objs pl i (r :: c) o := by
  have hnd : (r :: c).Nodup := hs.imp Nat.ne_of_lt
  obtain ⟨ro, hro⟩ := OMap.mem_keys.1 (hmem r (by simp))
  -- the objects of the component, as a function
  have hob : ∀ j ∈ r :: c, OMap.get? objs j = some ((OMap.get? objs j).getD ro) := by
    intro j hj
    obtain ⟨oj, hoj⟩ := OMap.mem_keys.1 (hmem j hj)
    rw [hoj]; rfl
  obtain ⟨tr, htr, htr1, htr2, htr3⟩ := foldlM_mergePlace objs T g choose r (r :: c) hnd (pl r) hpl
    (fun j => (OMap.get? objs j).getD ro) hob ([], 0) List.Pairwise.nil
  let L : List (Nat × G) := (objs.filter fun e => e.1 ∈ r :: c).flatMap fun e =>
    e.2.boards.map fun b => (b.1, pl r e.1 * (OMap.get? e.2.poses b.1).getD 1)
  have hLmem : ∀ b x, (b, x) ∈ L ↔ ∃ j oj, j ∈ r :: c ∧ OMap.get? objs j = some oj ∧
      b ∈ OMap.keys oj.boards ∧ x = pl r j * (OMap.get? oj.poses b).getD 1 := by
    intro b x
    simp only [L, List.mem_flatMap, List.mem_filter, List.mem_map, decide_eq_true_eq, Prod.mk.injEq]
    constructor
    · rintro ⟨⟨j, oj⟩, ⟨h1, h2⟩, ⟨b', u⟩, h3, rfl, rfl⟩
      exact ⟨j, oj, h2, (OMap.get?_eq_some hC.sorted).2 h1, List.mem_map.2 ⟨_, h3, rfl⟩, rfl⟩
    · rintro ⟨j, oj, h1, h2, h3, rfl⟩
      obtain ⟨⟨b', u⟩, h4, rfl⟩ := List.mem_map.1 h3
      exact ⟨(j, oj), ⟨(OMap.get?_eq_some hC.sorted).1 h2, h1⟩, (b', u), h4, rfl, rfl⟩
  have hfold : ∀ st : Object G Pt × Nat,
      Outcome.foldlM (mergeInto bpts (r :: c) tr.1) st objs = Outcome.foldlM (insertAll bpts) st L := by
    intro st
    have hL : L = objs.flatMap fun e => if e.1 ∈ r :: c then
        e.2.boards.map fun b => (b.1, pl r e.1 * (OMap.get? e.2.poses b.1).getD 1) else [] := by
      simp only [L]
      generalize objs = m
      induction m with
      | nil => rfl
      | cons e m ih =>
        rw [List.filter_cons, List.flatMap_cons]
        by_cases he : e.1 ∈ r :: c
        · rw [if_pos (by simpa using he), List.flatMap_cons, ih, if_pos he]
        · rw [if_neg (by simpa using he), ih, if_neg he]; rfl
    rw [hL]
    apply foldlM_flatMap
    rintro st ⟨j, oj⟩ hj
    have hid := hC.id j oj ((OMap.get?_eq_some hC.sorted).2 hj)
    unfold mergeInto
    dsimp only
    rw [hid]
    split
    · rename_i hjc
      rw [htr2, if_pos hjc]
      dsimp only
      rw [foldlM_map']
      rfl
    · rfl
  have hnodup : (L.map (·.1)).Nodup := by
    have hL' : L.map (·.1) = (objs.filter fun e => e.1 ∈ r :: c).flatMap fun e =>
        OMap.keys e.2.boards := by
      simp only [L, List.map_flatMap, List.map_map]
      rfl
    rw [hL', List.nodup_flatMap]
    refine ⟨?_, ?_⟩
    · rintro ⟨j, oj⟩ hj
      have := (OMap.get?_eq_some hC.sorted).2 (List.mem_filter.1 hj).1
      exact OMap.keys_nodup (hC.good j oj this).boards_sorted
    · have hpw : objs.Pairwise fun a b => Key.lt a.1 b.1 = true := hC.sorted
      refine List.Pairwise.imp_of_mem ?_ (List.Pairwise.filter _ hpw)
      rintro ⟨j, oj⟩ ⟨k, ok⟩ hj hk hlt
      intro b hb hb'
      have h1 := (OMap.get?_eq_some hC.sorted).2 (List.mem_filter.1 hj).1
      have h2 := (OMap.get?_eq_some hC.sorted).2 (List.mem_filter.1 hk).1
      exact OMap.lt_ne hlt (hC.disjoint j k oj ok h1 h2 b hb hb')
  have hlt : ∀ e ∈ L, e.1 < bpts.length := by
    rintro ⟨b, x⟩ he
    obtain ⟨j, oj, _, h2, h3, _⟩ := (hLmem b x).1 he
    exact (hC.good j oj h2).boards_valid b h3
  obtain ⟨st, e, hB, h1, h2, h3, h4, _, h6, h7⟩ := foldlM_insertAll L hnodup hlt
    (({ id := i, refBoard := ro.refBoard, nbBoards := tr.2 } : Object G Pt), 0)
    (building_init bpts i _ _) (by intro b _ hb; cases hb)
  have hrlt : ro.refBoard < bpts.length :=
    (hC.good r ro hro).boards_valid _ (hC.ref_mem r ro hro)
  have hrefb : bpts[ro.refBoard]? = some bpts[ro.refBoard] := List.getElem?_eq_getElem hrlt
  refine ⟨st.1, ?_, hB.good, h1, ⟨r, ro, rfl, hro, h2⟩, ?_, ?_, ?_⟩
  · unfold mergeObject
    rw [minElement_sorted hs, Outcome.bind_ok, hro, Outcome.deref_some, Outcome.bind_ok, htr,
      Outcome.bind_ok, Outcome.idx_of_getElem? hrefb, Outcome.bind_ok, hfold, e, Outcome.bind_ok]
    rfl
  · rw [h3, h7]
    show tr.2 = 0 + L.length
    rw [htr3]
    simp only [Nat.zero_add, L, List.length_flatMap, List.length_map]
    -- both sums range over the objects of the component
    have hperm : ((objs.filter fun e => e.1 ∈ r :: c).map (·.1)) = r :: c := by
      apply OMap.sorted_keys_ext
      · rw [List.pairwise_map]
        exact List.Pairwise.filter _ hC.sorted
      · exact natKey_sorted hs
      · intro k
        simp only [List.mem_map, List.mem_filter, decide_eq_true_eq]
        constructor
        · rintro ⟨e, ⟨_, h⟩, rfl⟩; exact h
        · intro hk
          obtain ⟨ok, hok⟩ := OMap.mem_keys.1 (hmem k hk)
          exact ⟨(k, ok), ⟨(OMap.get?_eq_some hC.sorted).1 hok, hk⟩, rfl⟩
    have hsum : ∀ f : Nat → Nat, ((r :: c).map f).sum =
        ((objs.filter fun e => e.1 ∈ r :: c).map fun e => f e.1).sum := by
      intro f
      conv_lhs => rw [← hperm]
      rw [List.map_map]; rfl
    rw [hsum]
    congr 1
    apply List.map_congr_left
    rintro ⟨k, ok⟩ hk
    have hok := (OMap.get?_eq_some hC.sorted).2 (List.mem_filter.1 hk).1
    dsimp only
    rw [hok]; rfl
  · intro b
    rw [h4]
    simp only [OMap.keys, List.map_nil, List.not_mem_nil, false_or]
    constructor
    · rintro ⟨x, hx⟩
      obtain ⟨j, oj, q1, q2, q3, _⟩ := (hLmem b x).1 hx
      exact ⟨j, q1, oj, q2, q3⟩
    · rintro ⟨j, q1, oj, q2, q3⟩
      exact ⟨_, (hLmem b _).2 ⟨j, oj, q1, q2, q3, rfl⟩⟩
  · intro j hj oj hoj b x hx
    refine ⟨r, rfl, ?_⟩
    have hb : b ∈ OMap.keys oj.boards := by
      rw [← (hC.good j oj hoj).posed.keys]
      exact OMap.mem_keys.2 ⟨x, hx⟩
    have := h6 (b, pl r j * (OMap.get? oj.poses b).getD 1) ((hLmem _ _).2 ⟨j, oj, hj, hoj, hb, rfl⟩)
    rw [hx] at this
    exact this

end Verif.Lemmas.Objects
