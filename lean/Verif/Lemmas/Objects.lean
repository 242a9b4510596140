import Verif.Spec.Objects
import Verif.Lemmas.Structure
import Verif.Props.Store

namespace Verif.Lemmas.Objects
open Verif Verif.Objects Verif.Structure Verif.Spec.Objects

variable {G Pt P Path : Type}

/-! ### Inserting the points of a board -/

/-- Effect of the point loop. -/
theorem insertPts (b : Nat) (q : List Pt) (st : Object G Pt × Nat) (hs : OMap.Sorted st.1.b2o)
    (hc : st.2 = st.1.o2b.length) (hnd : st.1.o2b.Nodup) (hb : ∀ k, (b, k) ∉ st.1.o2b)
    (hinv : ∀ k i, OMap.get? st.1.b2o k = some i ↔ st.1.o2b[i]? = some k) :
    let r := q.zipIdx.foldl (insertPt b) st
    r.1.id = st.1.id ∧ r.1.refBoard = st.1.refBoard ∧ r.1.nbBoards = st.1.nbBoards ∧
    r.1.boards = st.1.boards ∧ r.1.nbPts = st.1.nbPts ∧ r.1.poses = st.1.poses ∧
    OMap.Sorted r.1.b2o ∧ r.1.o2b = st.1.o2b ++ (List.range q.length).map (fun k => (b, k)) ∧
    r.1.pts = st.1.pts ++ q ∧ r.2 = r.1.o2b.length ∧ r.1.o2b.Nodup ∧
    ∀ k i, OMap.get? r.1.b2o k = some i ↔ r.1.o2b[i]? = some k := by
  induction q using List.reverseRecOn with
  | nil => simp [hs, hc, hnd, hinv]
  | append_singleton q x ih =>
    obtain ⟨h1, h2, h3, h4, h5, h6, h7, h8, h9, h10, h11, h12⟩ := ih
    rw [List.zipIdx_append]
    simp only [List.foldl_append, List.zipIdx_cons, List.zipIdx_nil, List.foldl_cons,
      List.foldl_nil, Nat.zero_add]
    generalize List.foldl (insertPt b) st q.zipIdx = r at *
    have hfresh : (b, q.length) ∉ r.1.o2b := by
      rw [h8, List.mem_append]
      rintro (h | h)
      · exact hb _ h
      · obtain ⟨k, hk, he⟩ := List.mem_map.1 h
        simp only [Prod.mk.injEq, true_and] at he
        rw [he] at hk
        simp at hk
    refine ⟨h1, h2, h3, h4, h5, h6, OMap.sorted_set _ _ _ h7, ?_, ?_, ?_, ?_, ?_⟩
    · show r.1.o2b ++ [(b, q.length)] = _
      rw [h8, List.length_append, List.length_singleton, List.range_succ, List.map_append]
      simp
    · show r.1.pts ++ [x] = _
      rw [h9, List.append_assoc]
    · show r.2 + 1 = (r.1.o2b ++ [(b, q.length)]).length
      rw [h10, List.length_append, List.length_singleton]
    · show (r.1.o2b ++ [(b, q.length)]).Nodup
      rw [List.nodup_append]
      refine ⟨h11, List.nodup_singleton _, ?_⟩
      intro y hy z hz he
      rw [List.mem_singleton] at hz
      subst hz he
      exact hfresh hy
    · intro k i
      show OMap.get? (OMap.set r.1.b2o (b, q.length) r.2) k = some i ↔
        (r.1.o2b ++ [(b, q.length)])[i]? = some k
      rw [OMap.get?_set _ _ _ _ h7, List.getElem?_append]
      split
      · rename_i hk
        subst hk
        split
        · rename_i hi
          constructor
          · intro h
            simp only [Option.some.injEq] at h
            omega
          · intro h
            exact absurd (List.mem_of_getElem? h) hfresh
        · rename_i hi
          constructor
          · intro h
            simp only [Option.some.injEq] at h
            have : i - r.1.o2b.length = 0 := by omega
            rw [this]; rfl
          · intro h
            have : i - r.1.o2b.length = 0 := by
              by_contra hne
              rw [List.getElem?_eq_none (by simp; omega)] at h
              cases h
            simp only [Option.some.injEq]
            omega
      · rename_i hk
        rw [h12]
        split
        · rfl
        · rename_i hi
          rw [List.getElem?_eq_none (by omega)]
          constructor
          · intro h; cases h
          · intro h
            have := List.mem_of_getElem? h
            rw [List.mem_singleton] at this
            exact absurd this hk

/-- An object under construction. -/
structure Building [SMul G Pt] (bpts : List (List Pt)) (st : Object G Pt × Nat) : Prop where
  good : Good bpts st.1
  count : st.2 = st.1.o2b.length

theorem building_init [SMul G Pt] (bpts : List (List Pt)) (i r n : Nat) :
    Building bpts (({ id := i, refBoard := r, nbBoards := n } : Object G Pt), 0) where
  good := {
    boards_sorted := List.Pairwise.nil
    poses_sorted := List.Pairwise.nil
    b2o_sorted := List.Pairwise.nil
    boards_valid := by intro b hb; cases hb
    numbering := ⟨by simp, by simp, by simp [OMap.keys], rfl, rfl, rfl⟩
    posed := ⟨rfl, by simp⟩ }
  count := rfl

theorem sum_keys_set (f : Nat → Nat) (m : OMap Nat Unit) (k : Nat) (hk : k ∉ OMap.keys m) :
    ((OMap.keys (OMap.set m k ())).map f).sum = ((OMap.keys m).map f).sum + f k := by
  induction m with
  | nil => simp [OMap.set, OMap.keys]
  | cons e m ih =>
    obtain ⟨k', v'⟩ := e
    unfold OMap.set
    simp only [OMap.keys, List.map_cons, List.mem_cons, not_or] at hk
    split
    · simp [OMap.keys]; omega
    · rw [if_neg hk.1]
      have := ih hk.2
      simp only [OMap.keys, List.map_cons, List.sum_cons] at this ⊢
      omega

theorem keys_set_ext {V W : Type} {m : OMap Nat V} {m' : OMap Nat W} (hs : OMap.Sorted m)
    (hs' : OMap.Sorted m') (h : OMap.keys m = OMap.keys m') (k : Nat) (v : V) (w : W) :
    OMap.keys (OMap.set m k v) = OMap.keys (OMap.set m' k w) := by
  apply OMap.sorted_keys_ext (OMap.keys_sorted (OMap.sorted_set _ _ _ hs))
    (OMap.keys_sorted (OMap.sorted_set _ _ _ hs'))
  intro q
  rw [OMap.mem_keys_set hs, OMap.mem_keys_set hs', h]

/-- Inserting a board not yet present. -/
theorem insertBoard_building [SMul G Pt] {bpts : List (List Pt)} {st : Object G Pt × Nat}
    (h : Building bpts st) {b : Nat} (hb : b ∉ OMap.keys st.1.boards) (pose : G) {ps : List Pt}
    (hps : bpts[b]? = some ps) :
    let r := insertBoard b pose ps st
    Building bpts r ∧ r.1.id = st.1.id ∧ r.1.refBoard = st.1.refBoard ∧
    r.1.nbBoards = st.1.nbBoards ∧ r.1.boards = OMap.set st.1.boards b () ∧
    r.1.poses = OMap.set st.1.poses b pose := by
  obtain ⟨⟨hs1, hs2, hs3, hv, hn, hp⟩, hc⟩ := h
  have hb' : ∀ k, (b, k) ∉ st.1.o2b := fun k hk => hb ((hn.mem b k).1 hk).1
  have hlt : b < bpts.length := by
    by_contra hlt
    rw [List.getElem?_eq_none (by omega)] at hps; cases hps
  have hsz : cornerCount bpts b = ps.length := by simp [cornerCount, hps]
  have key := insertPts b (ps.map (pose • ·))
    ({ st.1 with boards := OMap.set st.1.boards b (), nbPts := st.1.nbPts + ps.length,
                 poses := OMap.set st.1.poses b pose }, st.2) hs3 hc hn.once hb' hn.inverse
  obtain ⟨h1, h2, h3, h4, h5, h6, h7, h8, h9, h10, h11, h12⟩ := key
  intro r
  change r.1.id = st.1.id at h1
  change r.1.refBoard = st.1.refBoard at h2
  change r.1.nbBoards = st.1.nbBoards at h3
  change r.1.boards = OMap.set st.1.boards b () at h4
  change r.1.nbPts = st.1.nbPts + ps.length at h5
  change r.1.poses = OMap.set st.1.poses b pose at h6
  change OMap.Sorted r.1.b2o at h7
  change r.1.o2b = st.1.o2b ++ _ at h8
  change r.1.pts = st.1.pts ++ _ at h9
  change r.2 = r.1.o2b.length at h10
  change r.1.o2b.Nodup at h11
  change ∀ k i, OMap.get? r.1.b2o k = some i ↔ r.1.o2b[i]? = some k at h12
  rw [List.length_map] at h8
  have hkeys : ∀ q, q ∈ OMap.keys r.1.boards ↔ q = b ∨ q ∈ OMap.keys st.1.boards := by
    intro q; rw [h4, OMap.mem_keys_set hs1]
  refine ⟨⟨⟨?_, ?_, h7, ?_, ⟨h12, h11, ?_, ?_, ?_, ?_⟩, ?_, ?_⟩, h10⟩, h1, h2, h3, h4, h6⟩
  · rw [h4]; exact OMap.sorted_set _ _ _ hs1
  · rw [h6]; exact OMap.sorted_set _ _ _ hs2
  · intro q hq
    rcases (hkeys q).1 hq with rfl | hq
    · exact hlt
    · exact hv q hq
  · intro b' k
    rw [h8, List.mem_append, hn.mem, hkeys]
    simp only [List.mem_map, List.mem_range, Prod.mk.injEq]
    constructor
    · rintro (⟨h, h'⟩ | ⟨x, h, rfl, rfl⟩)
      · exact ⟨Or.inr h, h'⟩
      · exact ⟨Or.inl rfl, by rw [hsz]; exact h⟩
    · rintro ⟨rfl | h, h'⟩
      · exact Or.inr ⟨k, by rw [← hsz]; exact h', rfl, rfl⟩
      · exact Or.inl ⟨h, h'⟩
  · rw [h9, h8, List.length_append, List.length_append, hn.pts_length]; simp
  · rw [h5, h8, List.length_append, hn.nb_pts]; simp
  · rw [h4, sum_keys_set _ _ _ hb, h8, List.length_append, hn.total, hsz]; simp
  · rw [h6, h4]; exact keys_set_ext hs2 hs1 hp.keys b _ _
  · intro i b' k hi
    rw [h8, List.getElem?_append] at hi
    rw [h6, h9, List.getElem?_append, hn.pts_length]
    split at hi
    · rename_i hlt'
      obtain ⟨g, ps', p, e1, e2, e3, e4⟩ := hp.point i b' k hi
      rw [if_pos hlt']
      refine ⟨g, ps', p, ?_, e2, e3, e4⟩
      rw [OMap.get?_set _ _ _ _ hs2, if_neg, e1]
      rintro rfl
      exact hb' k (List.mem_of_getElem? hi)
    · rename_i hlt'
      rw [if_neg hlt']
      rw [List.getElem?_map] at hi
      cases hk : (List.range ps.length)[i - st.1.o2b.length]? with
      | none => rw [hk] at hi; cases hi
      | some k' =>
        rw [hk] at hi
        simp only [Option.map_some, Option.some.injEq, Prod.mk.injEq] at hi
        obtain ⟨rfl, rfl⟩ := hi
        have hk2 : i - st.1.o2b.length < ps.length ∧ i - st.1.o2b.length = k' := by
          have := List.getElem?_eq_some_iff.1 hk
          obtain ⟨a, e⟩ := this
          simp at a e
          exact ⟨a, e⟩
        obtain ⟨hk2, hk3⟩ := hk2
        rw [hk3] at hk2 ⊢
        refine ⟨pose, ps, ps[k'], OMap.get?_set_self _ _ _ hs2, hps, ?_, ?_⟩
        · rw [List.getElem?_eq_getElem hk2]
        · rw [List.getElem?_map, List.getElem?_eq_getElem hk2]; rfl

/-! ### A new object -/

theorem foldlM_placeBoard [Group G] [SMul G Pt] {bpts : List (List Pt)} (T : OMap (Nat × Nat) G)
    (g : Graph Nat) (choose : Nat → Nat → Graph.DState → Nat) (r : Nat) (c : List Nat)
    (hnd : c.Nodup) (hlt : ∀ b ∈ c, b < bpts.length)
    (hpl : ∀ b ∈ c, ∃ x, placement (fun x => x⁻¹) T g (choose r b) r b = .ok x)
    (st : Object G Pt × Nat) (hst : Building bpts st)
    (hnew : ∀ b ∈ c, b ∉ OMap.keys st.1.boards) :
    ∃ st', Outcome.foldlM (placeBoard bpts T g choose r) st c = .ok st' ∧ Building bpts st' ∧
      st'.1.id = st.1.id ∧ st'.1.refBoard = st.1.refBoard ∧ st'.1.nbBoards = st.1.nbBoards ∧
      (∀ b, b ∈ OMap.keys st'.1.boards ↔ b ∈ OMap.keys st.1.boards ∨ b ∈ c) ∧
      (∀ b ∈ OMap.keys st.1.boards, OMap.get? st'.1.poses b = OMap.get? st.1.poses b) ∧
      ∀ b ∈ c, ∃ x, placement (fun x => x⁻¹) T g (choose r b) r b = .ok x ∧
        OMap.get? st'.1.poses b = some x := by
  induction c generalizing st with
  | nil => exact ⟨st, rfl, hst, rfl, rfl, rfl, by simp, by simp, by simp⟩
  | cons b c ih =>
    obtain ⟨x, hx⟩ := hpl b (by simp)
    have hb := hlt b (by simp)
    have hps : bpts[b]? = some bpts[b] := List.getElem?_eq_getElem hb
    obtain ⟨k1, k2, k3, k4, k5, k6⟩ := insertBoard_building hst (hnew b (by simp)) x hps
    have hbc : b ∉ c := (List.nodup_cons.1 hnd).1
    have hbk := hnew b (by simp)
    have hs1 := hst.good.boards_sorted
    have hs2 := hst.good.poses_sorted
    obtain ⟨st', e, hB, i1, i2, i3, i4, i5, i6⟩ := ih (List.nodup_cons.1 hnd).2
      (fun b' h => hlt b' (by simp [h])) (fun b' h => hpl b' (by simp [h])) _ k1 (by
        intro b' hb' hk
        rw [k5, OMap.mem_keys_set hs1] at hk
        rcases hk with rfl | hk
        · exact hbc hb'
        · exact hnew b' (by simp [hb']) hk)
    refine ⟨st', ?_, hB, i1.trans k2, i2.trans k3, i3.trans k4, ?_, ?_, ?_⟩
    · rw [Outcome.foldlM_cons]
      have : placeBoard bpts T g choose r st b = .ok (insertBoard b x bpts[b] st) := by
        unfold placeBoard
        rw [Outcome.idx_of_getElem? hps, Outcome.bind_ok, hx, Outcome.bind_ok]; rfl
      rw [this, Outcome.bind_ok, e]
    · intro q
      rw [i4, k5, OMap.mem_keys_set hs1, List.mem_cons]
      tauto
    · intro q hq
      rw [i5 q (by rw [k5, OMap.mem_keys_set hs1]; exact Or.inr hq), k6,
        OMap.get?_set _ _ _ _ hs2, if_neg]
      rintro rfl
      exact hbk hq
    · intro q hq
      rcases List.mem_cons.1 hq with rfl | hq
      · refine ⟨x, hx, ?_⟩
        rw [i5 q (by rw [k5, OMap.mem_keys_set hs1]; exact Or.inl rfl), k6,
          OMap.get?_set_self _ _ _ hs2]
      · exact i6 q hq

theorem natKey_sorted {l : List Nat} (h : l.Pairwise (· < ·)) :
    l.Pairwise fun a b => Key.lt a b = true := h.imp fun hab => by simpa [Key.lt] using hab

theorem sorted_natKey {l : List Nat} (h : l.Pairwise fun a b => Key.lt a b = true) :
    l.Pairwise (· < ·) := h.imp fun hab => by simpa [Key.lt] using hab

/-- What is known of an object made from the component `c`. -/
structure MadeFrom [Group G] [SMul G Pt] (bpts : List (List Pt)) (T : OMap (Nat × Nat) G)
    (g : Graph Nat) (choose : Nat → Nat → Graph.DState → Nat) (i : Nat) (c : List Nat)
    (o : Object G Pt) : Prop where
  good : Good bpts o
  id : o.id = i
  ref : c.head? = some o.refBoard
  nb : o.nbBoards = c.length
  keys : OMap.keys o.boards = c
  pose : ∀ b ∈ c, ∃ x, placement (fun x => x⁻¹) T g (choose o.refBoard b) o.refBoard b = .ok x ∧
    OMap.get? o.poses b = some x

theorem initObject_ok [Group G] [SMul G Pt] {bpts : List (List Pt)} (T : OMap (Nat × Nat) G)
    (g : Graph Nat) (choose : Nat → Nat → Graph.DState → Nat) (i r : Nat) (c : List Nat)
    (hs : (r :: c).Pairwise (· < ·)) (hlt : ∀ b ∈ r :: c, b < bpts.length)
    (hpl : ∀ b ∈ r :: c, ∃ x, placement (fun x => x⁻¹) T g (choose r b) r b = .ok x) :
    ∃ o : Object G Pt, initObject bpts T g choose i (r :: c) = .ok o ∧
      MadeFrom bpts T g choose i (r :: c) o := by
  obtain ⟨st, e, hB, h1, h2, h3, h4, _, h6⟩ := foldlM_placeBoard T g choose r (r :: c)
    (hs.imp Nat.ne_of_lt) hlt hpl ({ id := i, refBoard := r, nbBoards := (r :: c).length }, 0)
    (building_init bpts i r _) (by intro b _ hb; cases hb)
  refine ⟨st.1, ?_, hB.good, h1, ?_, h3, ?_, ?_⟩
  · unfold initObject
    rw [minElement_sorted hs, Outcome.bind_ok,
      Outcome.idx_of_getElem? (List.getElem?_eq_getElem (hlt r (by simp))), Outcome.bind_ok, e,
      Outcome.bind_ok]
    rfl
  · rw [h2]; rfl
  · apply OMap.sorted_keys_ext (OMap.keys_sorted hB.good.boards_sorted) (natKey_sorted hs)
    intro k
    rw [h4]
    simp [OMap.keys]
  · rw [h2]; exact h6

/-! ### Loops over numbered components -/

theorem set_snoc {V : Type} (m : OMap Nat V) (n : Nat) (v : V) (h : ∀ k ∈ OMap.keys m, k < n) :
    OMap.set m n v = m ++ [(n, v)] := by
  induction m with
  | nil => rfl
  | cons e m ih =>
    obtain ⟨k, w⟩ := e
    have hk : k < n := h k (by simp [OMap.keys])
    have h1 : Key.lt n k = false := by simp only [Key.lt]; simp; omega
    unfold OMap.set
    rw [h1, if_neg (by simp), if_neg (by omega), ih]
    · rfl
    · intro q hq; exact h q (by simp only [OMap.keys] at hq ⊢; simp [hq])

/-- A loop `for i < n: m[i] = f(i, c_i)` from the empty map. -/
theorem foldlM_number {V C : Type} (f : Nat → C → Outcome V) (R : Nat → C → V → Prop)
    (cs : List C) (h : ∀ i c, cs[i]? = some c → ∃ v, f i c = .ok v ∧ R i c v) :
    ∃ m, Outcome.foldlM (fun (m : OMap Nat V) (e : C × Nat) =>
        f e.2 e.1 >>= fun v => pure (OMap.set m e.2 v)) [] cs.zipIdx = .ok m ∧
      OMap.keys m = List.range cs.length ∧ OMap.Sorted m ∧
      ∀ i c, cs[i]? = some c → ∃ v, OMap.get? m i = some v ∧ R i c v := by
  induction cs using List.reverseRecOn with
  | nil => exact ⟨[], rfl, rfl, List.Pairwise.nil, by simp⟩
  | append_singleton cs c ih =>
    obtain ⟨m, e, hk, hs, hm⟩ := ih (fun i c' hc => h i c' (by
      rw [List.getElem?_append_left (List.getElem?_eq_some_iff.1 hc).1]; exact hc))
    obtain ⟨v, hv, hR⟩ := h cs.length c (by simp)
    have hset := set_snoc m cs.length v (by rw [hk]; simp)
    refine ⟨OMap.set m cs.length v, ?_, ?_, OMap.sorted_set _ _ _ hs, ?_⟩
    · rw [List.zipIdx_append, Outcome.foldlM_append, e, Outcome.bind_ok]
      simp only [List.zipIdx_cons, List.zipIdx_nil, Outcome.foldlM_cons, Outcome.foldlM_nil,
        Nat.zero_add]
      rw [hv]; rfl
    · rw [hset]
      unfold OMap.keys at hk ⊢
      rw [List.map_append, hk, List.length_append, List.length_singleton, List.range_succ]
      rfl
    · intro i c' hc
      rw [OMap.get?_set _ _ _ _ hs]
      split
      · rename_i hi
        subst hi
        rw [List.getElem?_append_right (Nat.le_refl _)] at hc
        simp at hc
        subst hc
        exact ⟨v, rfl, hR⟩
      · rename_i hi
        have hlt : i < cs.length := by
          have := (List.getElem?_eq_some_iff.1 hc).1
          simp at this
          omega
        rw [List.getElem?_append_left hlt] at hc
        exact hm i c' hc

/-! ### The table of board pairs -/

open Verif.Spec.Store Verif.Spec.Structure

theorem length_gt_one_of_ne {α : Type} {l : List α} {a b : α} (ha : a ∈ l) (hb : b ∈ l)
    (hab : a ≠ b) : 1 < l.length := by
  match l with
  | [] => cases ha
  | [x] =>
    rw [List.mem_singleton] at ha hb
    exact absurd (ha.trans hb.symm) hab
  | _ :: _ :: _ => simp

/-- Two board observations are in one view iff they are of the same camera and frame. -/
theorem boardViews_iff {nCam nBoard : Nat} {l : List (Insertion P Path)} {s : Store P Path}
    (hs : Describes nCam nBoard l s) (pose : Nat → G) (x y : SeenBoard G) (hxy : x.board ≠ y.board) :
    (∃ v ∈ boardViews s pose, x ∈ v ∧ y ∈ v) ↔
      ∃ i j a b, l[i]? = some a ∧ l[j]? = some b ∧ a.obs.cam = b.obs.cam ∧
        a.obs.frame = b.obs.frame ∧ x = ⟨a.obs.board, pose i⟩ ∧ y = ⟨b.obs.board, pose j⟩ := by
  have hobs : ∀ i : Nat, s.obs[i]? = (l[i]?).map (fun a => a.obs) := fun i => by rw [hs.obs, List.getElem?_map]
  constructor
  · rintro ⟨v, hv, hx, hy⟩
    unfold boardViews at hv
    obtain ⟨⟨⟨c, f⟩, r⟩, he, rfl⟩ := List.mem_map.1 hv
    have hr := (OMap.get?_eq_some hs.camObs_sorted).2 he
    obtain ⟨hb, _, _⟩ := hs.camObs c f r hr
    dsimp only at hx hy
    split at hx
    · rename_i hlen
      rw [if_pos hlen] at hy
      have key : ∀ z : SeenBoard G, z ∈ r.boards.filterMap
          (fun i => (s.obs[i]?).map fun o => (⟨o.board, pose i⟩ : SeenBoard G)) →
          ∃ i a, l[i]? = some a ∧ a.obs.cam = c ∧ a.obs.frame = f ∧ z = ⟨a.obs.board, pose i⟩ := by
        intro z hz
        obtain ⟨i, hi, hz⟩ := List.mem_filterMap.1 hz
        rw [hb, Props.Store.positions_get] at hi
        obtain ⟨a, ha, hp⟩ := hi
        rw [hobs, ha] at hz
        simp only [Option.map_some, Option.some.injEq] at hz
        simp only [byCamFrame, Bool.and_eq_true, beq_iff_eq] at hp
        exact ⟨i, a, ha, hp.1, hp.2, hz.symm⟩
      obtain ⟨i, a, h1, h2, h3, h4⟩ := key x hx
      obtain ⟨j, b, h1', h2', h3', h4'⟩ := key y hy
      exact ⟨i, j, a, b, h1, h1', h2.trans h2'.symm, h3.trans h3'.symm, h4, h4'⟩
    · cases hx
  · rintro ⟨i, j, a, b, ha, hb, hc, hf, rfl, rfl⟩
    have hk := (hs.camObs_key a.obs.cam a.obs.frame).2 ⟨a, List.mem_of_getElem? ha, rfl, rfl⟩
    obtain ⟨r, hr⟩ := OMap.mem_keys.1 hk
    obtain ⟨h1, h2, _⟩ := hs.camObs _ _ r hr
    have hma : byCamFrame a.obs.cam a.obs.frame a = true := by simp [byCamFrame]
    have hmb : byCamFrame a.obs.cam a.obs.frame b = true := by simp [byCamFrame, hc, hf]
    have hlen : r.boardsIdx.length > 1 := by
      apply length_gt_one_of_ne (a := a.obs.board) (b := b.obs.board) _ _ hxy
      · rw [h2, List.mem_map]
        exact ⟨a, List.mem_filter.2 ⟨List.mem_of_getElem? ha, hma⟩, rfl⟩
      · rw [h2, List.mem_map]
        exact ⟨b, List.mem_filter.2 ⟨List.mem_of_getElem? hb, hmb⟩, rfl⟩
    refine ⟨_, List.mem_map.2 ⟨_, (OMap.get?_eq_some hs.camObs_sorted).1 hr, rfl⟩, ?_, ?_⟩
    · rw [if_pos hlen, List.mem_filterMap]
      exact ⟨i, by rw [h1]; exact (Props.Store.positions_get _ _ _).2 ⟨a, ha, hma⟩, by rw [hobs, ha]; rfl⟩
    · rw [if_pos hlen, List.mem_filterMap]
      exact ⟨j, by rw [h1]; exact (Props.Store.positions_get _ _ _).2 ⟨b, hb, hmb⟩, by rw [hobs, hb]; rfl⟩

theorem boardPair_eq_some [Group G] {x y : SeenBoard G} {k : Nat × Nat} {z : G} :
    boardPair x y = some (k, z) ↔ x.board ≠ y.board ∧ k = (x.board, y.board) ∧
      z = y.pose⁻¹ * x.pose := by
  unfold boardPair
  split
  · rename_i h
    simp only [Option.some.injEq, Prod.mk.injEq]
    exact ⟨fun ⟨a, b⟩ => ⟨h, a.symm, b.symm⟩, fun ⟨_, a, b⟩ => ⟨a.symm, b.symm⟩⟩
  · rename_i h
    simp only [reduceCtorEq, false_iff]
    exact fun h' => h h'.1

theorem mem_keys_boardPairs [Group G] {nCam nBoard : Nat} {l : List (Insertion P Path)}
    {s : Store P Path} (hs : Describes nCam nBoard l s) (pose : Nat → G) (a b : Nat) :
    (a, b) ∈ OMap.keys (boardPairs s pose) ↔ CoSeen l a b := by
  unfold boardPairs
  rw [mem_keys_pairTable]
  constructor
  · rintro ⟨v, hv, x, hx, y, hy, z, hz⟩
    obtain ⟨hne, hk, _⟩ := boardPair_eq_some.1 hz
    obtain ⟨i, j, p, q, h1, h2, h3, h4, rfl, rfl⟩ := (boardViews_iff hs pose x y hne).1 ⟨v, hv, hx, hy⟩
    simp only [Prod.mk.injEq] at hk
    obtain ⟨rfl, rfl⟩ := hk
    exact ⟨hne, p, List.mem_of_getElem? h1, q, List.mem_of_getElem? h2, h3, h4, rfl, rfl⟩
  · rintro ⟨hne, p, hp, q, hq, h3, h4, rfl, rfl⟩
    obtain ⟨i, hi⟩ := List.mem_iff_getElem?.1 hp
    obtain ⟨j, hj⟩ := List.mem_iff_getElem?.1 hq
    obtain ⟨v, hv, hx, hy⟩ := (boardViews_iff hs pose ⟨p.obs.board, pose i⟩ ⟨q.obs.board, pose j⟩
      hne).2 ⟨i, j, p, q, hi, hj, h3, h4, rfl, rfl⟩
    exact ⟨v, hv, _, hx, _, hy, _, boardPair_eq_some.2 ⟨hne, rfl, rfl⟩⟩

/-- The measurements stored for a pair. -/
theorem get?_boardPairs [Group G] {nCam nBoard : Nat} {l : List (Insertion P Path)}
    {s : Store P Path} (hs : Describes nCam nBoard l s) (pose : Nat → G) {a b : Nat} {zs : List G}
    (h : OMap.get? (boardPairs s pose) (a, b) = some zs) :
    zs ≠ [] ∧ ∀ z ∈ zs, ∃ i j p q, l[i]? = some p ∧ l[j]? = some q ∧ p.obs.cam = q.obs.cam ∧
        p.obs.frame = q.obs.frame ∧ p.obs.board = a ∧ q.obs.board = b ∧
        z = (pose j)⁻¹ * pose i := by
  obtain ⟨hne, hz⟩ := get?_pairTable _ _ h
  refine ⟨hne, fun z hzz => ?_⟩
  obtain ⟨v, hv, x, hx, y, hy, he⟩ := hz z hzz
  obtain ⟨hxy, hk, rfl⟩ := boardPair_eq_some.1 he
  obtain ⟨i, j, p, q, h1, h2, h3, h4, rfl, rfl⟩ := (boardViews_iff hs pose x y hxy).1 ⟨v, hv, hx, hy⟩
  simp only [Prod.mk.injEq] at hk
  obtain ⟨rfl, rfl⟩ := hk
  exact ⟨i, j, p, q, h1, h2, h3, h4, rfl, rfl, rfl⟩

theorem coSeen_symm {l : List (Insertion P Path)} {a b : Nat} (h : CoSeen l a b) : CoSeen l b a := by
  obtain ⟨hne, x, hx, y, hy, h1, h2, h3, h4⟩ := h
  exact ⟨hne.symm, y, hy, x, hx, h1.symm, h2.symm, h4, h3⟩

theorem boardVertices_eq {nCam nBoard : Nat} {l : List (Insertion P Path)} {s : Store P Path}
    (hs : Describes nCam nBoard l s) : boardVertices s = observedBoards nBoard l := by
  unfold boardVertices observedBoards
  rw [hs.boards_length]
  apply List.filter_congr
  intro b hb
  rw [List.mem_range] at hb
  have hb' : b < s.boards.length := by rw [hs.boards_length]; exact hb
  have hr := List.getElem?_eq_getElem hb'
  rw [hr, Option.any_some, hs.board b _ hr, Bool.eq_iff_iff, decide_eq_true_iff,
    gt_iff_lt, List.length_pos_iff_exists_mem, List.any_eq_true]
  constructor
  · rintro ⟨i, hi⟩
    obtain ⟨a, ha, hp⟩ := (Props.Store.positions_get _ _ _).1 hi
    exact ⟨a, List.mem_of_getElem? ha, hp⟩
  · rintro ⟨a, ha, hp⟩
    obtain ⟨i, hi⟩ := List.mem_iff_getElem?.1 ha
    exact ⟨i, (Props.Store.positions_get _ _ _).2 ⟨a, hi, hp⟩⟩

theorem observedBoards_sorted (nBoard : Nat) (l : List (Insertion P Path)) :
    (observedBoards nBoard l).Pairwise (· < ·) :=
  List.Pairwise.filter _ List.pairwise_lt_range

theorem mem_observedBoards {nBoard : Nat} {l : List (Insertion P Path)} {b : Nat} :
    b ∈ observedBoards nBoard l ↔ b < nBoard ∧ ∃ a ∈ l, a.obs.board = b := by
  unfold observedBoards
  simp [List.mem_filter, List.any_eq_true]

end Verif.Lemmas.Objects
