import Verif.Spec.Program
import Verif.Model.Program
import Verif.Props.Outliers
import Verif.Lemmas.FinishRun

/-! Pose estimation in the places where the workflow calls it. -/
namespace Verif.Lemmas.Program
open Verif Verif.Objects Verif.Groups Verif.NonOverlap Verif.Pipeline Verif.Ransac Verif.Spec.Program Verif.Spec.Objects
open Verif.Spec.Structure Verif.Spec.Pipeline Verif.Lemmas.Pipeline Verif.Lemmas.FinishRun Verif.Props.Outliers
open Relation (ReflTransGen)

variable {V G Pt P Path : Type}

/-- Every observation is the one an object has at its camera and frame, with some point. -/
def Made (objs : OMap Nat (Object G Pt)) (obs : List (BoardObs P)) (oos : List (ObjObs P)) : Prop :=
  ∀ oo ∈ oos, ∃ ob, OMap.get? objs oo.obj = some ob ∧ oo = objObs ob obs oo.cam oo.frame ∧ oo.pts ≠ []

/-- Objects contain all boards linked to theirs. -/
def Closed (l : List (Insertion P Path)) (objs : OMap Nat (Object G Pt)) : Prop :=
  ∀ i o b b', OMap.get? objs i = some o → b ∈ OMap.keys o.boards → ReflTransGen (CoSeen l) b b' →
    b' ∈ OMap.keys o.boards

theorem made_once [Group G] [SMul G Pt] {bpts : List (List Pt)} {objs : OMap Nat (Object G Pt)}
    (hC : Spec.Objects.Collection bpts objs) (obs : List (BoardObs P)) (vs : List (Nat × Nat)) :
    Made objs obs (once obs vs objs) := by
  intro o hox
  unfold once at hox
  obtain ⟨⟨i, ob⟩, he, hoe⟩ := List.mem_flatMap.1 hox
  unfold Spec.Objects.allObjObs at hoe
  obtain ⟨hm, hp⟩ := List.mem_filter.1 hoe
  obtain ⟨v, _, rfl⟩ := List.mem_map.1 hm
  have hg := (OMap.get?_eq_some hC.sorted).2 he
  refine ⟨ob, ?_, rfl, by simpa using hp⟩
  show OMap.get? objs ob.id = some ob
  rw [hC.id i ob hg]
  exact hg

theorem made_replicate {objs : OMap Nat (Object G Pt)} {obs : List (BoardObs P)} {oos : List (ObjObs P)} (n : Nat)
    (h : Made objs obs oos) : Made objs obs (List.replicate n oos).flatten := by
  intro o ho
  obtain ⟨x, hx, hox⟩ := List.mem_flatten.1 ho
  obtain ⟨_, rfl⟩ := List.mem_replicate.1 hx
  exact h o hox

theorem objObs_same (obs : List (BoardObs P)) (c f : Nat) {o o' : Object G Pt} (h : SameObject o o') :
    objObs o' obs c f = objObs o obs c f := by
  unfold Spec.Objects.objObs Spec.Objects.seenOf
  have : Spec.Objects.objNumber o' = Spec.Objects.objNumber o := by
    funext b k
    unfold Spec.Objects.objNumber
    rw [h.o2b]
  rw [h.id, h.boards, this]

/-- Same structure of objects. -/
def SameAll (objs objs' : OMap Nat (Object G Pt)) : Prop :=
  OMap.keys objs' = OMap.keys objs ∧
    ∀ i o', OMap.get? objs' i = some o' → ∃ o, OMap.get? objs i = some o ∧ SameObject o o'

theorem made_same {objs objs' : OMap Nat (Object G Pt)} (hs : SameAll objs objs') {obs : List (BoardObs P)}
    {oos : List (ObjObs P)} (h : Made objs obs oos) : Made objs' obs oos := by
  intro oo hoo
  obtain ⟨ob, h1, h2, h3⟩ := h oo hoo
  have hi : oo.obj ∈ OMap.keys objs' := by rw [hs.1]; exact OMap.mem_keys.2 ⟨ob, h1⟩
  obtain ⟨o', ho'⟩ := OMap.mem_keys.1 hi
  obtain ⟨o2, ho2, hso⟩ := hs.2 _ o' ho'
  rw [h1] at ho2
  simp only [Option.some.injEq] at ho2
  subst ho2
  exact ⟨o', ho', by rw [objObs_same obs _ _ hso]; exact h2, h3⟩

theorem closed_same {objs objs' : OMap Nat (Object G Pt)} (hs : SameAll objs objs') {l : List (Insertion P Path)}
    (h : Closed l objs) : Closed l objs' := by
  intro i o' b b' ho' hb hr
  obtain ⟨o, ho, hso⟩ := hs.2 i o' ho'
  rw [hso.boards] at hb ⊢
  exact h i o b b' ho hb hr

theorem readable [Group G] [SMul G Pt] {bpts : List (List Pt)} {objs : OMap Nat (Object G Pt)}
    (hC : Spec.Objects.Collection bpts objs) {obs : List (BoardObs P)}
    (hal : ∀ o ∈ obs, o.pts.length = o.ids.length)
    (hids : ∀ bo ∈ obs, ∀ k ∈ bo.ids, k < cornerCount bpts bo.board) {oos : List (ObjObs P)}
    (h : Made objs obs oos) : ∀ oo ∈ oos, Readable objs oo := by
  intro o ho
  obtain ⟨ob, h1, h2, h3⟩ := h o ho
  have hn := (hC.good _ ob h1).numbering
  have hsel : ∀ bo ∈ (Spec.Objects.seenOf ob obs o.cam o.frame).filterMap (fun i => obs[i]?),
      bo ∈ obs ∧ bo.board ∈ OMap.keys ob.boards := by
    intro bo hbo
    obtain ⟨i, hi, he⟩ := List.mem_filterMap.1 hbo
    obtain ⟨bo', hbo', hp⟩ := (Props.Store.positions_get _ _ _).1 hi
    rw [he] at hbo'
    simp only [Option.some.injEq] at hbo'
    subst hbo'
    simp only [Bool.and_eq_true, beq_iff_eq, decide_eq_true_eq] at hp
    exact ⟨List.mem_of_getElem? he, hp.2⟩
  refine ⟨ob, h1, ?_, ?_⟩
  · rw [h2]
    unfold Spec.Objects.objObs
    simp only [List.length_flatMap, List.length_map]
    congr 1
    apply List.map_congr_left
    intro bo hbo
    exact hal bo (hsel bo hbo).1
  · intro k hk
    rw [h2] at hk
    unfold Spec.Objects.objObs at hk
    obtain ⟨bo, hbo, hk⟩ := List.mem_flatMap.1 hk
    obtain ⟨j, hj, rfl⟩ := List.mem_map.1 hk
    obtain ⟨m1, m2⟩ := hsel bo hbo
    have : (bo.board, j) ∈ ob.o2b := (hn.mem bo.board j).2 ⟨m2, hids bo m1 j hj⟩
    unfold Spec.Objects.objNumber
    rw [if_pos this, hn.pts_length]
    exact List.idxOf_lt_length_iff.2 this

theorem sum_pos {α : Type} (F : α → Nat) {l : List α} (h : 0 < (l.map F).sum) : ∃ x ∈ l, 0 < F x := by
  by_contra hno
  apply absurd h
  rw [Nat.not_lt, Nat.le_zero, List.sum_eq_zero_iff_forall_eq_nat]
  intro x hx
  obtain ⟨y, hy, rfl⟩ := List.mem_map.1 hx
  by_contra h0
  exact hno ⟨y, hy, Nat.pos_of_ne_zero h0⟩

theorem filter_sum_le {α : Type} (F : α → Nat) (p q : α → Bool) (l : List α) (h : ∀ x, p x = true → q x = true) :
    ((l.filter p).map F).sum ≤ ((l.filter q).map F).sum := by
  induction l with
  | nil => simp
  | cons a l ih =>
    by_cases hp : p a = true
    · rw [List.filter_cons_of_pos hp, List.filter_cons_of_pos (h a hp)]
      simpa using ih
    · rw [List.filter_cons_of_neg hp]
      by_cases hq : q a = true
      · rw [List.filter_cons_of_pos hq]
        simp only [List.map_cons, List.sum_cons]
        omega
      · rw [List.filter_cons_of_neg hq]
        exact ih

theorem linked_le {l : List (Insertion P Path)} {obs : List (BoardObs P)} {o : Object G Pt} {b c f : Nat}
    (h : ∀ b', ReflTransGen (CoSeen l) b b' → b' ∈ OMap.keys o.boards) :
    linkedPoints l obs b c f ≤ pointsLeft o obs c f := by
  unfold linkedPoints pointsLeft
  refine filter_sum_le _ _ _ _ fun x hx => ?_
  simp only [decide_eq_true_eq] at hx
  simp only [Bool.and_eq_true, beq_iff_eq, decide_eq_true_eq]
  exact ⟨⟨hx.1, hx.2.1⟩, h _ hx.2.2⟩

theorem le_linked {l : List (Insertion P Path)} {obs : List (BoardObs P)} {o : Object G Pt} {b c f : Nat}
    (h : ∀ b' ∈ OMap.keys o.boards, ReflTransGen (CoSeen l) b b') :
    pointsLeft o obs c f ≤ linkedPoints l obs b c f := by
  unfold linkedPoints pointsLeft
  refine filter_sum_le _ _ _ _ fun x hx => ?_
  simp only [Bool.and_eq_true, beq_iff_eq, decide_eq_true_eq] at hx
  simp only [decide_eq_true_eq]
  exact ⟨hx.1.1, hx.1.2, h _ hx.2⟩

theorem mem_linked {l : List (Insertion P Path)} {obs : List (BoardObs P)} {b c f : Nat}
    (h : 0 < linkedPoints l obs b c f) : ∃ bo ∈ obs, bo.cam = c ∧ bo.frame = f ∧
      ReflTransGen (CoSeen l) b bo.board ∧ 0 < bo.pts.length := by
  obtain ⟨bo, h1, h2⟩ := sum_pos _ h
  rw [List.mem_filter] at h1
  simp only [decide_eq_true_eq] at h1
  exact ⟨bo, h1.1, h1.2.1, h1.2.2.1, h1.2.2.2, h2⟩

/-- A view of an object of linked boards has at least four points. -/
theorem enough {l : List (Insertion P Path)} {obs : List (BoardObs P)} (hT : ¬ Thin l obs)
    {objs : OMap Nat (Object G Pt)} (hc : Closed l objs) {i : Nat} {o : Object G Pt}
    (ho : OMap.get? objs i = some o) (c f : Nat) (hp : 0 < pointsLeft o obs c f) : 4 ≤ pointsLeft o obs c f := by
  have : ∃ bo ∈ obs, bo.cam = c ∧ bo.frame = f ∧ bo.board ∈ OMap.keys o.boards ∧ 0 < bo.pts.length := by
    obtain ⟨bo, h1, h2⟩ := sum_pos _ hp
    rw [List.mem_filter] at h1
    simp only [Bool.and_eq_true, beq_iff_eq, decide_eq_true_eq] at h1
    exact ⟨bo, h1.1, h1.2.1.1, h1.2.1.2, h1.2.2, h2⟩
  obtain ⟨bo, h1, h2, h3, h4, h5⟩ := this
  have hle := linked_le (obs := obs) (c := c) (f := f) (fun b' => hc i o bo.board b' ho h4)
  have hpos : 0 < linkedPoints l obs bo.board c f := by
    unfold linkedPoints
    refine lt_of_lt_of_le h5 (List.single_le_sum (by simp) _ (List.mem_map.2 ⟨bo, ?_, rfl⟩))
    rw [List.mem_filter]
    simp only [decide_eq_true_eq]
    exact ⟨h1, h2, h3, ReflTransGen.refl⟩
  by_contra hlt
  exact hT ⟨bo.board, c, f, hpos, by omega⟩

/-- The pose estimation of objects of linked boards succeeds if no view is thin. -/
theorem estimate_ok [Group G] [SMul G Pt] {bpts : List (List Pt)} {objs : OMap Nat (Object G Pt)}
    (hC : Spec.Objects.Collection bpts objs) {obs : List (BoardObs P)}
    (hal : ∀ o ∈ obs, o.pts.length = o.ids.length)
    (hids : ∀ bo ∈ obs, ∀ k ∈ bo.ids, k < cornerCount bpts bo.board) {oos : List (ObjObs P)}
    (hM : Made objs obs oos) {l : List (Insertion P Path)} (hcl : Closed l objs) (hT : ¬ Thin l obs)
    (search : Search Pt P G) (hS : Sound search) (hF : Fails search) (garbage : G) :
    ∃ ps, estimateAllObjects search garbage objs oos = .ok ps := by
  obtain ⟨r, h, _⟩ := (C55_objects search hS hF garbage objs oos (readable hC hal hids hM)).1 (by
    intro oo hoo
    obtain ⟨ob, h1, h2, h3⟩ := hM oo hoo
    rw [h2, objObs_length]
    refine enough hT hcl h1 _ _ ?_
    rw [← objObs_length, ← h2]
    exact List.length_pos_iff.2 h3)
  exact ⟨r, h⟩

theorem closed_partition [Group G] [SMul G Pt] {bpts : List (List Pt)} {objs : OMap Nat (Object G Pt)}
    (hC : Spec.Objects.Collection bpts objs) {l : List (Insertion P Path)} {V : List Nat}
    (hp : IsPartition (CoSeen l) V (objs.map fun e => OMap.keys e.2.boards)) : Closed l objs := by
  intro i o b b' ho hb hr
  exact (hp.linked _ (List.mem_map.2 ⟨(i, o), (OMap.get?_eq_some hC.sorted).1 ho, rfl⟩) b hb b').2 hr

/-- Unions of closed objects are closed. -/
theorem closed_union {l : List (Insertion P Path)} {objs objs' : OMap Nat (Object G Pt)} (h : Closed l objs)
    (cs : List (List Nat)) (hk : OMap.keys objs' = List.range cs.length)
    (hu : ∀ i c, cs[i]? = some c → ∃ o, OMap.get? objs' i = some o ∧ ∀ b, b ∈ OMap.keys o.boards ↔
      ∃ j ∈ c, ∃ oj, OMap.get? objs j = some oj ∧ b ∈ OMap.keys oj.boards) : Closed l objs' := by
  intro i o b b' ho hb hr
  have hi : i ∈ OMap.keys objs' := OMap.mem_keys.2 ⟨o, ho⟩
  rw [hk, List.mem_range] at hi
  obtain ⟨o', ho', hbs⟩ := hu i cs[i] (List.getElem?_eq_getElem hi)
  rw [ho] at ho'
  simp only [Option.some.injEq] at ho'
  subst ho'
  obtain ⟨j, hj, oj, hoj, hbj⟩ := (hbs b).1 hb
  exact (hbs b').2 ⟨j, hj, oj, hoj, h j oj b b' hoj hbj hr⟩

end Verif.Lemmas.Program
