import Verif.Spec.Lifetime
import Verif.Lemmas.Pipeline

/-! Invariant of the tables of references. -/
namespace Verif.Lemmas.Lifetime
open Verif Verif.Lifetime Verif.Spec.Lifetime Verif.Lemmas.Pipeline

/-- The invariant: nothing dangles, the tables are maps, and addresses in use are below the next one. -/
structure Inv (m : Mem) : Prop extends NoDangling m where
  sObjs : OMap.Sorted m.objs
  sGrps : OMap.Sorted m.grps
  sGobs : OMap.Sorted m.gobs
  sImg : OMap.Sorted m.imgObs
  sCam : OMap.Sorted m.camObs
  sFr : OMap.Sorted m.frObs
  sFrG : OMap.Sorted m.frGrp
  lObj : ∀ i x, OMap.get? m.objs i = some x → x.addr < m.next
  lObs : ∀ o ∈ m.oo, o.addr < m.next
  lGrp : ∀ i x, OMap.get? m.grps i = some x → x.addr < m.next
  lGobs : ∀ i x, OMap.get? m.gobs i = some x → x.addr < m.next

theorem mem_of_get {K A : Type} [DecidableEq K] [Key K] {m : OMap K A} {i : K} {a : A} (h : OMap.get? m i = some a) :
    (i, a) ∈ m := by
  induction m with
  | nil => cases h
  | cons e m ih =>
    obtain ⟨k, v⟩ := e
    simp only [OMap.get?] at h
    split at h
    · rename_i hk
      simp only [Option.some.injEq] at h
      rw [hk, h]
      simp
    · exact List.mem_cons_of_mem _ (ih h)

theorem each_ok {A : Type} (f : A → Outcome Unit) (l : List A) (h : ∀ a ∈ l, f a = .ok ()) : each f l = .ok () := by
  unfold each
  induction l with
  | nil => rfl
  | cons a l ih =>
    rw [Outcome.foldlM_cons, h a (by simp), Outcome.bind_ok]
    exact ih fun b hb => h b (by simp [hb])

theorem find_ok {A : Type} (l : List A) (p : A → Bool) (x : A) (hx : x ∈ l) (hp : p x = true) :
    ∃ y ∈ l, l.find? p = some y ∧ p y = true := by
  cases h : l.find? p with
  | none => exact absurd hp (by simpa using List.find?_eq_none.1 h x hx)
  | some y => exact ⟨y, List.mem_of_find?_eq_some h, rfl, List.find?_some h⟩

theorem foldlM_total {σ α : Type} {f : σ → α → Outcome σ} (I : σ → Prop) :
    ∀ {l : List α} {s : σ}, (∀ s x, x ∈ l → I s → ∃ t, f s x = .ok t ∧ I t) → I s →
      ∃ t, Outcome.foldlM f s l = .ok t ∧ I t
  | [], s, _, hs => ⟨s, rfl, hs⟩
  | x :: xs, s, hstep, hs => by
    obtain ⟨t, h1, h2⟩ := hstep s x (by simp) hs
    rw [Outcome.foldlM_cons, h1, Outcome.bind_ok]
    exact foldlM_total I (fun s y hy => hstep s y (by simp [hy])) h2

/-- A table of references after one more entry. -/
theorem modify_refs {K : Type} [DecidableEq K] [Key K] {t : OMap K (List Nat)} (hs : OMap.Sorted t) (k : K) (a : Nat)
    {P : K → Nat → Prop} (hold : ∀ q as, OMap.get? t q = some as → ∀ b ∈ as, P q b) (hnew : P k a) :
    ∀ q as, OMap.get? (OMap.modify t k [] (· ++ [a])) q = some as → ∀ b ∈ as, P q b := by
  intro q as hq b hb
  unfold OMap.modify at hq
  rw [OMap.get?_set _ _ _ _ hs] at hq
  split at hq
  · rename_i e
    subst e
    simp only [Option.some.injEq] at hq
    subst hq
    rcases List.mem_append.1 hb with hb | hb
    · cases hg : OMap.get? t q with
      | none => rw [hg] at hb; cases hb
      | some bs => rw [hg] at hb; exact hold q bs hg b hb
    · rw [List.mem_singleton.1 hb]; exact hnew
  · exact hold q as hq b hb

section
variable {m : Mem} (h : Inv m)
include h

/-! ### Reading -/

theorem lockObj_ok {i : Nat} {x : Obj} (hx : OMap.get? m.objs i = some x) : lockObj m x.addr = .ok x := by
  obtain ⟨y, hy, e1, e2⟩ := find_ok m.objs (fun e => e.2.addr == x.addr) (i, x) (mem_of_get hx) (by simp)
  unfold lockObj
  rw [e1]
  have hy' := (OMap.get?_eq_some h.sObjs).2 (show (y.1, y.2) ∈ m.objs from hy)
  have := h.objAddr y.1 i y.2 x hy' hx (by simpa using e2)
  rw [this, hx] at hy'
  simp only [Option.some.injEq] at hy'
  rw [hy']
  rfl

theorem lockGrp_ok {i : Nat} {x : Grp} (hx : OMap.get? m.grps i = some x) : lockGrp m x.addr = .ok x := by
  obtain ⟨y, hy, e1, e2⟩ := find_ok m.grps (fun e => e.2.addr == x.addr) (i, x) (mem_of_get hx) (by simp)
  unfold lockGrp
  rw [e1]
  have hy' := (OMap.get?_eq_some h.sGrps).2 (show (y.1, y.2) ∈ m.grps from hy)
  have := h.grpAddr y.1 i y.2 x hy' hx (by simpa using e2)
  rw [this, hx] at hy'
  simp only [Option.some.injEq] at hy'
  rw [hy']
  rfl

theorem lockGObs_ok {i : Nat × Nat} {x : GObs} (hx : OMap.get? m.gobs i = some x) : lockGObs m x.addr = .ok x := by
  obtain ⟨y, hy, e1, e2⟩ := find_ok m.gobs (fun e => e.2.addr == x.addr) (i, x) (mem_of_get hx) (by simp)
  unfold lockGObs
  rw [e1]
  have hy' := (OMap.get?_eq_some h.sGobs).2 (show (y.1, y.2) ∈ m.gobs from hy)
  have := h.gobsAddr y.1 i y.2 x hy' hx (by simpa using e2)
  rw [this, hx] at hy'
  simp only [Option.some.injEq] at hy'
  rw [hy']
  rfl

theorem lockObs_ok {o : Obs} (ho : o ∈ m.oo) : lockObs m o.addr = .ok o := by
  obtain ⟨y, hy, e1, e2⟩ := find_ok m.oo (fun e => e.addr == o.addr) o ho (by simp)
  unfold lockObs
  rw [e1]
  have : y = o := List.inj_on_of_nodup_map h.obsAddr hy ho (by simpa using e2)
  rw [this]
  rfl

theorem readObs_ok {a : Nat} (ha : LiveObs m a) : readObs m a = .ok () := by
  obtain ⟨o, ho, rfl⟩ := ha
  unfold readObs
  rw [lockObs_ok h ho, Outcome.bind_ok]
  obtain ⟨x, hx, e⟩ := h.obsObj o ho
  rw [← e, lockObj_ok h hx]
  rfl

theorem readGObs_ok {i f : Nat} {g : GObs} (hg : OMap.get? m.gobs (i, f) = some g) : readGObs m g = .ok () := by
  unfold readGObs
  obtain ⟨x, hx, e⟩ := h.gobsGrp i f g hg
  rw [← e, lockGrp_ok h hx, Outcome.bind_ok]
  exact each_ok _ _ fun a ha => readObs_ok h (h.gobsObs _ g hg a ha)

theorem readFrame_ok (f : Nat) : readFrame m f = .ok () := by
  refine each_ok _ _ fun a ha => ?_
  cases hf : OMap.get? m.frGrp f with
  | none => rw [hf] at ha; cases ha
  | some as =>
    rw [hf] at ha
    obtain ⟨i, g, hg, rfl⟩ := h.frGrp f as hf a ha
    unfold readGObsRef
    rw [lockGObs_ok h hg, Outcome.bind_ok, readGObs_ok h hg]

theorem readGroups_ok : readGroups m = .ok () :=
  each_ok _ _ fun _ _ => each_ok _ _ fun f _ => readFrame_ok h f

theorem saveImages_ok (sc : Scene) : saveImages sc m = .ok () := each_ok _ _ fun f _ => readFrame_ok h f

theorem pairs_ok (sc : Scene) : computeCamerasPairPose sc m = .ok () := by
  refine each_ok _ _ fun f _ => each_ok _ _ fun a ha => ?_
  cases hf : OMap.get? m.frObs f with
  | none => rw [hf] at ha; cases ha
  | some as => rw [hf] at ha; exact readObs_ok h (h.frObs f as hf a ha)

theorem readAllObs_ok : readAllObs m = .ok () := by
  refine each_ok _ _ fun o ho => ?_
  obtain ⟨x, hx, e⟩ := h.obsObj o ho
  rw [← e, lockObj_ok h hx]
  rfl

theorem readObjs_ok : readObjs m = .ok () := by
  refine each_ok _ _ fun e he => each_ok _ _ fun a ha => ?_
  have := (OMap.get?_eq_some h.sObjs).2 (show (e.1, e.2) ∈ m.objs from he)
  exact readObs_ok h (h.objObs e.1 e.2 this a ha)

theorem readAllGObs_ok : readAllGObs m = .ok () := by
  refine each_ok _ _ fun e he => ?_
  have := (OMap.get?_eq_some h.sGobs).2 (show ((e.1.1, e.1.2), e.2) ∈ m.gobs from he)
  exact readGObs_ok h this

theorem computeAll_ok : computeAllObjPose m = .ok () := by
  unfold computeAllObjPose
  rw [readGroups_ok h, Outcome.bind_ok, readAllGObs_ok h]

theorem refineGroups_ok : refineGroups m = .ok () := by
  unfold refineGroups
  rw [readGroups_ok h, Outcome.bind_ok, readAllGObs_ok h]

/-! ### Object observations -/

theorem obsImage_ok (sees : Nat → Nat × Nat → Bool) (i : Nat) (hi : i ∈ OMap.keys m.objs) (im : Nat × Nat) :
    ∃ m', obsImage sees i m im = .ok m' ∧ Inv m' ∧ OMap.keys m'.objs = OMap.keys m.objs ∧ m'.grps = m.grps ∧
      m'.gobs = m.gobs := by
  obtain ⟨x, hx⟩ := OMap.mem_keys.1 hi
  unfold obsImage
  rw [hx, Outcome.deref_some, Outcome.bind_ok]
  dsimp only
  split
  swap
  · refine ⟨_, rfl, { h with lObj := ?_, lObs := ?_, lGrp := ?_, lGobs := ?_ }, rfl, rfl, rfl⟩
    · intro j y hy; exact Nat.lt_succ_of_lt (h.lObj j y hy)
    · intro o ho; exact Nat.lt_succ_of_lt (h.lObs o ho)
    · intro j y hy; exact Nat.lt_succ_of_lt (h.lGrp j y hy)
    · intro j y hy; exact Nat.lt_succ_of_lt (h.lGobs j y hy)
  · have hl : ∀ b, LiveObs m b → ∀ o' : Obs, ∃ o ∈ m.oo ++ [o'], o.addr = b := by
      rintro b ⟨o, ho, e⟩ o'
      exact ⟨o, by simp [ho], e⟩
    have hn : ∀ o' : Obs, ∃ o ∈ m.oo ++ [o'], o.addr = o'.addr := fun o' => ⟨o', by simp, rfl⟩
    have hset : ∀ j y, OMap.get? (OMap.set m.objs i { x with obs := x.obs ++ [m.next] }) j = some y →
        ∃ y0, OMap.get? m.objs j = some y0 ∧ y.addr = y0.addr ∧ ∀ b ∈ y.obs, b ∈ y0.obs ∨ b = m.next := by
      intro j y hy
      rw [OMap.get?_set _ _ _ _ h.sObjs] at hy
      split at hy
      · rename_i e
        subst e
        simp only [Option.some.injEq] at hy
        subst hy
        exact ⟨x, hx, rfl, fun b hb => by simpa using hb⟩
      · exact ⟨y, hy, rfl, fun b hb => Or.inl hb⟩
    have hback : ∀ j y0, OMap.get? m.objs j = some y0 → ∃ y,
        OMap.get? (OMap.set m.objs i { x with obs := x.obs ++ [m.next] }) j = some y ∧ y.addr = y0.addr := by
      intro j y0 hy
      rw [OMap.get?_set _ _ _ _ h.sObjs]
      split
      · rename_i e
        subst e
        rw [hx] at hy
        simp only [Option.some.injEq] at hy
        subst hy
        exact ⟨_, rfl, rfl⟩
      · exact ⟨y0, hy, rfl⟩
    refine ⟨_, rfl, ⟨⟨?_, ?_, ?_, ?_, ?_, ?_, ?_, ?_, ?_, ?_, ?_, ?_, ?_⟩, ?_, h.sGrps, h.sGobs, ?_, ?_, ?_, h.sFrG,
      ?_, ?_, ?_, ?_⟩, ?_, rfl, rfl⟩
    · intro o ho
      rcases List.mem_append.1 ho with ho | ho
      · obtain ⟨y, hy, e⟩ := h.obsObj o ho
        obtain ⟨y', hy', e'⟩ := hback _ y hy
        exact ⟨y', hy', by rw [e', e]⟩
      · rw [List.mem_singleton.1 ho]
        obtain ⟨y', hy', e'⟩ := hback i x hx
        exact ⟨y', hy', e'⟩
    · intro j y hy b hb
      obtain ⟨y0, hy0, _, hb'⟩ := hset j y hy
      rcases hb' b hb with hb' | rfl
      · exact hl b (h.objObs j y0 hy0 b hb') _
      · exact hn _
    · exact modify_refs (P := fun _ b => LiveObs _ b) h.sImg im m.next (fun q as hq b hb => hl b (h.imgObs q as hq b hb) _) (hn _)
    · exact modify_refs (P := fun _ b => LiveObs _ b) h.sCam im.1 m.next (fun q as hq b hb => hl b (h.camObs q as hq b hb) _) (hn _)
    · exact modify_refs (P := fun _ b => LiveObs _ b) h.sFr im.2 m.next (fun q as hq b hb => hl b (h.frObs q as hq b hb) _) (hn _)
    · exact fun j y hy b hb => hl b (h.grpObs j y hy b hb) _
    · exact h.gobsGrp
    · exact fun k g hg b hb => hl b (h.gobsObs k g hg b hb) _
    · exact h.frGrp
    · intro j k y z hy hz e
      obtain ⟨y0, hy0, e1, _⟩ := hset j y hy
      obtain ⟨z0, hz0, e2, _⟩ := hset k z hz
      exact h.objAddr j k y0 z0 hy0 hz0 (by rw [← e1, ← e2, e])
    · show (List.map _ (m.oo ++ [_])).Nodup
      rw [List.map_append, List.nodup_append]
      refine ⟨h.obsAddr, by simp, ?_⟩
      intro b hb c hc
      obtain ⟨o, ho, rfl⟩ := List.mem_map.1 hb
      rw [List.map_singleton, List.mem_singleton] at hc
      rw [hc]
      exact Nat.ne_of_lt (h.lObs o ho)
    · exact h.grpAddr
    · exact h.gobsAddr
    · exact OMap.sorted_set _ _ _ h.sObjs
    · exact OMap.sorted_set _ _ _ h.sImg
    · exact OMap.sorted_set _ _ _ h.sCam
    · exact OMap.sorted_set _ _ _ h.sFr
    · intro j y hy
      obtain ⟨y0, hy0, e1, _⟩ := hset j y hy
      rw [e1]
      exact Nat.lt_succ_of_lt (h.lObj j y0 hy0)
    · intro o ho
      rcases List.mem_append.1 ho with ho | ho
      · exact Nat.lt_succ_of_lt (h.lObs o ho)
      · rw [List.mem_singleton.1 ho]; exact Nat.lt_succ_self _
    · intro j y hy; exact Nat.lt_succ_of_lt (h.lGrp j y hy)
    · intro j y hy; exact Nat.lt_succ_of_lt (h.lGobs j y hy)
    · refine OMap.sorted_keys_ext (OMap.keys_sorted (OMap.sorted_set _ _ _ h.sObjs)) (OMap.keys_sorted h.sObjs) fun j => ?_
      rw [OMap.mem_keys_set h.sObjs]
      exact ⟨fun h => h.elim (fun e => e ▸ hi) id, Or.inr⟩

theorem initObs_ok (sc : Scene) (sees : Nat → Nat × Nat → Bool) (i : Nat) (hi : i ∈ OMap.keys m.objs) :
    ∃ m', init3DObjectObs sc sees m i = .ok m' ∧ Inv m' ∧ OMap.keys m'.objs = OMap.keys m.objs ∧ m'.grps = m.grps ∧
      m'.gobs = m.gobs := by
  refine foldlM_total (fun m' => Inv m' ∧ OMap.keys m'.objs = OMap.keys m.objs ∧ m'.grps = m.grps ∧ m'.gobs = m.gobs)
    ?_ ⟨h, rfl, rfl, rfl⟩
  rintro s im _ ⟨h1, h2, h3, h4⟩
  obtain ⟨t, k1, k2, k3, k4, k5⟩ := obsImage_ok h1 sees i (h2 ▸ hi) im
  exact ⟨t, k1, k2, k3.trans h2, k4.trans h3, k5.trans h4⟩

theorem initAllObs_ok (sc : Scene) (sees : Nat → Nat × Nat → Bool) :
    ∃ m', initAll3DObjectObs sc sees m = .ok m' ∧ Inv m' ∧ OMap.keys m'.objs = OMap.keys m.objs ∧ m'.grps = m.grps ∧
      m'.gobs = m.gobs := by
  refine foldlM_total (fun m' => Inv m' ∧ OMap.keys m'.objs = OMap.keys m.objs ∧ m'.grps = m.grps ∧ m'.gobs = m.gobs)
    ?_ ⟨h, rfl, rfl, rfl⟩
  rintro s i hi ⟨h1, h2, h3, h4⟩
  obtain ⟨t, k1, k2, k3, k4, k5⟩ := initObs_ok h1 sc sees i (h2 ▸ hi)
  exact ⟨t, k1, k2, k3.trans h2, k4.trans h3, k5.trans h4⟩

/-! ### Group observations -/

theorem groupSees_ok (member : Nat → Nat → Bool) (gi : Nat) (as : List Nat) (has : ∀ a ∈ as, LiveObs m a) :
    ∃ r, groupSees member gi m as = .ok r ∧ ∀ a ∈ r, LiveObs m a := by
  induction as with
  | nil => exact ⟨[], rfl, by simp⟩
  | cons a as ih =>
    obtain ⟨o, ho, rfl⟩ := has a (by simp)
    obtain ⟨r, h1, h2⟩ := ih fun b hb => has b (by simp [hb])
    unfold groupSees
    rw [lockObs_ok h ho, Outcome.bind_ok, h1, Outcome.bind_ok]
    refine ⟨_, rfl, ?_⟩
    intro b hb
    split at hb
    · rcases List.mem_cons.1 hb with rfl | hb
      · exact ⟨o, ho, rfl⟩
      · exact h2 b hb
    · exact h2 b hb

theorem groupFrame_ok (member : Nat → Nat → Bool) (gi : Nat) (hgi : gi ∈ OMap.keys m.grps) (f : Nat)
    (hf : OMap.get? m.gobs (gi, f) = none) :
    ∃ m', groupFrame member gi m f = .ok m' ∧ Inv m' ∧ OMap.keys m'.grps = OMap.keys m.grps ∧
      ∀ k, k ≠ (gi, f) → OMap.get? m'.gobs k = OMap.get? m.gobs k := by
  obtain ⟨x, hx⟩ := OMap.mem_keys.1 hgi
  obtain ⟨seen, hs1, hs2⟩ := groupSees_ok h member gi ((OMap.get? m.frObs f).getD []) (by
    intro a ha
    cases hh : OMap.get? m.frObs f with
    | none => rw [hh] at ha; cases ha
    | some as => rw [hh] at ha; exact h.frObs f as hh a ha)
  unfold groupFrame
  rw [hx, Outcome.deref_some, Outcome.bind_ok, hs1, Outcome.bind_ok]
  dsimp only
  split
  swap
  · refine ⟨_, rfl, { h with lObj := ?_, lObs := ?_, lGrp := ?_, lGobs := ?_ }, rfl, fun _ _ => rfl⟩
    · intro j y hy; exact Nat.lt_succ_of_lt (h.lObj j y hy)
    · intro o ho; exact Nat.lt_succ_of_lt (h.lObs o ho)
    · intro j y hy; exact Nat.lt_succ_of_lt (h.lGrp j y hy)
    · intro j y hy; exact Nat.lt_succ_of_lt (h.lGobs j y hy)
  · have hset : ∀ j y, OMap.get? (OMap.set m.grps gi { x with obs := x.obs ++ seen, frames := x.frames ++ [f] }) j = some y →
        ∃ y0, OMap.get? m.grps j = some y0 ∧ y.addr = y0.addr ∧ ∀ b ∈ y.obs, b ∈ y0.obs ∨ b ∈ seen := by
      intro j y hy
      rw [OMap.get?_set _ _ _ _ h.sGrps] at hy
      split at hy
      · rename_i e
        subst e
        simp only [Option.some.injEq] at hy
        subst hy
        exact ⟨x, hx, rfl, fun b hb => by simpa using hb⟩
      · exact ⟨y, hy, rfl, fun b hb => Or.inl hb⟩
    have hback : ∀ j y0, OMap.get? m.grps j = some y0 → ∃ y,
        OMap.get? (OMap.set m.grps gi { x with obs := x.obs ++ seen, frames := x.frames ++ [f] }) j = some y ∧
          y.addr = y0.addr := by
      intro j y0 hy
      rw [OMap.get?_set _ _ _ _ h.sGrps]
      split
      · rename_i e
        subst e
        rw [hx] at hy
        simp only [Option.some.injEq] at hy
        subst hy
        exact ⟨_, rfl, rfl⟩
      · exact ⟨y0, hy, rfl⟩
    have hgset : ∀ k g, OMap.get? (OMap.set m.gobs (gi, f) { addr := m.next, grp := x.addr, obs := seen }) k = some g →
        (k = (gi, f) ∧ g = { addr := m.next, grp := x.addr, obs := seen }) ∨ (k ≠ (gi, f) ∧ OMap.get? m.gobs k = some g) := by
      intro k g hg
      rw [OMap.get?_set _ _ _ _ h.sGobs] at hg
      split at hg
      · rename_i e
        simp only [Option.some.injEq] at hg
        exact Or.inl ⟨e, hg.symm⟩
      · rename_i e; exact Or.inr ⟨e, hg⟩
    refine ⟨_, rfl, ⟨⟨h.obsObj, h.objObs, h.imgObs, h.camObs, h.frObs, ?_, ?_, ?_, ?_, h.objAddr, h.obsAddr, ?_, ?_⟩,
      h.sObjs, OMap.sorted_set _ _ _ h.sGrps, OMap.sorted_set _ _ _ h.sGobs, h.sImg, h.sCam, h.sFr,
      OMap.sorted_set _ _ _ h.sFrG, ?_, ?_, ?_, ?_⟩, ?_, ?_⟩
    · intro j y hy b hb
      obtain ⟨y0, hy0, _, hb'⟩ := hset j y hy
      rcases hb' b hb with hb' | hb'
      · exact h.grpObs j y0 hy0 b hb'
      · exact hs2 b hb'
    · intro i f' g hg
      rcases hgset _ g hg with ⟨e, rfl⟩ | ⟨_, hg⟩
      · simp only [Prod.mk.injEq] at e
        rw [e.1]
        exact hback gi x hx
      · obtain ⟨y, hy, e⟩ := h.gobsGrp i f' g hg
        obtain ⟨y', hy', e'⟩ := hback i y hy
        exact ⟨y', hy', e'.trans e⟩
    · intro k g hg b hb
      rcases hgset _ g hg with ⟨e, rfl⟩ | ⟨_, hg⟩
      · exact hs2 b hb
      · exact h.gobsObs k g hg b hb
    · have hkeep : ∀ k g, OMap.get? m.gobs k = some g →
          OMap.get? (OMap.set m.gobs (gi, f) { addr := m.next, grp := x.addr, obs := seen }) k = some g := by
        intro k g hg
        rw [OMap.get?_set _ _ _ _ h.sGobs, if_neg, hg]
        rintro rfl
        rw [hf] at hg; cases hg
      refine modify_refs (P := fun q b => ∃ i g, OMap.get? (OMap.set m.gobs (gi, f) { addr := m.next, grp := x.addr, obs := seen }) (i, q) = some g ∧
        g.addr = b) h.sFrG f m.next ?_ ?_
      · intro q as hq b hb
        obtain ⟨i, g, hg, e⟩ := h.frGrp q as hq b hb
        exact ⟨i, g, hkeep _ g hg, e⟩
      · exact ⟨gi, _, OMap.get?_set_self _ _ _ h.sGobs, rfl⟩
    · intro j k y z hy hz e
      obtain ⟨y0, hy0, e1, _⟩ := hset j y hy
      obtain ⟨z0, hz0, e2, _⟩ := hset k z hz
      exact h.grpAddr j k y0 z0 hy0 hz0 (by rw [← e1, ← e2, e])
    · intro j k y z hy hz e
      rcases hgset _ y hy with ⟨ej, rfl⟩ | ⟨_, hy⟩ <;> rcases hgset _ z hz with ⟨ek, rfl⟩ | ⟨_, hz⟩
      · rw [ej, ek]
      · have := h.lGobs k z hz
        simp only at e
        omega
      · have := h.lGobs j y hy
        simp only at e
        omega
      · exact h.gobsAddr j k y z hy hz e
    · intro j y hy; exact Nat.lt_succ_of_lt (h.lObj j y hy)
    · intro o ho; exact Nat.lt_succ_of_lt (h.lObs o ho)
    · intro j y hy
      obtain ⟨y0, hy0, e1, _⟩ := hset j y hy
      rw [e1]
      exact Nat.lt_succ_of_lt (h.lGrp j y0 hy0)
    · intro k g hg
      rcases hgset _ g hg with ⟨e, rfl⟩ | ⟨_, hg⟩
      · exact Nat.lt_succ_self _
      · exact Nat.lt_succ_of_lt (h.lGobs k g hg)
    · refine OMap.sorted_keys_ext (OMap.keys_sorted (OMap.sorted_set _ _ _ h.sGrps)) (OMap.keys_sorted h.sGrps) fun j => ?_
      rw [OMap.mem_keys_set h.sGrps]
      exact ⟨fun h => h.elim (fun e => e ▸ hgi) id, Or.inr⟩
    · intro k hk
      rw [OMap.get?_set _ _ _ _ h.sGobs, if_neg hk]

end

theorem groupObs_ok (member : Nat → Nat → Bool) (gi : Nat) : ∀ (fs : List Nat) (_ : fs.Nodup) {m : Mem} (_ : Inv m)
    (_ : gi ∈ OMap.keys m.grps) (_ : ∀ f ∈ fs, OMap.get? m.gobs (gi, f) = none),
    ∃ m', Outcome.foldlM (groupFrame member gi) m fs = .ok m' ∧ Inv m' ∧ OMap.keys m'.grps = OMap.keys m.grps ∧
      ∀ k, k.1 ≠ gi → OMap.get? m'.gobs k = OMap.get? m.gobs k := by
  intro fs
  induction fs with
  | nil => intro _ m h _ _; exact ⟨m, rfl, h, rfl, fun _ _ => rfl⟩
  | cons f fs ih =>
    intro hnd m h hgi hf
    obtain ⟨m1, h1, h2, h3, h4⟩ := groupFrame_ok h member gi hgi f (hf f (by simp))
    rw [List.nodup_cons] at hnd
    obtain ⟨m2, k1, k2, k3, k4⟩ := ih hnd.2 h2 (h3 ▸ hgi) (by
      intro f' hf'
      rw [h4 _ (by rintro e; simp only [Prod.mk.injEq, true_and] at e; exact hnd.1 (e ▸ hf'))]
      exact hf f' (by simp [hf']))
    refine ⟨m2, by rw [Outcome.foldlM_cons, h1, Outcome.bind_ok, k1], k2, k3.trans h3, fun k hk => ?_⟩
    rw [k4 k hk, h4 k (by rintro rfl; exact hk rfl)]

theorem initGroupObs_ok (sc : Scene) (hnd : sc.frames.Nodup) (member : Nat → Nat → Bool) {m : Mem} (h : Inv m)
    (hg : m.gobs = []) : ∃ m', initAllCameraGroupObs sc member m = .ok m' ∧ Inv m' := by
  unfold initAllCameraGroupObs
  have key : ∀ (is : List Nat), is.Nodup → ∀ {m : Mem}, Inv m → (∀ i ∈ is, i ∈ OMap.keys m.grps) →
      (∀ i ∈ is, ∀ f, OMap.get? m.gobs (i, f) = none) →
      ∃ m', Outcome.foldlM (initCameraGroupObs sc member) m is = .ok m' ∧ Inv m' := by
    intro is
    induction is with
    | nil => intro _ m h _ _; exact ⟨m, rfl, h⟩
    | cons i is ih =>
      intro hn m h hk hno
      rw [List.nodup_cons] at hn
      obtain ⟨m1, h1, h2, h3, h4⟩ := groupObs_ok member i sc.frames hnd h (hk i (by simp)) (fun f _ => hno i (by simp) f)
      obtain ⟨m2, k1, k2⟩ := ih hn.2 h2 (fun j hj => h3 ▸ hk j (by simp [hj])) (by
        intro j hj f
        rw [h4 (j, f) (by rintro rfl; exact hn.1 hj)]
        exact hno j (by simp [hj]) f)
      exact ⟨m2, by rw [Outcome.foldlM_cons]; unfold initCameraGroupObs at k1 ⊢; rw [h1, Outcome.bind_ok, k1], k2⟩
  refine key _ (OMap.keys_nodup h.sGrps) h (fun _ h => h) ?_
  intro i _ f
  rw [hg]
  rfl

/-! ### New objects and groups -/

theorem newObj_ok {m : Mem} (h : Inv m) (ho : m.oo = []) (i : Nat) : Inv (newObj m i) ∧ (newObj m i).oo = [] := by
  have hset : ∀ j y, OMap.get? (OMap.set m.objs i { addr := m.next }) j = some y →
      (j = i ∧ y = { addr := m.next }) ∨ OMap.get? m.objs j = some y := by
    intro j y hy
    rw [OMap.get?_set _ _ _ _ h.sObjs] at hy
    split at hy
    · rename_i e
      simp only [Option.some.injEq] at hy
      exact Or.inl ⟨e, hy.symm⟩
    · exact Or.inr hy
  refine ⟨{ h with obsObj := ?_, objObs := ?_, objAddr := ?_, sObjs := ?_, lObj := ?_, lObs := ?_, lGrp := ?_, lGobs := ?_ }, ho⟩
  · intro o hoo
    rw [show (newObj m i).oo = [] from ho] at hoo
    cases hoo
  · intro j y hy b hb
    rcases hset j y hy with ⟨_, rfl⟩ | hy
    · cases hb
    · exact h.objObs j y hy b hb
  · intro j k y z hy hz e
    rcases hset j y hy with ⟨ej, rfl⟩ | hy <;> rcases hset k z hz with ⟨ek, rfl⟩ | hz
    · rw [ej, ek]
    · have := h.lObj k z hz
      simp only at e
      omega
    · have := h.lObj j y hy
      simp only at e
      omega
    · exact h.objAddr j k y z hy hz e
  · exact OMap.sorted_set _ _ _ h.sObjs
  · intro j y hy
    rcases hset j y hy with ⟨_, rfl⟩ | hy
    · exact Nat.lt_succ_self _
    · exact Nat.lt_succ_of_lt (h.lObj j y hy)
  · intro o ho; exact Nat.lt_succ_of_lt (h.lObs o ho)
  · intro j y hy; exact Nat.lt_succ_of_lt (h.lGrp j y hy)
  · intro j y hy; exact Nat.lt_succ_of_lt (h.lGobs j y hy)

theorem newObjs_ok (is : List Nat) {m : Mem} (h : Inv m) (ho : m.oo = []) :
    Inv (is.foldl newObj m) ∧ (is.foldl newObj m).oo = [] ∧ (is.foldl newObj m).gobs = m.gobs ∧
      (is.foldl newObj m).grps = m.grps := by
  induction is generalizing m with
  | nil => exact ⟨h, ho, rfl, rfl⟩
  | cons i is ih =>
    obtain ⟨h1, h2⟩ := newObj_ok h ho i
    exact ih h1 h2

theorem newGrp_ok {m : Mem} (h : Inv m) (hg : m.gobs = []) (i : Nat) : Inv (newGrp m i) ∧ (newGrp m i).gobs = [] := by
  have hset : ∀ j y, OMap.get? (OMap.set m.grps i { addr := m.next }) j = some y →
      (j = i ∧ y = { addr := m.next }) ∨ OMap.get? m.grps j = some y := by
    intro j y hy
    rw [OMap.get?_set _ _ _ _ h.sGrps] at hy
    split at hy
    · rename_i e
      simp only [Option.some.injEq] at hy
      exact Or.inl ⟨e, hy.symm⟩
    · exact Or.inr hy
  refine ⟨{ h with gobsGrp := ?_, grpObs := ?_, grpAddr := ?_, sGrps := ?_, lObj := ?_, lObs := ?_, lGrp := ?_, lGobs := ?_ }, hg⟩
  · intro j y hy b hb
    rcases hset j y hy with ⟨_, rfl⟩ | hy
    · cases hb
    · exact h.grpObs j y hy b hb
  · intro j f g hgg
    rw [show (newGrp m i).gobs = [] from hg] at hgg
    cases hgg
  · intro j k y z hy hz e
    rcases hset j y hy with ⟨ej, rfl⟩ | hy <;> rcases hset k z hz with ⟨ek, rfl⟩ | hz
    · rw [ej, ek]
    · have := h.lGrp k z hz
      simp only at e
      omega
    · have := h.lGrp j y hy
      simp only at e
      omega
    · exact h.grpAddr j k y z hy hz e
  · exact OMap.sorted_set _ _ _ h.sGrps
  · intro j y hy; exact Nat.lt_succ_of_lt (h.lObj j y hy)
  · intro o ho; exact Nat.lt_succ_of_lt (h.lObs o ho)
  · intro j y hy
    rcases hset j y hy with ⟨_, rfl⟩ | hy
    · exact Nat.lt_succ_self _
    · exact Nat.lt_succ_of_lt (h.lGrp j y hy)
  · intro j y hy; exact Nat.lt_succ_of_lt (h.lGobs j y hy)

theorem newGrps_ok (is : List Nat) {m : Mem} (h : Inv m) (hg : m.gobs = []) :
    Inv (is.foldl newGrp m) ∧ (is.foldl newGrp m).gobs = [] := by
  induction is generalizing m with
  | nil => exact ⟨h, hg⟩
  | cons i is ih =>
    obtain ⟨h1, h2⟩ := newGrp_ok h hg i
    exact ih h1 h2

/-! ### Clearing -/

theorem inv_empty : Inv {} where
  obsObj := fun _ ho => nomatch ho
  objObs := fun _ _ hx => nomatch hx
  imgObs := fun _ _ hx => nomatch hx
  camObs := fun _ _ hx => nomatch hx
  frObs := fun _ _ hx => nomatch hx
  grpObs := fun _ _ hx => nomatch hx
  gobsGrp := fun _ _ _ hx => nomatch hx
  gobsObs := fun _ _ hx => nomatch hx
  frGrp := fun _ _ hx => nomatch hx
  objAddr := fun _ _ _ _ hx => nomatch hx
  obsAddr := List.Pairwise.nil
  grpAddr := fun _ _ _ _ hx => nomatch hx
  gobsAddr := fun _ _ _ _ hx => nomatch hx
  sObjs := List.Pairwise.nil
  sGrps := List.Pairwise.nil
  sGobs := List.Pairwise.nil
  sImg := List.Pairwise.nil
  sCam := List.Pairwise.nil
  sFr := List.Pairwise.nil
  sFrG := List.Pairwise.nil
  lObj := fun _ _ hx => nomatch hx
  lObs := fun _ ho => nomatch ho
  lGrp := fun _ _ hx => nomatch hx
  lGobs := fun _ _ hx => nomatch hx

theorem mapVal {K A B : Type} [DecidableEq K] [Key K] (f : A → B) (t : OMap K A) (k : K) :
    OMap.get? (t.map fun e => (e.1, f e.2) : OMap K B) k = (OMap.get? t k).map f := by
  induction t with
  | nil => rfl
  | cons e t ih =>
    obtain ⟨q, v⟩ := e
    simp only [List.map_cons, OMap.get?]
    split
    · rfl
    · exact ih

theorem sortedVal {K A B : Type} [DecidableEq K] [Key K] (f : A → B) (t : OMap K A) (h : OMap.Sorted t) :
    OMap.Sorted (t.map fun e => (e.1, f e.2) : OMap K B) := by
  unfold OMap.Sorted at h ⊢
  rw [List.pairwise_map]
  exact h

/-- Without objects and object observations. -/
theorem cleared_ok {m : Mem} (h : Inv m) : Inv { clearObs m with objs := [] } := by
  have none_mem : ∀ {K : Type} [DecidableEq K] [Key K] {t : OMap K (List Nat)} {k as},
      OMap.get? (t.map fun e => (e.1, ([] : List Nat)) : OMap K (List Nat)) k = some as → as = [] := by
    intro K _ _ t k as ha
    rw [mapVal (fun _ => ([] : List Nat))] at ha
    obtain ⟨_, _, e⟩ := Option.map_eq_some_iff.1 ha
    exact e.symm
  have hgrp : ∀ {i x}, OMap.get? (clearObs m).grps i = some x → ∃ y, OMap.get? m.grps i = some y ∧ x = y.bare := by
    intro i x hx
    rw [show (clearObs m).grps = (m.grps.map fun e => (e.1, e.2.bare) : OMap Nat Grp) from rfl,
      mapVal Grp.bare] at hx
    obtain ⟨y, hy, e⟩ := Option.map_eq_some_iff.1 hx
    exact ⟨y, hy, e.symm⟩
  have hgob : ∀ {i x}, OMap.get? (clearObs m).gobs i = some x → ∃ y, OMap.get? m.gobs i = some y ∧ x = y.bare := by
    intro i x hx
    rw [show (clearObs m).gobs = (m.gobs.map fun e => (e.1, e.2.bare) : OMap (Nat × Nat) GObs) from rfl,
      mapVal GObs.bare] at hx
    obtain ⟨y, hy, e⟩ := Option.map_eq_some_iff.1 hx
    exact ⟨y, hy, e.symm⟩
  refine ⟨⟨(fun _ ho => nomatch ho), (fun _ _ hx => nomatch hx), ?_, ?_, ?_, ?_, ?_, ?_, ?_, (fun _ _ _ _ hx => nomatch hx),
    List.Pairwise.nil, ?_, ?_⟩, List.Pairwise.nil, sortedVal _ _ h.sGrps, sortedVal _ _ h.sGobs,
    sortedVal (fun _ => ([] : List Nat)) _ h.sImg, sortedVal (fun _ => ([] : List Nat)) _ h.sCam,
    sortedVal (fun _ => ([] : List Nat)) _ h.sFr, h.sFrG, (fun _ _ hx => nomatch hx), (fun _ ho => nomatch ho), ?_, ?_⟩
  · intro k as hk a ha; rw [none_mem hk] at ha; cases ha
  · intro k as hk a ha; rw [none_mem hk] at ha; cases ha
  · intro k as hk a ha; rw [none_mem hk] at ha; cases ha
  · intro i x hx a ha
    obtain ⟨y, _, rfl⟩ := hgrp hx
    cases ha
  · intro i f g hg
    obtain ⟨y, hy, rfl⟩ := hgob hg
    obtain ⟨x, hx, e⟩ := h.gobsGrp i f y hy
    refine ⟨x.bare, ?_, e⟩
    show OMap.get? (m.grps.map fun e => (e.1, e.2.bare) : OMap Nat Grp) i = _
    rw [mapVal Grp.bare, hx]
    rfl
  · intro k g hg a ha
    obtain ⟨y, _, rfl⟩ := hgob hg
    cases ha
  · intro f as hf a ha
    obtain ⟨i, g, hg, e⟩ := h.frGrp f as hf a ha
    refine ⟨i, g.bare, ?_, e⟩
    show OMap.get? (m.gobs.map fun e => (e.1, e.2.bare) : OMap (Nat × Nat) GObs) (i, f) = _
    rw [mapVal GObs.bare, hg]
    rfl
  · intro i j x y hx hy e
    obtain ⟨x', hx', rfl⟩ := hgrp hx
    obtain ⟨y', hy', rfl⟩ := hgrp hy
    exact h.grpAddr i j x' y' hx' hy' e
  · intro i j x y hx hy e
    obtain ⟨x', hx', rfl⟩ := hgob hx
    obtain ⟨y', hy', rfl⟩ := hgob hy
    exact h.gobsAddr i j x' y' hx' hy' e
  · intro i x hx
    obtain ⟨x', hx', rfl⟩ := hgrp hx
    exact h.lGrp i x' hx'
  · intro i x hx
    obtain ⟨x', hx', rfl⟩ := hgob hx
    exact h.lGobs i x' hx'

theorem map_set {A B : Type} (f : A → B) (t : OMap Nat A) (k : Nat) (v : A) :
    ((OMap.set t k v).map fun e => (e.1, f e.2) : OMap Nat B) = OMap.set (t.map fun e => (e.1, f e.2) : OMap Nat B) k (f v) := by
  induction t with
  | nil => rfl
  | cons e t ih =>
    obtain ⟨q, x⟩ := e
    simp only [OMap.set, List.map_cons]
    split
    · rfl
    · split
      · rfl
      · rw [List.map_cons, ih]

theorem clear_newObj (m : Mem) (i : Nat) : clearObs (newObj m i) = newObj (clearObs m) i := by
  unfold clearObs newObj
  dsimp only
  rw [map_set Obj.bare]
  rfl

theorem clear_merge (n : Nat) (m : Mem) : clearObs (mergeObjects n m) = init3DObjects n { clearObs m with objs := [] } := by
  unfold mergeObjects init3DObjects
  have : ∀ (is : List Nat) (m : Mem), clearObs (is.foldl newObj m) = is.foldl newObj (clearObs m) := by
    intro is
    induction is with
    | nil => intro m; rfl
    | cons i is ih => intro m; rw [List.foldl_cons, ih, clear_newObj, List.foldl_cons]
  rw [this]
  rfl

theorem mergeObs_ok {m : Mem} (h : Inv m) (sc : Scene) (sees : Nat → Nat × Nat → Bool) (n : Nat) :
    ∃ m', mergeAllObjectObs sc sees (mergeObjects n m) = .ok m' ∧ Inv m' := by
  unfold mergeAllObjectObs
  rw [clear_merge]
  dsimp only
  refine foldlM_total Inv ?_ (newObjs_ok _ (cleared_ok h) rfl).1
  intro s _ _ hs
  obtain ⟨t, h1, h2, _⟩ := initAllObs_ok hs sc sees
  exact ⟨t, h1, h2⟩

theorem clearG_ok {m : Mem} (h : Inv m) : Inv (clearGObs m) := by
  refine { h with gobsGrp := ?_, gobsObs := ?_, frGrp := ?_, gobsAddr := ?_, sGobs := ?_, sFrG := ?_, lGobs := ?_ }
  · intro i f g hg; cases hg
  · intro k g hg; cases hg
  · intro f as hf a ha
    have hf' : OMap.get? (m.frGrp.map fun e => (e.1, ([] : List Nat)) : OMap Nat (List Nat)) f = some as := hf
    rw [mapVal (fun _ => ([] : List Nat))] at hf'
    obtain ⟨_, _, e⟩ := Option.map_eq_some_iff.1 hf'
    rw [← e] at ha
    cases ha
  · intro i j x y hx; cases hx
  · exact List.Pairwise.nil
  · exact sortedVal (fun _ => ([] : List Nat)) _ h.sFrG
  · intro i x hx; cases hx

theorem regroup_ok {m : Mem} (h : Inv m) (sc : Scene) (hnd : sc.frames.Nodup) (member : Nat → Nat → Bool) :
    ∃ m', mergeAllCameraGroupObs sc member m = .ok m' ∧ Inv m' :=
  initGroupObs_ok sc hnd member (clearG_ok h) rfl

theorem mergeGroups_ok {m : Mem} (h : Inv m) (sc : Scene) (hnd : sc.frames.Nodup) (c : Choices) :
    ∃ m', mergeGroups sc c m = .ok m' ∧ Inv m' := by
  unfold mergeGroups mergeAllCameraGroupObs
  have : ∀ (is : List Nat) (m : Mem), clearGObs (is.foldl newGrp m) = is.foldl newGrp (clearGObs m) := by
    intro is
    induction is with
    | nil => intro m; rfl
    | cons i is ih => intro m; rw [List.foldl_cons, ih, List.foldl_cons]; rfl
  unfold mergeCameraGroup initCameraGroup
  rw [this]
  have h0 : Inv (clearGObs { m with grps := [] }) := by
    have := clearG_ok h
    refine { this with grpObs := ?_, gobsGrp := ?_, grpAddr := ?_, sGrps := ?_, lGrp := ?_ }
    · intro i x hx; cases hx
    · intro i f g hg; cases hg
    · intro i j x y hx; cases hx
    · exact List.Pairwise.nil
    · intro i x hx; cases hx
  obtain ⟨h1, h2⟩ := newGrps_ok (List.range c.nGrp) h0 rfl
  exact initGroupObs_ok sc hnd c.member h1 h2

end Verif.Lemmas.Lifetime
