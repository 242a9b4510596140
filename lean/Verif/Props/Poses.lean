import Verif.Spec.Poses
import Verif.Props.Rigid

/-!
C91: the pose accessors of objects, camera groups and observations, for every sequence of calls.
-/
namespace Verif.Props.Poses
open Verif Verif.Rigid Verif.Poses Verif.Spec.Poses Verif.Lemmas.Rigid

variable {K : Type} [Field K] (ro : Rodrigues K)

theorem split_six (r T : Vec3 K) : split (six r T) = (r, T) := by
  have h : ∀ v : Vec3 K, ![v 0, v 1, v 2] = v := by
    intro v; ext i; fin_cases i <;> rfl
  simp [split, six, h]

/-- The table holds, for every id, the last pose written for it by the calls. -/
structure Holds (cs : List (Call K)) (t : Table K) : Prop where
  sorted : OMap.Sorted t
  keys : ∀ id, id ∈ OMap.keys t ↔ ∃ c ∈ cs, about c = id
  pose : ∀ id, split ((OMap.get? t id).getD (six 0 0)) = lastPose ro id cs

theorem Holds.nil : Holds ro [] ([] : Table K) where
  sorted := List.Pairwise.nil
  keys id := by simp [OMap.keys]
  pose id := by simp [OMap.get?, lastPose, split_six]

theorem lastPose_concat (id : Nat) (cs : List (Call K)) (c : Call K) :
    lastPose ro id (cs ++ [c]) = ((wrote ro id c).getD (lastPose ro id cs)) := by
  unfold lastPose
  rw [List.filterMap_append]
  cases h : wrote ro id c with
  | none => simp [List.filterMap_cons, h]
  | some v => simp [List.filterMap_cons, h]

theorem holds_set {cs : List (Call K)} {t : Table K} (h : Holds ro cs t) (c : Call K) (r T : Vec3 K)
    (hc : ∀ q, wrote ro q c = if about c = q then some (r, T) else none) :
    Holds ro (cs ++ [c]) (OMap.set t (about c) (six r T)) where
  sorted := OMap.sorted_set _ _ _ h.sorted
  keys id := by
    rw [OMap.mem_keys_set h.sorted, h.keys]
    constructor
    · rintro (rfl | ⟨c', hc', e⟩)
      · exact ⟨c, by simp, rfl⟩
      · exact ⟨c', by simp [hc'], e⟩
    · rintro ⟨c', hc', e⟩
      rcases List.mem_append.1 hc' with h1 | h1
      · exact Or.inr ⟨c', h1, e⟩
      · rw [List.mem_singleton] at h1; subst h1; exact Or.inl e.symm
  pose id := by
    rw [lastPose_concat, hc, OMap.get?_set _ _ _ _ h.sorted]
    by_cases e : about c = id
    · simp [e, split_six]
    · have e' : ¬ id = about c := fun x => e x.symm
      simp [e, e', h.pose id]

theorem holds_get {cs : List (Call K)} {t : Table K} (h : Holds ro cs t) (c : Call K)
    (hc : ∀ q, wrote ro q c = none) :
    Holds ro (cs ++ [c]) (index t (about c)).1 := by
  have hl : ∀ id, lastPose ro id (cs ++ [c]) = lastPose ro id cs := by
    intro id; rw [lastPose_concat, hc]; rfl
  cases hg : OMap.get? t (about c) with
  | some v =>
    have e : (index t (about c)).1 = t := by simp [index, hg]
    rw [e]
    refine ⟨h.sorted, fun id => ?_, fun id => by rw [hl]; exact h.pose id⟩
    rw [h.keys]
    constructor
    · rintro ⟨c', h1, e⟩; exact ⟨c', by simp [h1], e⟩
    · rintro ⟨c', h1, e'⟩
      rcases List.mem_append.1 h1 with h2 | h2
      · exact ⟨c', h2, e'⟩
      · rw [List.mem_singleton] at h2; subst h2
        rw [← h.keys, ← e']
        exact OMap.mem_keys.2 ⟨v, hg⟩
  | none =>
    have e : (index t (about c)).1 = OMap.set t (about c) (six 0 0) := by simp [index, hg]
    rw [e]
    refine ⟨OMap.sorted_set _ _ _ h.sorted, fun id => ?_, fun id => ?_⟩
    · rw [OMap.mem_keys_set h.sorted, h.keys]
      constructor
      · rintro (rfl | ⟨c', hc', e⟩)
        · exact ⟨c, by simp, rfl⟩
        · exact ⟨c', by simp [hc'], e⟩
      · rintro ⟨c', hc', e'⟩
        rcases List.mem_append.1 hc' with h1 | h1
        · exact Or.inr ⟨c', h1, e'⟩
        · rw [List.mem_singleton] at h1; subst h1; exact Or.inl e'.symm
    · rw [hl, OMap.get?_set _ _ _ _ h.sorted, ← h.pose id]
      by_cases e : id = about c
      · subst e; simp [hg]
      · simp [e]

theorem index_pose {cs : List (Call K)} {t : Table K} (h : Holds ro cs t) (id : Nat) :
    split (index t id).2 = lastPose ro id cs := by
  rw [← h.pose id]
  cases hg : OMap.get? t id <;> simp [index, hg]

theorem call_holds {cs : List (Call K)} {t : Table K} (h : Holds ro cs t) (c : Call K) :
    Holds ro (cs ++ [c]) (call ro t c).1 ∧
      (call ro t c).2 = expected ro (fun id => lastPose ro id cs) c := by
  cases c with
  | setVec id r T => exact ⟨holds_set ro h (.setVec id r T) r T fun q => rfl, rfl⟩
  | setMat id M => exact ⟨holds_set ro h (.setMat id M) _ _ fun q => rfl, rfl⟩
  | getVec id =>
    refine ⟨holds_get ro h (.getVec id) fun q => rfl, ?_⟩
    simp only [call, getVec, expected, index_pose ro h]
  | getMat id =>
    refine ⟨holds_get ro h (.getMat id) fun q => rfl, ?_⟩
    simp only [call, getMat, getVec, expected, index_pose ro h, RVecT2Proj]
  | getRot id =>
    refine ⟨holds_get ro h (.getRot id) fun q => rfl, ?_⟩
    simp only [call, getRot, getVec, expected, index_pose ro h]
  | getTrans id =>
    refine ⟨holds_get ro h (.getTrans id) fun q => rfl, ?_⟩
    simp only [call, getTrans, getVec, expected, index_pose ro h]

theorem calls_holds (cs : List (Call K)) : ∀ (pre : List (Call K)) (t : Table K), Holds ro pre t →
    Holds ro (pre ++ cs) (calls ro t cs).1 ∧
    ∀ i : Nat, (calls ro t cs).2[i]? =
      cs[i]?.map (expected ro fun id => lastPose ro id (pre ++ cs.take i)) := by
  induction cs with
  | nil => intro pre t h; exact ⟨by simpa [calls] using h, fun i => by simp [calls]⟩
  | cons c cs ih =>
    intro pre t h
    have h1 := call_holds ro h c
    have h2 := ih _ _ h1.1
    refine ⟨by simpa [calls] using h2.1, fun i => ?_⟩
    cases i with
    | zero => simp [calls, h1.2]
    | succ i =>
      have := h2.2 i
      simp only [calls, List.getElem?_cons_succ, List.take_succ_cons]
      rw [this]
      simp

/-- C91: in every sequence of calls on an object, a camera group or a group observation, each read of the
pose of an id answers with the last pose written for that id before it (by vectors or by a matrix), and
with no rotation and no translation when none was written: writing one id changes no other, and reading
changes no answer. -/
theorem C91_reads (cs : List (Call K)) (i : Nat) :
    (calls ro [] cs).2[i]? = cs[i]?.map (expected ro fun id => lastPose ro id (cs.take i)) :=
  (calls_holds ro cs [] [] (Holds.nil ro)).2 i

/-- C91: as many answers as calls. -/
theorem C91_answers (cs : List (Call K)) : (calls ro [] cs).2.length = cs.length := by
  suffices h : ∀ (t : Table K), (calls ro t cs).2.length = cs.length from h _
  induction cs with
  | nil => intro t; rfl
  | cons c cs ih => intro t; simp [calls, ih]

/-- C91: afterwards the ids with an entry are exactly those some call was about: reading the pose of an id
that was never set creates an entry for it. -/
theorem C91_entries (cs : List (Call K)) (id : Nat) :
    (∃ v, OMap.get? (calls ro [] cs).1 id = some v) ↔ ∃ c ∈ cs, about c = id := by
  rw [← OMap.mem_keys]
  exact (calls_holds ro cs [] [] (Holds.nil ro)).1.keys id

/-- C91: a rigid matrix set for an id is the matrix read for that id, whatever calls come between as long
as none sets that id. -/
theorem C91_matrix (hro : ro.Sound) (pre between : List (Call K)) (id : Nat) (M : Mat4 K)
    (hM : IsRigid M) (hb : ∀ c ∈ between, about c = id →
      (∀ r T, c ≠ .setVec id r T) ∧ ∀ M', c ≠ .setMat id M') :
    (calls ro [] (pre ++ .setMat id M :: between ++ [.getMat id])).2.getLast? = some (.mat M) := by
  have hw : between.filterMap (wrote ro id) = [] := by
    rw [List.filterMap_eq_nil_iff]
    intro c hc
    cases c with
    | setVec i r T =>
      by_cases e : i = id
      · subst e; exact absurd rfl ((hb _ hc rfl).1 r T)
      · simp [wrote, e]
    | setMat i M' =>
      by_cases e : i = id
      · subst e; exact absurd rfl ((hb _ hc rfl).2 M')
      · simp [wrote, e]
    | _ => rfl
  have hl : lastPose ro id (pre ++ .setMat id M :: between) =
      (ro.toVec (projRot M), projTrans M) := by
    unfold lastPose
    rw [List.filterMap_append, List.filterMap_cons]
    simp [wrote, hw]
  rw [List.getLast?_eq_getElem?, C91_answers, C91_reads]
  have e : (pre ++ Call.setMat id M :: between ++ [Call.getMat id]).length - 1 =
      (pre ++ Call.setMat id M :: between).length := by simp
  rw [e, List.getElem?_append_right (Nat.le_refl _), Nat.sub_self, List.take_left']
  · simp only [List.getElem?_cons_zero, Option.map_some, expected, hl]
    rw [hro.back _ hM.rot, hM.rebuild]
  · rfl

/-- C91: over the reals, with Rodrigues' formula, the pose of an id that was never set reads as the
identity matrix. -/
theorem C91_never_set (cs : List (Call ℝ)) (id : Nat)
    (h : ∀ c ∈ cs, about c = id → (∀ r T, c ≠ .setVec id r T) ∧ ∀ M', c ≠ .setMat id M') :
    (calls Lemmas.Rodrigues.rod [] (cs ++ [.getMat id])).2.getLast? = some (.mat 1) := by
  have hw : cs.filterMap (wrote Lemmas.Rodrigues.rod id) = [] := by
    rw [List.filterMap_eq_nil_iff]
    intro c hc
    cases c with
    | setVec i r T =>
      by_cases e : i = id
      · subst e; exact absurd rfl ((h _ hc rfl).1 r T)
      · simp [wrote, e]
    | setMat i M' =>
      by_cases e : i = id
      · subst e; exact absurd rfl ((h _ hc rfl).2 M')
      · simp [wrote, e]
    | _ => rfl
  have h0 : Lemmas.Rodrigues.rod.toMat (0 : Vec3 ℝ) = 1 := by
    show Lemmas.Rodrigues.rodMat 0 = 1
    simp [Lemmas.Rodrigues.rodMat, Lemmas.Rodrigues.angle]
  rw [List.getLast?_eq_getElem?, C91_answers, C91_reads]
  have e : (cs ++ [Call.getMat (K := ℝ) id]).length - 1 = cs.length := by simp
  rw [e, List.getElem?_append_right (Nat.le_refl _), Nat.sub_self, List.take_left' rfl]
  simp only [List.getElem?_cons_zero, Option.map_some, expected, lastPose, hw]
  simp only [List.getLast?_nil, Option.getD_none, h0]
  congr 2
  ext i j
  fin_cases i <;> fin_cases j <;> simp [RT2Proj]

/-! ### Observations: a pose in the camera and a pose in the group -/

/-- The pose a write gives in the camera. -/
def inCamera (ro : Rodrigues K) : Write K → Option (Vec3 K × Vec3 K)
  | .poseVec r T => some (r, T)
  | .poseMat M => some (ro.toVec (projRot M), projTrans M)
  | _ => none

/-- The pose a write gives in the group. -/
def inGroup (ro : Rodrigues K) : Write K → Option (Vec3 K × Vec3 K)
  | .groupVec r T => some (r, T)
  | .groupMat M => some (ro.toVec (projRot M), projTrans M)
  | _ => none

theorem readVec_write (o : TwoPoses K) (w : Write K) :
    readVec (write ro o w).pose = (match inCamera ro w with | some p => .ok p | none => readVec o.pose) ∧
    readVec (write ro o w).group = (match inGroup ro w with | some p => .ok p | none => readVec o.group) := by
  cases w <;> simp [write, inCamera, inGroup, writeVec, writeMat, readVec, split_six, Proj2RT]

/-- C91: after any sequence of writes on an observation, its pose in the camera reads as the last one
written in the camera and its pose in the group as the last one written in the group; a pose that was
never written cannot be read (its numbers are indeterminate). -/
theorem C91_observation (ws : List (Write K)) :
    (let o := ws.foldl (write ro) ⟨none, none⟩
     readVec o.pose = (match (ws.filterMap (inCamera ro)).getLast? with | some p => .ok p | none => .ub) ∧
     readVec o.group = (match (ws.filterMap (inGroup ro)).getLast? with | some p => .ok p | none => .ub)) := by
  induction ws using List.reverseRecOn with
  | nil => exact ⟨rfl, rfl⟩
  | append_singleton ws w ih =>
    simp only [List.foldl_append, List.foldl_cons, List.foldl_nil, List.filterMap_append] at ih ⊢
    obtain ⟨h1, h2⟩ := readVec_write ro (ws.foldl (write ro) ⟨none, none⟩) w
    refine ⟨?_, ?_⟩
    · rw [h1]
      cases e : inCamera ro w with
      | some p => simp [List.filterMap_cons, e]
      | none => simpa [List.filterMap_cons, e] using ih.1
    · rw [h2]
      cases e : inGroup ro w with
      | some p => simp [List.filterMap_cons, e]
      | none => simpa [List.filterMap_cons, e] using ih.2

/-- C91: the three readings of a written pose agree: the rotation, the translation, and the matrix built
from them, which for a rigid matrix written is that matrix. -/
theorem C91_observation_reads (f : Field1 K) (r T : Vec3 K) :
    readVec (writeVec f r T) = .ok (r, T) ∧ readRot (writeVec f r T) = .ok r ∧
    readTrans (writeVec f r T) = .ok T ∧ readMat ro (writeVec f r T) = .ok (RT2Proj (ro.toMat r) T) ∧
    (ro.Sound → ∀ M, IsRigid M → readMat ro (writeMat ro f M) = .ok M) := by
  refine ⟨?_, ?_, ?_, ?_, fun hro M hM => ?_⟩
  · simp [readVec, writeVec, split_six]
  · simp [readRot, readVec, writeVec, split_six, Outcome.bind]
  · simp [readTrans, readVec, writeVec, split_six, Outcome.bind]
  · simp [readMat, readVec, writeVec, split_six, Outcome.bind, RVecT2Proj]
  · simp only [readMat, readVec, writeMat, split_six, Outcome.bind, RVecT2Proj, Proj2RT]
    rw [hro.back _ hM.rot, hM.rebuild]

/-! ### Handing the poses of a group to its observations -/

/-- The pose of an id in a table. -/
def poseOf (t : Table K) (id : Nat) : Vec3 K × Vec3 K := split ((OMap.get? t id).getD (six 0 0))

/-- The observation after the update: the pose in the group is that of its object. -/
def updated (t : Table K) (o : Option (Nat × TwoPoses K)) : Option (Nat × TwoPoses K) :=
  o.map fun p => (p.1, { pose := p.2.pose, group := some (six (poseOf t p.1).1 (poseOf t p.1).2) })

theorem index_spec (t : Table K) (hs : OMap.Sorted t) (id : Nat) :
    split (index t id).2 = poseOf t id ∧ OMap.Sorted (index t id).1 ∧
      ∀ q, poseOf (index t id).1 q = poseOf t q := by
  cases hg : OMap.get? t id with
  | some v => refine ⟨?_, ?_, fun q => ?_⟩ <;> simp [index, hg, poseOf, hs]
  | none =>
    refine ⟨by simp [index, hg, poseOf], by simpa [index, hg] using OMap.sorted_set _ _ _ hs, fun q => ?_⟩
    simp only [index, hg, poseOf, OMap.get?_set _ _ _ _ hs]
    by_cases e : q = id
    · subst e; simp [hg]
    · simp [e]

theorem update_fold (obs : List (Option (Nat × TwoPoses K))) : ∀ (t : Table K) (done),
    OMap.Sorted t →
    (obs.foldl updateStep (t, done)).2 = done ++ obs.map (updated t) ∧
    ∀ q, poseOf (obs.foldl updateStep (t, done)).1 q = poseOf t q := by
  induction obs with
  | nil => intro t done _; simp
  | cons o obs ih =>
    intro t done hs
    cases o with
    | none =>
      obtain ⟨h1, h2⟩ := ih t (done ++ [none]) hs
      refine ⟨?_, ?_⟩
      · simp only [List.foldl_cons, updateStep, h1]
        simp [updated]
      · simpa only [List.foldl_cons, updateStep] using h2
    | some p =>
      obtain ⟨id, p⟩ := p
      obtain ⟨a1, a2, a3⟩ := index_spec t hs id
      obtain ⟨b1, b2, b3⟩ := index_spec (index t id).1 a2 id
      have hu : updateStep (t, done) (some (id, p)) =
          ((index (index t id).1 id).1, done ++ [updated t (some (id, p))]) := by
        simp only [updateStep, getTrans, getRot, getVec, a1, b1, a3, writeVec, updated, Option.map_some]
      obtain ⟨h1, h2⟩ := ih (index (index t id).1 id).1 (done ++ [updated t (some (id, p))]) b2
      have hup : ∀ o, updated (index (index t id).1 id).1 o = updated t o := by
        intro o
        cases o with
        | none => rfl
        | some q => simp only [updated, Option.map_some, b3, a3]
      refine ⟨?_, fun q => ?_⟩
      · rw [List.foldl_cons, hu, h1]
        simp [hup]
      · rw [List.foldl_cons, hu, h2, b3, a3]

/-- C91: handing the poses of a group observation to its object observations gives every living
observation, as pose in the group, the stored pose of its own object, and leaves its pose in the camera,
the expired observations and the stored poses as they were. -/
theorem C91_hand_over (t : Table K) (hs : OMap.Sorted t) (obs : List (Option (Nat × TwoPoses K))) :
    (updateObjObsPose t obs).2.length = obs.length ∧
    (∀ i : Nat, obs[i]? = some none → (updateObjObsPose t obs).2[i]? = some none) ∧
    (∀ (i : Nat) id p, obs[i]? = some (some (id, p)) →
      ∃ p', (updateObjObsPose t obs).2[i]? = some (some (id, p')) ∧ p'.pose = p.pose ∧
        readVec p'.group = .ok (poseOf t id)) ∧
    ∀ q, poseOf (updateObjObsPose t obs).1 q = poseOf t q := by
  obtain ⟨h1, h2⟩ := update_fold obs t [] hs
  unfold updateObjObsPose
  rw [h1]
  refine ⟨by simp, ?_, ?_, h2⟩
  · intro i hi; simp [hi, updated]
  · intro i id p hi
    refine ⟨{ pose := p.pose, group := some (six (poseOf t id).1 (poseOf t id).2) }, ?_, rfl, ?_⟩
    · simp [hi, updated]
    · simp [readVec, split_six]

/-! ### Six floats -/

/-- C91: a rigid matrix written as six floats and read again is the rigid matrix of the six rounded
numbers; when the six numbers are exact in float it is the same matrix. -/
theorem C91_floats {F : Type} (hro : ro.Sound) (toFloat : K → F) (toDouble : F → K) (M : Mat4 K)
    (hM : IsRigid M) :
    ∃ N, vectorProj ro toDouble (projToVec ro toFloat M).toList = .ok N ∧ IsRigid N ∧
      (∀ i : Fin 3, N (Fin.castSucc i) 3 = toDouble (toFloat (M (Fin.castSucc i) 3))) ∧
      ((∀ i, toDouble (toFloat (ro.toVec (projRot M) i)) = ro.toVec (projRot M) i) →
        (∀ i, toDouble (toFloat (projTrans M i)) = projTrans M i) → N = M) := by
  refine ⟨_, rfl, ⟨_, _, hro.rot _, rfl⟩, fun i => by fin_cases i <;> rfl, fun h1 h2 => ?_⟩
  have h3 : ∀ v : Vec3 K, ![v 0, v 1, v 2] = v := by
    intro v; ext i; fin_cases i <;> rfl
  simp only [h1, h2, h3, RVecT2Proj]
  rw [hro.back _ hM.rot, hM.rebuild]

/-- C91: fewer than six numbers are read beyond their end. -/
theorem C91_floats_short {F : Type} (toDouble : F → K) (v : List F) (h : v.length < 6) :
    vectorProj ro toDouble v = .ub := by
  unfold vectorProj
  have : v[5]? = none := by simp; omega
  rw [this]
  split <;> simp_all

/-! ### Examples -/

/-- Two boards set, one read that was never set: the answers and the entries. -/
example : let cs : List (Call ℚ) :=
    [.setVec 2 ![1, 0, 0] ![5, 6, 7], .setVec 0 ![0, 1, 0] ![1, 2, 3], .getVec 7, .setVec 2 ![0, 0, 1] ![8, 8, 8],
      .getTrans 2, .getRot 0]
    (∀ ro : Rodrigues ℚ, (calls ro [] cs).2 =
      [.none, .none, .vecs 0 0, .none, .vec ![8, 8, 8], .vec ![0, 1, 0]]) := by
  intro cs ro
  apply List.ext_getElem?
  intro i
  rw [C91_reads]
  rcases i with _ | _ | _ | _ | _ | _ | i
  · rfl
  · rfl
  · rfl
  · rfl
  · rfl
  · rfl
  · simp [cs]

/-- The hypotheses of `C91_matrix` are met by a quarter turn with a translation, over the reals. -/
example : (calls Lemmas.Rodrigues.rod [] [.getMat 3, .setMat 3 (RT2Proj !![0, -1, 0; 1, 0, 0; 0, 0, 1] ![1, 2, 3]),
      .setMat 4 1, .getTrans 3, .getMat 3]).2.getLast? =
    some (.mat (RT2Proj !![0, -1, 0; 1, 0, 0; 0, 0, 1] ![1, 2, 3])) :=
  C91_matrix _ Lemmas.Rodrigues.rod_sound [.getMat 3] [.setMat 4 1, .getTrans 3] 3 _
    ⟨_, _, ⟨by ext i j; fin_cases i <;> fin_cases j <;> simp [Matrix.mul_apply, Fin.sum_univ_succ],
      by simp [Matrix.det_fin_three]⟩, rfl⟩
    (by simp [about])

end Verif.Props.Poses
