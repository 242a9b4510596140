import Verif.Spec.Report
import Verif.Lemmas.Collect
import Verif.Lemmas.ObjectsMerge
import Verif.Props.Store
import Verif.Lemmas.RigidGroup
import Mathlib.Data.List.Forall2
import Mathlib.Tactic.Linarith
import Mathlib.Tactic.FieldSimp

/-!
C40: the file of reprojection errors.  C41: the average reprojection error.
-/
namespace Verif.Props.Report
open Verif Verif.Output Verif.Objects Verif.Groups Verif.Spec.Report

variable {V G Pt : Type} [Group G] [SMul G Pt] {sc : Output.Scene V G Pt} {frames : List Nat}
  {r : Reading G Pt}

theorem positions_map {α : Type} (p : α → Bool) (l : List α) :
    (Spec.Store.positions p l).map (fun i => l[i]?) = (l.filter p).map some := by
  have h : ∀ n, n ≤ l.length → ((List.range n).filter fun i => (l[i]?).any p).map (fun i => l[i]?) =
      ((l.take n).filter p).map some := by
    intro n
    induction n with
    | zero => intro _; rfl
    | succ n ih =>
      intro hn
      rw [List.range_succ, List.filter_append, List.map_append, ih (by omega), List.take_add_one,
        List.filter_append, List.map_append]
      congr 1
      rw [List.getElem?_eq_getElem (by omega)]
      by_cases hp : p l[n] = true
      · simp [List.getElem?_eq_getElem (show n < l.length by omega), hp]
      · simp [List.getElem?_eq_getElem (show n < l.length by omega), hp]
  have := h l.length le_rfl
  rw [List.take_length] at this
  exact this

private theorem filterMap_range {α β : Type} (f : Nat → α → β) (l : List α) :
    (List.range l.length).filterMap (fun k => (l[k]?).map (f k)) = l.zipIdx.map fun e => f e.2 e.1 := by
  have h : ∀ n, n ≤ l.length → (List.range n).filterMap (fun k => (l[k]?).map (f k)) =
      (l.take n).zipIdx.map fun e => f e.2 e.1 := by
    intro n
    induction n with
    | zero => intro _; simp
    | succ n ih =>
      intro hn
      rw [List.range_succ, List.filterMap_append, ih (by omega), List.take_add_one,
        List.getElem?_eq_getElem (by omega), List.zipIdx_append, List.map_append]
      simp [List.getElem?_eq_getElem (show n < l.length by omega), Nat.min_eq_left (show n ≤ l.length by omega)]
  have := h l.length le_rfl
  rwa [List.take_length] at this

/-! ### One observation -/

theorem points_ok {obj : Object G Pt} {f : Nat → Pt} {ids : List Nat}
    (h : ∀ k ∈ ids, obj.pts[k]? = some (f k)) :
    Outcome.foldlM (pointStep obj) [] ids = .ok (ids.map f) := by
  rw [Lemmas.Collect.foldlM_append_ok (v := f)]
  · rfl
  · intro acc k hk
    unfold pointStep
    rw [Outcome.idx_of_getElem? (h k hk)]
    rfl

private theorem distances_ok (seen repro : List (ℝ × ℝ)) (h : seen.length = repro.length) :
    computeDistanceBetweenPoints seen repro = .ok (List.zipWith distance seen repro) := by
  unfold computeDistanceBetweenPoints
  rw [Lemmas.Collect.foldlM_append_ok
    (v := fun i => distance ((seen[i]?).getD (0, 0)) ((repro[i]?).getD (0, 0)))]
  · simp only [List.nil_append, Outcome.ok.injEq]
    apply List.ext_getElem?
    intro i
    by_cases hi : i < repro.length
    · have hi' : i < seen.length := by omega
      simp [List.getElem?_zipWith, List.getElem?_eq_getElem hi, List.getElem?_eq_getElem hi',
        List.getElem?_range hi]
    · have hi' : ¬ i < seen.length := by omega
      rw [List.getElem?_eq_none (by simpa using Nat.le_of_not_lt hi), List.getElem?_eq_none (by
        simp; omega)]
  · intro acc i hi
    rw [List.mem_range] at hi
    have hi' : i < seen.length := by omega
    unfold distanceStep
    rw [Outcome.idx_of_getElem? (List.getElem?_eq_getElem hi'),
      Outcome.bind_ok, Outcome.idx_of_getElem? (List.getElem?_eq_getElem hi), Outcome.bind_ok]
    simp [List.getElem?_eq_getElem hi, List.getElem?_eq_getElem hi']

theorem obsErrors_ok (h : Holds sc frames r) {i : Nat} {o : ObjObs (ℝ × ℝ)} (ho : sc.oo[i]? = some o)
    {gi : Nat} {g : CamGroup G} (hg : OMap.get? sc.t.groups gi = some g) (hc : o.cam ∈ OMap.keys g.cameras) :
    obsErrors sc g o.frame i = .ok (o.cam, errors r o) := by
  have hmem := List.mem_of_getElem? ho
  obtain ⟨g', hg', hc'⟩ := h.group o hmem
  have hgi : r.group o.cam = gi := h.groups.disjoint _ _ g' g hg' hg o.cam hc' hc
  obtain ⟨obj, h1, h2⟩ := h.pts o hmem
  obtain ⟨m, v, h3, h4, h5⟩ := h.objPose o hmem
  have hid := h.groups.id gi g hg
  have hproj : ∀ ps : List Pt, ps ≠ [] → project sc o.cam (r.camPose o.cam) ps =
      .ok (ps.map fun p => r.pix o.cam (r.camPose o.cam • p)) := by
    intro ps hps
    unfold project
    rcases h.model o hmem with hm | hm
    · rw [if_pos hm]; exact h.brown _ _ _ hps
    · rw [if_neg (by omega), if_pos hm]; exact h.kannala _ _ _ hps
  unfold obsErrors
  rw [Outcome.idx_of_getElem? ho, Outcome.bind_ok, h1, Outcome.deref_some, Outcome.bind_ok,
    points_ok h2, Outcome.bind_ok, h.camPose gi g o.cam hg hc, hid, ← hgi, h3]
  simp only [Option.bind_some, h4, Option.map_some, Option.getD_some, h5]
  rw [hproj _ (by simpa using h.nonempty o hmem), Outcome.bind_ok, distances_ok _ _ (by
    simpa using h.aligned o hmem), Outcome.bind_ok]
  simp only [Outcome.pure_eq, Outcome.ok.injEq, Prod.mk.injEq, true_and]
  unfold errors distance
  rw [List.map_map, List.map_map, List.zipWith_map_right, ← List.map_uncurry_zip_eq_zipWith]
  rfl

/-! ### Which observations are reported -/

theorem reported_eq (h : Holds sc frames r) {gi : Nat} {g : CamGroup G}
    (hg : OMap.get? sc.t.groups gi = some g) (f : Nat) :
    reported sc g f = (OMap.get? sc.t.groupObs (gi, f)).getD [] := by
  have hid := h.groups.id gi g hg
  unfold reported
  rw [h.frameGroups, hid, List.filter_filter]
  have : (OMap.keys sc.t.groups).filter (fun i => decide (i = gi) && (OMap.get? sc.t.groupObs (i, f)).isSome) =
      if (OMap.get? sc.t.groupObs (gi, f)).isSome then [gi] else [] := by
    have hmem : gi ∈ OMap.keys sc.t.groups := OMap.mem_keys.2 ⟨g, hg⟩
    have hnd := OMap.keys_nodup h.groups.sorted
    generalize OMap.keys sc.t.groups = l at hmem hnd
    induction l with
    | nil => simp at hmem
    | cons a l ih =>
      rw [List.nodup_cons] at hnd
      rw [List.filter_cons]
      by_cases ha : a = gi
      · subst ha
        have hno : l.filter (fun i => decide (i = a) && (OMap.get? sc.t.groupObs (i, f)).isSome) = [] := by
          rw [List.filter_eq_nil_iff]
          intro x hx hxa
          simp only [Bool.and_eq_true, decide_eq_true_eq] at hxa
          exact hnd.1 (hxa.1 ▸ hx)
        rw [hno]
        simp
      · rw [if_neg (by simp [ha])]
        exact ih (by rcases List.mem_cons.1 hmem with h | h; exact absurd h.symm ha; exact h) hnd.2
  rw [this]
  cases hx : OMap.get? sc.t.groupObs (gi, f) with
  | none => simp
  | some is => simp [hx]

theorem mem_reported (h : Holds sc frames r) {gi : Nat} {g : CamGroup G}
    (hg : OMap.get? sc.t.groups gi = some g) (f i : Nat) :
    i ∈ reported sc g f ↔ ∃ o, sc.oo[i]? = some o ∧ o.frame = f ∧ o.cam ∈ OMap.keys g.cameras := by
  rw [reported_eq h hg]
  constructor
  · intro hi
    cases hx : OMap.get? sc.t.groupObs (gi, f) with
    | none => rw [hx] at hi; simp at hi
    | some is =>
      rw [hx] at hi
      obtain ⟨g', hg', _, _, rfl⟩ := (h.groupObs.obs gi f is).1 hx
      rw [hg] at hg'
      simp only [Option.some.injEq] at hg'
      subst hg'
      obtain ⟨o, ho, hp⟩ := (Props.Store.positions_get _ _ _).1 hi
      simp only [Bool.and_eq_true, beq_iff_eq, decide_eq_true_eq] at hp
      exact ⟨o, ho, hp⟩
  · rintro ⟨o, ho, hf, hc⟩
    have hi : i ∈ Spec.Store.positions
        (fun o : ObjObs (ℝ × ℝ) => o.frame == f && decide (o.cam ∈ OMap.keys g.cameras)) sc.oo :=
      (Props.Store.positions_get _ _ _).2 ⟨o, ho, by simp [hf, hc]⟩
    have := (h.groupObs.obs gi f _).2 ⟨g, hg, hf ▸ h.frame o (List.mem_of_getElem? ho),
      List.ne_nil_of_mem hi, rfl⟩
    rw [this]
    exact hi

theorem nodup_reported (h : Holds sc frames r) {gi : Nat} {g : CamGroup G}
    (hg : OMap.get? sc.t.groups gi = some g) (f : Nat) : (reported sc g f).Nodup := by
  rw [reported_eq h hg]
  cases hx : OMap.get? sc.t.groupObs (gi, f) with
  | none => simp
  | some is =>
    obtain ⟨g', hg', _, _, rfl⟩ := (h.groupObs.obs gi f is).1 hx
    exact List.Nodup.filter _ List.nodup_range

/-- All reported observations, in order. -/
private def allReported (sc : Output.Scene V G Pt) : List ((CamGroup G × Nat) × Nat) :=
  sc.t.groups.flatMap fun e => e.2.frames.flatMap fun f => (reported sc e.2 f.1).map fun i => ((e.2, f.1), i)

private theorem mem_groups (h : Holds sc frames r) {e : Nat × CamGroup G} (he : e ∈ sc.t.groups) :
    OMap.get? sc.t.groups e.1 = some e.2 := (OMap.get?_eq_some h.groups.sorted).2 he

private theorem mem_frames (h : Holds sc frames r) {gi : Nat} {g : CamGroup G}
    (hg : OMap.get? sc.t.groups gi = some g) {i f : Nat} (hi : i ∈ reported sc g f) :
    f ∈ OMap.keys g.frames := by
  rw [reported_eq h hg] at hi
  cases hx : OMap.get? sc.t.groupObs (gi, f) with
  | none => rw [hx] at hi; simp at hi
  | some is => exact h.lists.frames gi g f is hg hx

private theorem all_perm (h : Holds sc frames r) :
    ((allReported sc).map (·.2)).Perm (List.range sc.oo.length) := by
  have hmap : (allReported sc).map (·.2) =
      sc.t.groups.flatMap fun e => (OMap.keys e.2.frames).flatMap fun f => reported sc e.2 f := by
    unfold allReported OMap.keys
    simp [List.map_flatMap, List.flatMap_map, Function.comp_def]
  rw [hmap]
  apply (List.perm_ext_iff_of_nodup ?_ List.nodup_range).2
  · intro i
    rw [List.mem_range, List.mem_flatMap]
    constructor
    · rintro ⟨e, he, hi⟩
      obtain ⟨f, _, hi⟩ := List.mem_flatMap.1 hi
      obtain ⟨o, ho, _⟩ := (mem_reported h (mem_groups h he) f i).1 hi
      exact (List.getElem?_eq_some_iff.1 ho).1
    · intro hi
      obtain ⟨g, hg, hc⟩ := h.group sc.oo[i] (List.getElem_mem hi)
      have hm := (mem_reported h hg sc.oo[i].frame i).2 ⟨sc.oo[i], List.getElem?_eq_getElem hi, rfl, hc⟩
      exact ⟨(r.group sc.oo[i].cam, g), (OMap.get?_eq_some h.groups.sorted).1 hg,
        List.mem_flatMap.2 ⟨_, mem_frames h hg hm, hm⟩⟩
  · rw [List.nodup_flatMap]
    refine ⟨?_, ?_⟩
    · intro e he
      have hg := mem_groups h he
      rw [List.nodup_flatMap]
      refine ⟨fun f _ => nodup_reported h hg f, ?_⟩
      refine (OMap.keys_nodup (h.lists.sorted e.1 e.2 hg)).imp ?_
      intro f f' hne i hi hi'
      obtain ⟨o, ho, hf, _⟩ := (mem_reported h hg f i).1 hi
      obtain ⟨o', ho', hf', _⟩ := (mem_reported h hg f' i).1 hi'
      rw [ho] at ho'
      simp only [Option.some.injEq] at ho'
      subst ho'
      exact hne (hf.symm.trans hf')
    · refine h.groups.sorted.imp_of_mem ?_
      intro e e' he he' hlt i hi hi'
      obtain ⟨f, _, hi⟩ := List.mem_flatMap.1 hi
      obtain ⟨f', _, hi'⟩ := List.mem_flatMap.1 hi'
      obtain ⟨o, ho, _, hc⟩ := (mem_reported h (mem_groups h he) f i).1 hi
      obtain ⟨o', ho', _, hc'⟩ := (mem_reported h (mem_groups h he') f' i).1 hi'
      rw [ho] at ho'
      simp only [Option.some.injEq] at ho'
      subst ho'
      exact OMap.lt_ne hlt (h.groups.disjoint _ _ _ _ (mem_groups h he) (mem_groups h he') o.cam hc hc')

/-! ### The average -/

private theorem mean_eq {l : List ℝ} (h : l ≠ []) : Output.mean l = Spec.Report.mean l := by
  unfold Output.mean Spec.Report.mean
  rw [if_neg (by simpa using h)]

private theorem errors_ne_nil (h : Holds sc frames r) {o : ObjObs (ℝ × ℝ)} (ho : o ∈ sc.oo) :
    errors r o ≠ [] := by
  have h1 := h.nonempty o ho
  have h2 := h.aligned o ho
  intro hnil
  have : (errors r o).length = o.ids.length := by unfold errors; simp [h2]
  rw [hnil] at this
  simp at this
  exact h1 (List.length_eq_zero_iff.1 this.symm)

/-- C41: the average is the mean, over all object observations, of the mean distance of their corners;
it is not a number if there is no observation. -/
theorem C41_value (h : Holds sc frames r) :
    computeAvgReprojectionError sc = .ok (if sc.oo = [] then none
      else some (Spec.Report.mean (sc.oo.map fun o => Spec.Report.mean (errors r o)))) := by
  have hfold : Outcome.foldlM (avgGroup sc) (0, 0) sc.t.groups =
      Outcome.foldlM (fun st (e : (CamGroup G × Nat) × Nat) => avgObs sc e.1.1 e.1.2 st e.2) (0, 0)
        (allReported sc) := by
    unfold allReported
    apply Verif.Lemmas.Objects.foldlM_flatMap
    intro st e _
    unfold avgGroup
    apply Verif.Lemmas.Objects.foldlM_flatMap
    intro st f _
    unfold avgFrame
    rw [Verif.Lemmas.Objects.foldlM_map']
  have hstep : ∀ st, ∀ e ∈ allReported sc, avgObs sc e.1.1 e.1.2 st e.2 =
      .ok (st.1 + ((sc.oo[e.2]?).map fun o => Spec.Report.mean (errors r o)).getD 0, st.2 + 1) := by
    intro st e he
    unfold allReported at he
    obtain ⟨e', he', h1⟩ := List.mem_flatMap.1 he
    obtain ⟨f, _, h2⟩ := List.mem_flatMap.1 h1
    obtain ⟨i, hi, rfl⟩ := List.mem_map.1 h2
    have hg := mem_groups h he'
    obtain ⟨o, ho, hf, hc⟩ := (mem_reported h hg f.1 i).1 hi
    have := obsErrors_ok h ho hg hc
    unfold avgObs
    simp only [← hf]
    rw [this, Outcome.bind_ok, ho]
    simp only [Option.map_some, Option.getD_some, mean_eq (errors_ne_nil h (List.mem_of_getElem? ho))]
    rfl
  unfold computeAvgReprojectionError
  rw [hfold, Lemmas.Collect.foldlM_steps hstep, Outcome.bind_ok]
  have hsum : ∀ (L : List ((CamGroup G × Nat) × Nat)) (st : ℝ × Nat) (w : Nat → ℝ),
      L.foldl (fun st e => (st.1 + w e.2, st.2 + 1)) st =
        (st.1 + ((L.map (·.2)).map w).sum, st.2 + L.length) := by
    intro L
    induction L with
    | nil => intro st w; simp
    | cons e L ih => intro st w; rw [List.foldl_cons, ih]; simp; constructor <;> ring
  rw [hsum _ _ fun i => ((sc.oo[i]?).map fun o => Spec.Report.mean (errors r o)).getD 0]
  have hp := all_perm h
  have hlen : (allReported sc).length = sc.oo.length := by simpa using hp.length_eq
  rw [(hp.map _).sum_eq, hlen]
  have hmap : (List.range sc.oo.length).map
      (fun i => ((sc.oo[i]?).map fun o => Spec.Report.mean (errors r o)).getD 0) =
      sc.oo.map fun o => Spec.Report.mean (errors r o) := by
    apply List.ext_getElem (by simp)
    intro i h1 h2
    have : i < sc.oo.length := by simpa using h2
    simp [List.getElem?_eq_getElem this]
  rw [hmap]
  simp only [Outcome.pure_eq, zero_add, Outcome.ok.injEq, List.length_eq_zero_iff]
  split
  · rfl
  · simp [Spec.Report.mean]

private theorem mean_bounds {l : List ℝ} (h : l ≠ []) {lo hi : ℝ} (hl : ∀ x ∈ l, lo ≤ x ∧ x ≤ hi) :
    lo ≤ Spec.Report.mean l ∧ Spec.Report.mean l ≤ hi := by
  have hn : (0 : ℝ) < l.length := by
    have : 0 < l.length := List.length_pos_iff.2 h
    exact_mod_cast this
  have h1 : lo * l.length ≤ l.sum ∧ l.sum ≤ hi * l.length := by
    clear h hn
    induction l with
    | nil => simp
    | cons a l ih =>
      obtain ⟨k1, k2⟩ := ih fun x hx => hl x (by simp [hx])
      obtain ⟨k3, k4⟩ := hl a (by simp)
      simp only [List.length_cons, List.sum_cons, Nat.cast_add, Nat.cast_one]
      constructor <;> nlinarith
  unfold Spec.Report.mean
  constructor
  · rw [le_div_iff₀ hn]; exact h1.1
  · rw [div_le_iff₀ hn]; exact h1.2

/-- C41: the average lies between bounds of the distances of the single corners. -/
theorem C41_bounds (h : Holds sc frames r) (hne : sc.oo ≠ []) (lo hi : ℝ)
    (hb : ∀ o ∈ sc.oo, ∀ e ∈ errors r o, lo ≤ e ∧ e ≤ hi) :
    ∃ a, computeAvgReprojectionError sc = .ok (some a) ∧ lo ≤ a ∧ a ≤ hi := by
  refine ⟨_, by rw [C41_value h, if_neg hne], ?_⟩
  apply mean_bounds (by simpa using hne)
  intro x hx
  obtain ⟨o, ho, rfl⟩ := List.mem_map.1 hx
  exact mean_bounds (errors_ne_nil h ho) (hb o ho)

private theorem mean_zero {l : List ℝ} (h : l ≠ []) (hl : ∀ x ∈ l, 0 ≤ x) :
    Spec.Report.mean l = 0 ↔ ∀ x ∈ l, x = 0 := by
  have hn : (l.length : ℝ) ≠ 0 := by
    have : l.length ≠ 0 := by simpa using h
    exact_mod_cast this
  unfold Spec.Report.mean
  rw [div_eq_zero_iff, or_iff_left hn]
  clear h hn
  induction l with
  | nil => simp
  | cons a l ih =>
    have ih := ih fun x hx => hl x (by simp [hx])
    have h0 : 0 ≤ l.sum := List.sum_nonneg fun x hx => hl x (by simp [hx])
    have ha := hl a (by simp)
    simp only [List.sum_cons, List.mem_cons, forall_eq_or_imp, ← ih]
    constructor
    · intro h; constructor <;> linarith
    · rintro ⟨h1, h2⟩; rw [h1, h2]; simp

private theorem errors_nonneg {o : ObjObs (ℝ × ℝ)} : ∀ x ∈ errors r o, 0 ≤ x := by
  intro x hx
  unfold errors at hx
  obtain ⟨e, _, rfl⟩ := List.mem_map.1 hx
  exact Real.sqrt_nonneg _

private theorem dist_zero (q p : ℝ × ℝ) : Real.sqrt ((q.1 - p.1) ^ 2 + (q.2 - p.2) ^ 2) = 0 ↔ p = q := by
  rw [Real.sqrt_eq_zero (by positivity)]
  constructor
  · intro h
    have h1 : (q.1 - p.1) ^ 2 = 0 := le_antisymm (by nlinarith [sq_nonneg (q.2 - p.2)]) (sq_nonneg _)
    have h2 : (q.2 - p.2) ^ 2 = 0 := by linarith
    have h1 : q.1 - p.1 = 0 := by simpa using h1
    have h2 : q.2 - p.2 = 0 := by simpa using h2
    exact Prod.ext (by linarith) (by linarith)
  · rintro rfl; simp

/-- C41: the average is 0 exactly if every corner of every observation is where it is expected. -/
theorem C41_zero (h : Holds sc frames r) (hne : sc.oo ≠ []) :
    computeAvgReprojectionError sc = .ok (some 0) ↔
      ∀ o ∈ sc.oo, ∀ q k, (q, k) ∈ o.pts.zip o.ids →
        r.pix o.cam (r.camPose o.cam • r.objPose (r.group o.cam) o.frame o.obj • r.pt o.obj k) = q := by
  rw [C41_value h, if_neg hne]
  simp only [Outcome.ok.injEq, Option.some.injEq]
  rw [mean_zero (by simpa using hne) (by
    intro x hx
    obtain ⟨o, ho, rfl⟩ := List.mem_map.1 hx
    unfold Spec.Report.mean
    exact div_nonneg (List.sum_nonneg errors_nonneg) (Nat.cast_nonneg _))]
  constructor
  · intro h1 o ho q k hq
    have := (mean_zero (errors_ne_nil h ho) errors_nonneg).1 (h1 _ (List.mem_map.2 ⟨o, ho, rfl⟩)) _
      (List.mem_map.2 ⟨(q, k), hq, rfl⟩)
    exact (dist_zero _ _).1 this
  · intro h1 x hx
    obtain ⟨o, ho, rfl⟩ := List.mem_map.1 hx
    rw [mean_zero (errors_ne_nil h ho) errors_nonneg]
    intro y hy
    obtain ⟨⟨q, k⟩, hq, rfl⟩ := List.mem_map.1 hy
    exact (dist_zero _ _).2 (h1 o ho q k hq)

/-- C41, failure: for a camera of an unsupported distortion model nothing is projected, and each of its
observations counts as an error of 0. -/
theorem C41_unsupported (g : CamGroup G) (f i : Nat) (o : ObjObs (ℝ × ℝ)) (ho : sc.oo[i]? = some o)
    (hm : sc.model o.cam ≠ 0 ∧ sc.model o.cam ≠ 1) (obj : Object G Pt)
    (hobj : OMap.get? sc.objs o.obj = some obj) (hids : ∀ k ∈ o.ids, k < obj.pts.length) (st : ℝ × Nat) :
    obsErrors sc g f i = .ok (o.cam, []) ∧ avgObs sc g f st i = .ok (st.1, st.2 + 1) := by
  have h1 : obsErrors sc g f i = .ok (o.cam, []) := by
    unfold obsErrors
    rw [Outcome.idx_of_getElem? ho, Outcome.bind_ok, hobj, Outcome.deref_some, Outcome.bind_ok]
    have hpts : ∃ ps, Outcome.foldlM (pointStep obj) [] o.ids = .ok ps := by
      cases hp : obj.pts with
      | nil =>
        cases hi : o.ids with
        | nil => exact ⟨[], rfl⟩
        | cons k l =>
          have := hids k (by rw [hi]; simp)
          rw [hp] at this
          simp at this
      | cons d ps =>
        exact ⟨_, points_ok (f := fun k => (obj.pts[k]?).getD d) fun k hk => by
          have := hids k hk
          simp [List.getElem?_eq_getElem this]⟩
    obtain ⟨ps, hps⟩ := hpts
    rw [hps, Outcome.bind_ok]
    simp only [project, if_neg hm.1, if_neg hm.2]
    rfl
  refine ⟨h1, ?_⟩
  unfold avgObs
  rw [h1]
  simp [Output.mean]

/-- C41: that the observations are stored once per object after a merge (C25) does not change the
average. -/
theorem C41_copies {sc' : Output.Scene V G Pt} {frames' : List Nat} (h : Holds sc frames r)
    (h' : Holds sc' frames' r) (n : Nat) (hn : n ≠ 0) (hoo : sc'.oo = (List.replicate n sc.oo).flatten) :
    computeAvgReprojectionError sc' = computeAvgReprojectionError sc := by
  rw [C41_value h, C41_value h', hoo]
  by_cases hne : sc.oo = []
  · simp [hne]
  · have : (List.replicate n sc.oo).flatten ≠ [] := by
      simp [hne, hn]
    rw [if_neg this, if_neg hne]
    congr 2
    unfold Spec.Report.mean
    rw [List.map_flatten, List.map_replicate, List.sum_flatten, List.map_replicate, List.sum_replicate,
      List.length_flatten, List.map_replicate, List.sum_replicate]
    have h0 : (n : ℝ) ≠ 0 := by exact_mod_cast hn
    have h1 : ((sc.oo.map fun o => (errors r o).sum / (errors r o).length).length : ℝ) ≠ 0 := by
      have : sc.oo.length ≠ 0 := by simpa using hne
      simp only [List.length_map]
      exact_mod_cast this
    simp only [nsmul_eq_mul, smul_eq_mul, Nat.cast_mul]
    field_simp

/-- C41, link to the optimisation: with the camera model of the cost functions (C36) the distance of a
corner is the length of its residual. -/
theorem C41_residual (model : Int) (M : Rigid.Mat3 ℝ) (d : List ℝ) (X : Rigid.Vec3 ℝ) (q p e : ℝ × ℝ)
    (hp : Spec.Projection.pixel model M d X = some p) (he : Spec.Projection.error model M d X q = some e) :
    distance q p = Real.sqrt (e.1 ^ 2 + e.2 ^ 2) := by
  unfold Spec.Projection.error at he
  rw [hp] at he
  simp only [Option.map_some, Option.some.injEq] at he
  subst he
  unfold distance
  congr 1
  simp only [Prod.fst_sub, Prod.snd_sub]
  ring

/-! ### The file -/

private theorem frames_run (h : Holds sc frames r) {gi : Nat} {g : CamGroup G}
    (hg : OMap.get? sc.t.groups gi = some g) (l : OMap Nat Unit) (st : List FrameNode × List Nat) :
    Outcome.foldlM (reportFrame sc g) st l = .ok
      (st.1 ++ (OMap.keys l).map (fun f => ⟨f, frameErrors sc r g f, (frameErrors sc r g f).map (·.1)⟩),
        st.2 ++ OMap.keys l) := by
  induction l generalizing st with
  | nil => simp [OMap.keys]
  | cons e l ih =>
    have hrep : (reported sc g e.1).map (fun i => sc.oo[i]?) =
        (sc.oo.filter fun o => o.frame == e.1 && decide (o.cam ∈ OMap.keys g.cameras)).map some := by
      have hpos : reported sc g e.1 = Spec.Store.positions
          (fun o : ObjObs (ℝ × ℝ) => o.frame == e.1 && decide (o.cam ∈ OMap.keys g.cameras)) sc.oo := by
        rw [reported_eq h hg]
        by_cases hne : Spec.Store.positions
            (fun o : ObjObs (ℝ × ℝ) => o.frame == e.1 && decide (o.cam ∈ OMap.keys g.cameras)) sc.oo = []
        · rw [hne]
          cases hx : OMap.get? sc.t.groupObs (gi, e.1) with
          | none => rfl
          | some is =>
            obtain ⟨g', hg', _, hnn, rfl⟩ := (h.groupObs.obs gi e.1 is).1 hx
            rw [hg] at hg'
            simp only [Option.some.injEq] at hg'
            subst hg'
            exact absurd hne hnn
        · obtain ⟨i, hi⟩ := List.exists_mem_of_ne_nil _ hne
          obtain ⟨o, ho, hp⟩ := (Props.Store.positions_get _ _ _).1 hi
          simp only [Bool.and_eq_true, beq_iff_eq] at hp
          have := (h.groupObs.obs gi e.1 _).2 ⟨g, hg, hp.1 ▸ h.frame o (List.mem_of_getElem? ho), hne, rfl⟩
          rw [this]; rfl
      rw [hpos]
      exact Verif.Props.Report.positions_map _ _
    have hobs : ∀ n : FrameNode, Outcome.foldlM (reportObs sc g e.1) n (reported sc g e.1) =
        .ok { frame := n.frame, cams := n.cams ++ frameErrors sc r g e.1
              cameraList := n.cameraList ++ (frameErrors sc r g e.1).map (·.1) } := by
      have key : ∀ (L : List Nat) (O : List (ObjObs (ℝ × ℝ))), L.map (fun i => sc.oo[i]?) = O.map some →
          (∀ o ∈ O, o.frame = e.1 ∧ o.cam ∈ OMap.keys g.cameras) → ∀ n : FrameNode,
          Outcome.foldlM (reportObs sc g e.1) n L =
            .ok { frame := n.frame, cams := n.cams ++ O.map fun o => (o.cam, errors r o)
                  cameraList := n.cameraList ++ O.map (·.cam) } := by
        intro L
        induction L with
        | nil =>
          intro O hO _ n
          have : O = [] := by simpa using hO.symm
          subst this; simp
        | cons i L ihL =>
          intro O hO hin n
          cases O with
          | nil => simp at hO
          | cons o O =>
            simp only [List.map_cons, List.cons.injEq] at hO
            obtain ⟨hf, hc⟩ := hin o (by simp)
            rw [Outcome.foldlM_cons]
            have : reportObs sc g e.1 n i = .ok { n with
                cams := n.cams ++ [(o.cam, errors r o)], cameraList := n.cameraList ++ [o.cam] } := by
              unfold reportObs
              rw [← hf, obsErrors_ok h hO.1 hg hc]
              rfl
            rw [this, Outcome.bind_ok, ihL O hO.2 (fun o ho => hin o (by simp [ho]))]
            simp
      intro n
      rw [key _ _ hrep (by
        intro o ho
        have := (List.mem_filter.1 ho).2
        simpa using this)]
      unfold frameErrors
      simp [Function.comp_def]
    have hone : reportFrame sc g st e = .ok
        (st.1 ++ [⟨e.1, frameErrors sc r g e.1, (frameErrors sc r g e.1).map (·.1)⟩], st.2 ++ [e.1]) := by
      unfold reportFrame
      rw [hobs, Outcome.bind_ok]
      simp
    rw [Outcome.foldlM_cons, hone, Outcome.bind_ok, ih]
    simp [OMap.keys]

/-- C40: the file lists the groups in order; each group lists its frames, and each frame the cameras and
distances of the object observations of the group in it, in order.  The frame list of a group, however,
is that of all groups up to it. -/
theorem C40_file (h : Holds sc frames r) :
    ∃ nodes, saveReprojectionError sc = .ok (sc.t.groups.length, nodes) ∧
      nodes.length = sc.t.groups.length ∧
      ∀ (k : Nat) (i : Nat) (g : CamGroup G), sc.t.groups[k]? = some (i, g) → ∃ n, nodes[k]? = some n ∧
        n.group = i ∧
        n.frames = (OMap.keys g.frames).map (fun f =>
          ⟨f, frameErrors sc r g f, (frameErrors sc r g f).map (·.1)⟩) ∧
        n.frameList = (sc.t.groups.take (k + 1)).flatMap fun e => OMap.keys e.2.frames := by
  have key : ∀ (l : OMap Nat (CamGroup G)), (∀ e ∈ l, e ∈ sc.t.groups) → ∀ st : List GroupNode × List Nat,
      Outcome.foldlM (reportGroup sc) st l = .ok
        (st.1 ++ (List.range l.length).filterMap (fun k => (l[k]?).map fun e =>
          ⟨e.2.id, (OMap.keys e.2.frames).map (fun f =>
            ⟨f, frameErrors sc r e.2 f, (frameErrors sc r e.2 f).map (·.1)⟩),
            st.2 ++ (l.take (k + 1)).flatMap fun e => OMap.keys e.2.frames⟩),
          st.2 ++ l.flatMap fun e => OMap.keys e.2.frames) := by
    intro l
    induction l with
    | nil => intro _ st; simp
    | cons e l ih =>
      intro hl st
      rw [Outcome.foldlM_cons]
      have hg := mem_groups h (hl e (by simp))
      have hone : reportGroup sc st e = .ok (st.1 ++ [⟨e.2.id, (OMap.keys e.2.frames).map (fun f =>
            ⟨f, frameErrors sc r e.2 f, (frameErrors sc r e.2 f).map (·.1)⟩),
            st.2 ++ OMap.keys e.2.frames⟩], st.2 ++ OMap.keys e.2.frames) := by
        unfold reportGroup
        rw [frames_run h hg, Outcome.bind_ok]
        rfl
      rw [hone, Outcome.bind_ok, ih (fun e he => hl e (by simp [he]))]
      simp only [Outcome.ok.injEq, Prod.mk.injEq, List.flatMap_cons, List.append_assoc, and_true]
      rw [List.length_cons, List.range_succ_eq_map, List.filterMap_cons]
      simp [List.filterMap_map, Function.comp_def]
  unfold saveReprojectionError
  rw [key sc.t.groups (fun e he => he) ([], [])]
  refine ⟨_, rfl, ?_, ?_⟩
  · simp only [List.nil_append]
    rw [filterMap_range _ sc.t.groups, List.length_map]
    simp
  · intro k i g hk
    simp only [List.nil_append]
    rw [filterMap_range _ sc.t.groups]
    have hlt := (List.getElem?_eq_some_iff.1 hk).1
    rw [List.getElem?_map, List.getElem?_zipIdx, hk]
    refine ⟨_, rfl, ?_, rfl, ?_⟩
    · exact h.groups.id i g ((OMap.get?_eq_some h.groups.sorted).2 (List.mem_of_getElem? hk))
    · simp

/-- C40, what holds: the frame list of the first group is that of its frames. -/
theorem C40_first (h : Holds sc frames r) (i : Nat) (g : CamGroup G) (hg : sc.t.groups[0]? = some (i, g)) :
    ∃ nodes n, saveReprojectionError sc = .ok (sc.t.groups.length, nodes) ∧ nodes[0]? = some n ∧
      n.group = i ∧ n.frameList = OMap.keys g.frames := by
  obtain ⟨nodes, h1, _, h2⟩ := C40_file h
  obtain ⟨n, k1, k2, _, k3⟩ := h2 0 i g hg
  refine ⟨nodes, n, h1, k1, k2, ?_⟩
  rw [k3]
  cases hgs : sc.t.groups with
  | nil => rw [hgs] at hg; simp at hg
  | cons e l =>
    rw [hgs] at hg
    simp only [List.getElem?_cons_zero, Option.some.injEq] at hg
    subst hg
    simp

/-- C40, failure: the frame list of a later group is that of its frames only if no earlier group has any
frame. -/
theorem C40_later (h : Holds sc frames r) (k i : Nat) (g : CamGroup G) (hg : sc.t.groups[k]? = some (i, g)) :
    ∃ nodes n, saveReprojectionError sc = .ok (sc.t.groups.length, nodes) ∧ nodes[k]? = some n ∧
      n.group = i ∧
      (n.frameList = OMap.keys g.frames ↔ ∀ e ∈ sc.t.groups.take k, OMap.keys e.2.frames = []) ∧
      ∀ e ∈ sc.t.groups.take k, ∀ f ∈ OMap.keys e.2.frames, f ∈ n.frameList := by
  obtain ⟨nodes, h1, _, h2⟩ := C40_file h
  obtain ⟨n, k1, k2, _, k3⟩ := h2 k i g hg
  have hsplit : n.frameList =
      ((sc.t.groups.take k).flatMap fun e => OMap.keys e.2.frames) ++ OMap.keys g.frames := by
    rw [k3, List.take_add_one, hg]
    simp
  refine ⟨nodes, n, h1, k1, k2, ?_, ?_⟩
  · rw [hsplit]
    constructor
    · intro he e hm
      have := congrArg List.length he
      simp only [List.length_append, Nat.add_eq_right, List.length_eq_zero_iff, List.flatMap_eq_nil_iff] at this
      exact this e hm
    · intro he
      rw [List.flatMap_eq_nil_iff.2 he]
      rfl
  · intro e he f hf
    rw [hsplit]
    exact List.mem_append_left _ (List.mem_flatMap.2 ⟨e, he, hf⟩)

/-- C40: a camera has one entry per observation of an object in a frame; with several objects in one
image (or copies of observations, C25) the key of the camera occurs several times. -/
theorem C40_repeated_key (h : Holds sc frames r) (k i : Nat) (g : CamGroup G)
    (hg : sc.t.groups[k]? = some (i, g)) (f : Nat) (hf : f ∈ OMap.keys g.frames) (c : Nat)
    (hc : c ∈ OMap.keys g.cameras) :
    ∃ nodes n fn, saveReprojectionError sc = .ok (sc.t.groups.length, nodes) ∧ nodes[k]? = some n ∧
      fn ∈ n.frames ∧ fn.frame = f ∧
      fn.cams.countP (fun e => e.1 == c) = sc.oo.countP fun o => o.frame == f && o.cam == c := by
  obtain ⟨nodes, h1, _, h2⟩ := C40_file h
  obtain ⟨n, k1, _, k3, _⟩ := h2 k i g hg
  refine ⟨nodes, n, _, h1, k1, by rw [k3]; exact List.mem_map.2 ⟨f, hf, rfl⟩, rfl, ?_⟩
  simp only [frameErrors, List.countP_map, List.countP_filter]
  apply List.countP_congr
  intro o _
  simp only [Function.comp, Bool.and_eq_true, beq_iff_eq, decide_eq_true_eq]
  constructor
  · rintro ⟨a, b, _⟩; exact ⟨b, a⟩
  · rintro ⟨a, b⟩; exact ⟨b, a, b ▸ hc⟩

/-! ### The hypotheses are met -/

section demo
open Rigid

/-- Two groups of one camera each; camera 0 sees the object in frame 3, camera 1 in frame 5, each one
corner, off by (3, 4) and not at all. -/
noncomputable def demo : Output.Scene (Pose ℝ) (Pose ℝ) (Vec3 ℝ) where
  objs := [(0, { id := 0, refBoard := 0, nbBoards := 1, boards := [(0, ())], nbPts := 1, poses := [(0, 1)]
                 b2o := [((0, 0), 0)], o2b := [(0, 0)], pts := [![1, 2, 1]] })]
  oo := [{ obj := 0, cam := 0, frame := 3, pts := [(4, 6)], ids := [0] },
         { obj := 0, cam := 1, frame := 5, pts := [(1, 2)], ids := [0] }]
  t := { groups := [(0, { id := 0, refCam := 0, cameras := [(0, ())], camIdx := [0], poses := [(0, 1)]
                          objObs := [0], frames := [(3, ())] }),
                    (1, { id := 1, refCam := 1, cameras := [(1, ())], camIdx := [1], poses := [(1, 1)]
                          objObs := [1], frames := [(5, ())] })]
         groupObs := [((0, 3), [0]), ((1, 5), [1])]
         frameGroups := [(3, [0]), (5, [1])] }
  op := [((0, 3), [(0, 1)]), ((1, 5), [(0, 1)])]
  ofVec := id
  model := fun c => c
  projBrown := fun _ g ps => if ps = [] then .throw else .ok (ps.map fun p => ((g • p) 0 / (g • p) 2, (g • p) 1 / (g • p) 2))
  projKannala := fun _ g ps => if ps = [] then .throw else .ok (ps.map fun p => ((g • p) 0 / (g • p) 2, (g • p) 1 / (g • p) 2))

noncomputable def demoReading : Reading (Pose ℝ) (Vec3 ℝ) where
  group := id
  camPose := fun _ => 1
  objPose := fun _ _ _ => 1
  pt := fun _ _ => ![1, 2, 1]
  pix := fun _ p => (p 0 / p 2, p 1 / p 2)

private theorem demo_group {i : Nat} {g : CamGroup (Pose ℝ)} (h : OMap.get? demo.t.groups i = some g) :
    (i = 0 ∧ g = { id := 0, refCam := 0, cameras := [(0, ())], camIdx := [0], poses := [(0, 1)]
                   objObs := [0], frames := [(3, ())] }) ∨
    (i = 1 ∧ g = { id := 1, refCam := 1, cameras := [(1, ())], camIdx := [1], poses := [(1, 1)]
                   objObs := [1], frames := [(5, ())] }) := by
  simp only [demo, OMap.get?] at h
  split at h
  · rename_i h0
    simp only [Option.some.injEq] at h
    exact .inl ⟨by simpa using h0, h.symm⟩
  · split at h
    · rename_i h0
      simp only [Option.some.injEq] at h
      exact .inr ⟨by simpa using h0, h.symm⟩
    · cases h

theorem demo_holds : Holds demo [3, 5] demoReading := by
  have hC : Spec.Groups.Collection demo.t.groups := by
    constructor
    · simp [demo, OMap.Sorted, Key.lt]
    all_goals
      intro i
      first
      | (intro j g g' hg hg'
         rcases demo_group hg with ⟨rfl, rfl⟩ | ⟨rfl, rfl⟩ <;> rcases demo_group hg' with ⟨rfl, rfl⟩ | ⟨rfl, rfl⟩ <;>
           simp [OMap.keys])
      | (intro g hg
         rcases demo_group hg with ⟨rfl, rfl⟩ | ⟨rfl, rfl⟩ <;>
           simp [OMap.keys, OMap.Sorted, OMap.get?])
  have hO : ∀ o ∈ demo.oo, o = { obj := 0, cam := 0, frame := 3, pts := [(4, 6)], ids := [0] } ∨
      o = { obj := 0, cam := 1, frame := 5, pts := [(1, 2)], ids := [0] } := by
    intro o ho; simpa [demo] using ho
  refine ⟨hC, ⟨?_, ?_⟩, ⟨?_, ?_, ?_⟩, ?_, ?_, ?_, ?_, ?_, ?_, ?_, ?_, ?_, ?_, ?_⟩
  · simp [demo, OMap.Sorted, Key.lt]
  · intro i f is
    constructor
    · intro h
      simp only [demo, OMap.get?] at h
      split at h
      · rename_i h0
        simp only [Option.some.injEq] at h
        simp only [Prod.mk.injEq] at h0
        obtain ⟨rfl, rfl⟩ := h0
        subst h
        exact ⟨_, rfl, by simp, by simp, by simp [demo, Spec.Store.positions, OMap.keys, List.range_succ]⟩
      · split at h
        · rename_i h0
          simp only [Option.some.injEq] at h
          simp only [Prod.mk.injEq] at h0
          obtain ⟨rfl, rfl⟩ := h0
          subst h
          exact ⟨_, rfl, by simp, by simp, by simp [demo, Spec.Store.positions, OMap.keys, List.range_succ]⟩
        · cases h
    · rintro ⟨g, hg, hf, hne, rfl⟩
      simp only [List.mem_cons, List.not_mem_nil, or_false] at hf
      rcases demo_group hg with ⟨rfl, rfl⟩ | ⟨rfl, rfl⟩ <;> rcases hf with rfl | rfl
      · simp [demo, Spec.Store.positions, OMap.keys, List.range_succ, OMap.get?]
      · exact absurd (by simp [demo, Spec.Store.positions, OMap.keys, List.range_succ]) hne
      · exact absurd (by simp [demo, Spec.Store.positions, OMap.keys, List.range_succ]) hne
      · simp [demo, Spec.Store.positions, OMap.keys, List.range_succ, OMap.get?]
  · intro i g hg
    rcases demo_group hg with ⟨rfl, rfl⟩ | ⟨rfl, rfl⟩ <;> simp [OMap.Sorted]
  · intro i g f is hg h
    rcases demo_group hg with ⟨rfl, rfl⟩ | ⟨rfl, rfl⟩ <;> simp [demo, OMap.get?, OMap.keys] at h ⊢ <;>
      exact h.1
  · intro i g f is hg h
    rcases demo_group hg with ⟨rfl, rfl⟩ | ⟨rfl, rfl⟩ <;> simp
  · intro f
    by_cases h3 : f = 3
    · subst h3; simp [demo, OMap.get?, OMap.keys]
    · by_cases h5 : f = 5
      · subst h5; simp [demo, OMap.get?, OMap.keys]
      · simp [demo, OMap.get?, OMap.keys, h3, h5]
  · intro o ho; rcases hO o ho with rfl | rfl <;> simp
  · intro o ho
    rcases hO o ho with rfl | rfl
    · exact ⟨_, rfl, by simp [OMap.keys]⟩
    · exact ⟨_, rfl, by simp [OMap.keys]⟩
  · intro i g c hg hc
    rcases demo_group hg with ⟨rfl, rfl⟩ | ⟨rfl, rfl⟩ <;> simp [OMap.keys] at hc <;> subst hc <;>
      simp [OMap.get?, demoReading]
  · intro o ho
    rcases hO o ho with rfl | rfl
    · exact ⟨_, _, rfl, rfl, rfl⟩
    · exact ⟨_, _, rfl, rfl, rfl⟩
  · intro o ho
    rcases hO o ho with rfl | rfl
    · exact ⟨_, rfl, by simp [demoReading]⟩
    · exact ⟨_, rfl, by simp [demoReading]⟩
  · intro o ho; rcases hO o ho with rfl | rfl <;> simp
  · intro o ho; rcases hO o ho with rfl | rfl <;> simp
  · intro o ho; rcases hO o ho with rfl | rfl <;> simp [demo]
  · intro c g ps hps; simp [demo, hps, demoReading]
  · intro c g ps hps; simp [demo, hps, demoReading]

/-- The average is that of 5 and 0. -/
theorem C41_example : computeAvgReprojectionError demo = .ok (some (5 / 2)) := by
  rw [C41_value demo_holds, if_neg (by simp [demo])]
  have h5 : Real.sqrt (3 ^ 2 + 4 ^ 2) = 5 := by
    rw [show (3 : ℝ) ^ 2 + 4 ^ 2 = 5 ^ 2 by norm_num]
    exact Real.sqrt_sq (by norm_num)
  simp only [demo, demoReading, errors, Spec.Report.mean, List.map_cons, List.map_nil, List.zip_cons_cons,
    List.zip_nil_right, one_smul, List.sum_cons, List.sum_nil, List.length_cons, List.length_nil]
  have hz : (![1, 2, 1] : Vec3 ℝ) 2 = 1 := rfl
  simp only [hz]
  norm_num
  rw [show (25 : ℝ) = 3 ^ 2 + 4 ^ 2 by norm_num, h5]

/-- The second group is said to have frames 3 and 5, though it has an entry only for frame 5. -/
theorem C40_example : ∃ nodes n, saveReprojectionError demo = .ok (2, nodes) ∧ nodes[1]? = some n ∧
    n.group = 1 ∧ n.frames.map (·.frame) = [5] ∧ n.frameList = [3, 5] := by
  obtain ⟨nodes, h1, _, h2⟩ := C40_file demo_holds
  obtain ⟨n, k1, k2, k3, k4⟩ := h2 1 1 _ rfl
  exact ⟨nodes, n, h1, k1, k2, by rw [k3]; rfl, by rw [k4]; rfl⟩

end demo

end Verif.Props.Report
