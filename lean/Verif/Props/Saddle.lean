import Verif.Lemmas.Saddle
import Verif.Props.Detection
import Mathlib.Data.Real.Archimedean
import Mathlib.Tactic.FieldSimp
import Mathlib.Tactic.NormNum

/-! C47: interpolation of patches; C48: outcome of the refinement of corners. -/
namespace Verif.Props.Saddle
open Verif Verif.Saddle Verif.Spec.Saddle Verif.Lemmas.Saddle

variable {K : Type} [Field K] [LinearOrder K] [IsStrictOrderedRing K] [FloorRing K]

/-- C47: the interpolation never reads outside the image, for any point (also infinite or not a number).
Away from the border the buffer receives the values of the image, interpolated bilinearly, at the
offsets of the mask; elsewhere it answers no and leaves the buffer.  The buffer must have room for the
values of the mask. -/
theorem C47_patch (lim : Limits K) (w : Nat) (im : Image K) (mask : List Bool) (b : List K)
    (hb : (taps w mask).length ≤ b.length) (x y : Ext K) :
    (∃ x' y', x = .fin x' ∧ y = .fin y' ∧ Interior w im x' y' ∧ WindowInside w im x' y' ∧
      ∃ good, interpolatePatch lim w im mask b x y =
        .ok (good, patch w mask im x' y' ++ b.drop (taps w mask).length)) ∨
    (¬ (∃ x' y', x = .fin x' ∧ y = .fin y' ∧ Interior w im x' y') ∧
      interpolatePatch lim w im mask b x y = .ok (false, b)) := by
  by_cases h : ∃ x' y', x = .fin x' ∧ y = .fin y' ∧ Interior w im x' y'
  · left
    obtain ⟨x', y', rfl, rfl, hi⟩ := h
    refine ⟨x', y', rfl, rfl, hi, interior_window hi, decide ((patch w mask im x' y').foldl max lim.min -
      (patch w mask im x' y').foldl min lim.max > 1 / 255), ?_⟩
    unfold interpolatePatch
    simp only []
    rw [if_pos ((inRange_iff w im x' y').2 hi), patchInside_eq lim (interior_window hi) hb]
    congr 2
    simp [over, patch]
  · right
    refine ⟨h, ?_⟩
    unfold interpolatePatch
    split
    · rename_i x' y'
      rw [if_neg]
      intro hc
      exact h ⟨x', y', rfl, rfl, (inRange_iff w im x' y').1 hc⟩
    · rfl

/-- C47: on an image with values between 0 and `DBL_MAX` the answer is yes iff the point is away from the
border and two of the values differ by more than 1/255. -/
theorem C47_answer (lim : Limits K) (hlim : 0 < lim.min ∧ lim.min ≤ 1 / 255 ∧ 0 < lim.max) (w : Nat) (im : Image K)
    (mask : List Bool) (b : List K) (hb : (taps w mask).length ≤ b.length) (x y : K)
    (hpos : ∀ v ∈ patch w mask im x y, 0 ≤ v ∧ v ≤ lim.max) :
    (∃ b', interpolatePatch lim w im mask b (.fin x) (.fin y) = .ok (true, b')) ↔
      Interior w im x y ∧ ∃ v ∈ patch w mask im x y, ∃ v' ∈ patch w mask im x y, v' - v > 1 / 255 := by
  unfold interpolatePatch
  simp only []
  by_cases hi : Interior w im x y
  · rw [if_pos ((inRange_iff w im x y).2 hi), patchInside_eq lim (interior_window hi) hb]
    simp only [Outcome.ok.injEq, Prod.mk.injEq, exists_eq_right', and_true,
      decide_eq_true_eq, hi, true_and]
    have hmin := foldl_min_le (patch w mask im x y) lim.max
    have hmax := foldl_max_le (patch w mask im x y) lim.min
    have h255 : (0 : K) < 1 / 255 := by norm_num
    constructor
    · intro h
      rcases foldl_max_mem (patch w mask im x y) lim.min with h2 | h2
      · rw [h2] at h
        rcases foldl_min_mem (patch w mask im x y) lim.max with h1 | h1
        · rw [h1] at h
          linarith
        · have := (hpos _ h1).1
          linarith
      · rcases foldl_min_mem (patch w mask im x y) lim.max with h1 | h1
        · have := (hpos _ h2).2
          rw [h1] at h
          linarith
        · exact ⟨_, h1, _, h2, h⟩
    · rintro ⟨v, hv, v', hv', hd⟩
      have := hmin.2 v hv
      have := hmax.2 v' hv'
      linarith
  · rw [if_neg (fun hc => hi ((inRange_iff w im x y).1 hc))]
    simp [hi]

/-- C47: with a buffer smaller than the mask, an interpolation away from the border writes outside it. -/
theorem C47_small_buffer (lim : Limits K) (w : Nat) (im : Image K) (mask : List Bool) (b : List K)
    (hb : b.length < (taps w mask).length) (x y : K) (hi : Interior w im x y) :
    interpolatePatch lim w im mask b (.fin x) (.fin y) = .ub := by
  unfold interpolatePatch
  simp only []
  rw [if_pos ((inRange_iff w im x y).2 hi), patchInside_ub lim (interior_window hi) hb]

/-- The interpolation of a 6 x 6 image with a mask of one offset, and the refusal of a point one pixel
further. -/
theorem C47_example : interpolatePatch (⟨1000, 1 / 1000⟩ : Limits Rat) 1 ⟨6, 6, fun r c => 10 * r + c⟩
      [true, false, false, false, true, false, false, false, false] [0, 0] (.fin (9 / 4)) (.fin (5 / 2)) =
        .ok (true, [65 / 4, 109 / 4]) ∧
    interpolatePatch (⟨1000, 1 / 1000⟩ : Limits Rat) 1 ⟨6, 6, fun r c => 10 * r + c⟩
      [true, false, false, false, true, false, false, false, false] [0, 0] (.fin (13 / 4)) (.fin (5 / 2)) =
        .ok (false, [0, 0]) := by
  decide +kernel

/-! ### C48 -/

/-- The buffer made for the fit has as many entries as the mask. -/
def Ready (S : Setup K) : Prop := (taps S.w S.mask).length = S.P.length

/-- `q` is a good refinement of `p`: for some point `c` of the image, away from the border and within the
convergence region around `p`, the quadratic surface fitted to the image around `c` is a proper saddle whose
stationary point is `q`, closer than the threshold to `c`. -/
def Refines (S : Setup K) (p q : K × K) : Prop :=
  ∃ c : K × K, Interior S.w S.im c.1 c.2 ∧ |c.1 - p.1| ≤ S.region ∧ |c.2 - p.2| ≤ S.region ∧
    |q.1 - c.1| < S.thr ∧ |q.2 - c.2| < S.thr ∧
    det (fit S.P (patch S.w S.mask S.im c.1 c.2)) < 0 ∧
    gradient (fit S.P (patch S.w S.mask S.im c.1 c.2)) (q.1 - c.1) (q.2 - c.2) = (0, 0)

omit [IsStrictOrderedRing K] [FloorRing K] in
/-- C48: a surface with negative determinant has exactly one stationary point: the one the code computes. -/
theorem C48_stationary (r : Fin 6 → K) (h : det r ≠ 0) (u v : K) :
    gradient r u v = (0, 0) ↔ stepX r = .fin u ∧ stepY r = .fin v := by
  unfold gradient stepX stepY divide
  rw [if_neg h, if_neg h]
  simp only [Prod.mk.injEq, Ext.fin.injEq]
  rw [div_eq_iff h, div_eq_iff h]
  constructor
  · rintro ⟨h1, h2⟩
    unfold det
    constructor
    · linear_combination 2 * r 1 * (-h1) + r 2 * h2
    · linear_combination r 2 * h1 - 2 * r 0 * h2
  · rintro ⟨h1, h2⟩
    have e1 : det r * (2 * r 0 * u + r 2 * v + r 4) = 0 := by
      unfold det at h1 h2 ⊢
      linear_combination (-2) * r 0 * h1 - r 2 * h2
    have e2 : det r * (2 * r 1 * v + r 2 * u + r 3) = 0 := by
      unfold det at h1 h2 ⊢
      linear_combination (-2) * r 1 * h2 - r 2 * h1
    exact ⟨(mul_eq_zero.1 e1).resolve_left h, (mul_eq_zero.1 e2).resolve_left h⟩

/-- What one step from a finite point can be. -/
theorem newton_cases (S : Setup K) (x0 y0 x y : K) (r : Fin 6 → K) :
    newton S x0 y0 (.fin x) (.fin y) r = .diverged ∨
    (∃ u v, newton S x0 y0 (.fin x) (.fin y) r = .converged (.fin (x + u)) (.fin (y + v)) ∧ |u| < S.thr ∧
      |v| < S.thr ∧ det r < 0 ∧ gradient r u v = (0, 0)) ∨
    (∃ x' y', newton S x0 y0 (.fin x) (.fin y) r = .goOn (.fin x') (.fin y') ∧ |x' - x0| ≤ S.region ∧
      |y' - y0| ≤ S.region) ∨
    newton S x0 y0 (.fin x) (.fin y) r = .goOn .nan .nan := by
  unfold newton
  by_cases hd : det r > 0
  · exact Or.inl (if_pos hd)
  rw [if_neg hd]
  by_cases h0 : det r = 0
  · have hx : stepX r = .nan ∨ stepX r = .inf := by
      unfold stepX divide; rw [if_pos h0]; split <;> simp
    have hy : stepY r = .nan ∨ stepY r = .inf := by
      unfold stepY divide; rw [if_pos h0]; split <;> simp
    rcases hx with hx | hx <;> rcases hy with hy | hy <;> simp [hx, hy, small, far, plus]
  · have hlt : det r < 0 := lt_of_le_of_ne (not_lt.1 hd) h0
    obtain ⟨u, hu⟩ : ∃ u, stepX r = .fin u := ⟨_, if_neg h0⟩
    obtain ⟨v, hv⟩ : ∃ v, stepY r = .fin v := ⟨_, if_neg h0⟩
    rw [hu, hv]
    by_cases hs : (small S.thr (.fin u) && small S.thr (.fin v)) = true
    · rw [if_pos hs]
      right; left
      simp only [small, Bool.and_eq_true, decide_eq_true_eq] at hs
      exact ⟨u, v, rfl, hs.1, hs.2, hlt, (C48_stationary r h0 u v).2 ⟨hu, hv⟩⟩
    · rw [if_neg hs]
      by_cases hf : (far S.region x0 (plus (.fin x) (.fin u)) || far S.region y0 (plus (.fin y) (.fin v))) = true
      · exact Or.inl (if_pos hf)
      · rw [if_neg hf]
        right; right; left
        refine ⟨x + u, y + v, rfl, ?_, ?_⟩ <;>
        · simp only [far, plus, Bool.or_eq_true, decide_eq_true_eq, not_or, not_lt] at hf
          first | exact hf.1 | exact hf.2

/-- One iteration does not depend on what the buffer held. -/
theorem iteration_eq (S : Setup K) (hS : Ready S) (x0 y0 : K) (x y : Ext K) :
    (∀ b : List K, b.length = S.P.length → ∃ b', b'.length = S.P.length ∧
        iteration S x0 y0 x y b = .ok (.diverged, b')) ∨
    ∃ x' y' r, x = .fin x' ∧ y = .fin y' ∧ Interior S.w S.im x' y' ∧
      r = fit S.P (patch S.w S.mask S.im x' y') ∧
      ∀ b : List K, b.length = S.P.length → ∃ b', b'.length = S.P.length ∧
        iteration S x0 y0 x y b = .ok (newton S x0 y0 (.fin x') (.fin y') r, b') := by
  by_cases h : ∃ x' y', x = .fin x' ∧ y = .fin y' ∧ Interior S.w S.im x' y'
  · obtain ⟨x', y', rfl, rfl, hi⟩ := h
    have key : ∀ b : List K, b.length = S.P.length →
        interpolatePatch S.lim S.w S.im S.mask b (.fin x') (.fin y') =
          .ok (decide ((patch S.w S.mask S.im x' y').foldl max S.lim.min -
            (patch S.w S.mask S.im x' y').foldl min S.lim.max > 1 / 255), patch S.w S.mask S.im x' y') := by
      intro b hb
      unfold interpolatePatch
      simp only []
      rw [if_pos ((inRange_iff S.w S.im x' y').2 hi), patchInside_eq S.lim (interior_window hi) (by
        rw [hb, hS]), over_zero _ _ (by simp [patch, hb, hS.symm])]
    have hlen : (patch S.w S.mask S.im x' y').length = S.P.length := by simpa [patch, Ready] using hS
    by_cases hg : decide ((patch S.w S.mask S.im x' y').foldl max S.lim.min -
        (patch S.w S.mask S.im x' y').foldl min S.lim.max > 1 / 255) = true
    · right
      refine ⟨x', y', _, rfl, rfl, hi, rfl, fun b hb => ⟨_, hlen, ?_⟩⟩
      unfold iteration
      rw [key b hb, Outcome.bind_ok, hg]
      rfl
    · left
      intro b hb
      refine ⟨_, hlen, ?_⟩
      unfold iteration
      rw [key b hb, Outcome.bind_ok]
      simp only [Bool.not_eq_true] at hg
      rw [hg]
      rfl
  · left
    intro b hb
    refine ⟨b, hb, ?_⟩
    have : interpolatePatch S.lim S.w S.im S.mask b x y = .ok (false, b) := by
      rcases C47_patch S.lim S.w S.im S.mask b (by rw [hb, hS]) x y with ⟨x', y', a, b, c, _⟩ | ⟨_, h2⟩
      · exact absurd ⟨x', y', a, b, c⟩ h
      · exact h2
    unfold iteration
    rw [this]
    rfl

/-- The result of the loop for one point. -/
theorem loop_eq (S : Setup K) (hS : Ready S) (p : K × K) (n : Nat) : ∀ (x y : Ext K),
    (∀ x' y', x = .fin x' → y = .fin y' → |x' - p.1| ≤ S.region ∧ |y' - p.2| ≤ S.region) →
    ∃ q : Ext K × Ext K, (q = (.inf, .inf) ∨ ∃ c, q = (.fin c.1, .fin c.2) ∧ Refines S p c) ∧
      ∀ b : List K, b.length = S.P.length → ∃ b', b'.length = S.P.length ∧
        refineLoop S p.1 p.2 n x y b = .ok (q, b') := by
  induction n with
  | zero => exact fun x y _ => ⟨(.inf, .inf), Or.inl rfl, fun b hb => ⟨b, hb, rfl⟩⟩
  | succ n ih =>
    intro x y hxy
    rcases iteration_eq S hS p.1 p.2 x y with h | ⟨x', y', r, rfl, rfl, hi, hr, h⟩
    · refine ⟨(.inf, .inf), Or.inl rfl, fun b hb => ?_⟩
      obtain ⟨b', h1, h2⟩ := h b hb
      refine ⟨b', h1, ?_⟩
      unfold refineLoop
      rw [h2]
      rfl
    · rcases newton_cases S p.1 p.2 x' y' r with hn | ⟨u, v, hn, h1, h2, h3, h4⟩ | ⟨x2, y2, hn, h1, h2⟩ | hn
      · refine ⟨(.inf, .inf), Or.inl rfl, fun b hb => ?_⟩
        obtain ⟨b', g1, g2⟩ := h b hb
        refine ⟨b', g1, ?_⟩
        unfold refineLoop
        rw [g2, hn]
        rfl
      · obtain ⟨hx, hy⟩ := hxy x' y' rfl rfl
        refine ⟨(.fin (x' + u), .fin (y' + v)), Or.inr ⟨(x' + u, y' + v), rfl, (x', y'), hi, hx, hy, ?_, ?_, ?_, ?_⟩,
          fun b hb => ?_⟩
        · simpa using h1
        · simpa using h2
        · exact hr ▸ h3
        · simp only [add_sub_cancel_left]
          exact hr ▸ h4
        · obtain ⟨b', g1, g2⟩ := h b hb
          refine ⟨b', g1, ?_⟩
          unfold refineLoop
          rw [g2, hn]
          rfl
      · obtain ⟨q, hq, hq2⟩ := ih (.fin x2) (.fin y2) (fun a b ha hb => by cases ha; cases hb; exact ⟨h1, h2⟩)
        refine ⟨q, hq, fun b hb => ?_⟩
        obtain ⟨b', g1, g2⟩ := h b hb
        obtain ⟨b2, g3, g4⟩ := hq2 b' g1
        refine ⟨b2, g3, ?_⟩
        unfold refineLoop
        rw [g2, hn]
        exact g4
      · obtain ⟨q, hq, hq2⟩ := ih .nan .nan (fun a b ha _ => by cases ha)
        refine ⟨q, hq, fun b hb => ?_⟩
        obtain ⟨b', g1, g2⟩ := h b hb
        obtain ⟨b2, g3, g4⟩ := hq2 b' g1
        refine ⟨b2, g3, ?_⟩
        unfold refineLoop
        rw [g2, hn]
        exact g4

/-- C48: for any image, any corners and any contents of the buffer the refinement ends and gives one point
per corner, in order; each depends on its own corner only, and is either infinite in both coordinates or a
stationary point of a proper saddle fitted to the image near the corner. -/
theorem C48_outcome (S : Setup K) (hS : Ready S) (hreg : 0 ≤ S.region) (iters : Nat) :
    ∃ f : K × K → Ext K × Ext K,
      (∀ p, f p = (.inf, .inf) ∨ ∃ q, f p = (.fin q.1, .fin q.2) ∧ Refines S p q) ∧
      ∀ (b : Nat → K) (initial : List (K × K)), refineAll S iters b initial = .ok (initial.map f) := by
  have hp : ∀ p : K × K, ∃ q : Ext K × Ext K,
      (q = (.inf, .inf) ∨ ∃ c, q = (.fin c.1, .fin c.2) ∧ Refines S p c) ∧
      ∀ b : List K, b.length = S.P.length → ∃ b', b'.length = S.P.length ∧
        refineLoop S p.1 p.2 iters (.fin p.1) (.fin p.2) b = .ok (q, b') := fun p =>
    loop_eq S hS p iters (.fin p.1) (.fin p.2) (fun x y hx hy => by cases hx; cases hy; simp [hreg])
  choose f hf1 hf2 using hp
  refine ⟨f, hf1, fun b initial => ?_⟩
  have key : ∀ (l : List (K × K)) (acc : List (Ext K × Ext K)) (buf : List K), buf.length = S.P.length →
      ∃ buf', Outcome.foldlM (pointStep S iters) (acc, buf) l = .ok (acc ++ l.map f, buf') := by
    intro l
    induction l with
    | nil => exact fun acc buf _ => ⟨buf, by simp⟩
    | cons p l ih =>
      intro acc buf hb
      obtain ⟨b1, h1, h2⟩ := hf2 p buf hb
      obtain ⟨b2, h3⟩ := ih (acc ++ [f p]) b1 h1
      refine ⟨b2, ?_⟩
      rw [Outcome.foldlM_cons]
      have : pointStep S iters (acc, buf) p = .ok (acc ++ [f p], b1) := by
        unfold pointStep
        rw [h2]
        rfl
      rw [this, Outcome.bind_ok, h3]
      simp
  obtain ⟨buf', h⟩ := key initial [] ((List.range S.P.length).map b) (by simp)
  unfold refineAll
  rw [h]
  rfl

/-- C48: a refined corner moves less than the convergence region plus the threshold (1.001 pixel with the
values of the code) in each coordinate. -/
theorem C48_drift (S : Setup K) (p q : K × K) (h : Refines S p q) :
    |q.1 - p.1| < S.region + S.thr ∧ |q.2 - p.2| < S.region + S.thr := by
  obtain ⟨c, -, h1, h2, h3, h4, -⟩ := h
  constructor
  · calc |q.1 - p.1| = |(c.1 - p.1) + (q.1 - c.1)| := by ring_nf
      _ ≤ |c.1 - p.1| + |q.1 - c.1| := abs_add_le _ _
      _ < _ := add_lt_add_of_le_of_lt h1 h3
  · calc |q.2 - p.2| = |(c.2 - p.2) + (q.2 - c.2)| := by ring_nf
      _ ≤ |c.2 - p.2| + |q.2 - c.2| := abs_add_le _ _
      _ < _ := add_lt_add_of_le_of_lt h2 h4

/-- The refined corner as McCalib.cpp:330 sees it: infinite or not. -/
def seen (q : Ext K × Ext K) : Option (K × K) :=
  match q with
  | (.fin x, .fin y) => some (x, y)
  | _ => none

/-- C48: the detection keeps, up to the first corner that could not be refined, the refined corners, and
from there on the corners as detected, whether or not they could be refined. -/
theorem C48_stored (S : Setup K) (hS : Ready S) (hreg : 0 ≤ S.region) (iters : Nat) (b : Nat → K)
    (corners : List (K × K)) :
    ∃ refined stored, refineAll S iters b corners = .ok refined ∧
      Detection.applyRefined corners (refined.map seen) = .ok stored ∧ stored.length = corners.length ∧
      ∃ k ≤ corners.length, (k < corners.length → refined[k]? = some (.inf, .inf)) ∧
        ∀ (j : Nat) (p : K × K), corners[j]? = some p →
          if j < k then ∃ q, stored[j]? = some q ∧ refined[j]? = some (.fin q.1, .fin q.2) ∧ Refines S p q
          else stored[j]? = some p := by
  obtain ⟨f, h1, h2⟩ := C48_outcome S hS hreg iters
  refine ⟨_, _, h2 b corners, Props.Detection.applyRefined_eq _ _ (by simp),
    Props.Detection.length_refinedUntilInf _ _ (by simp), ?_⟩
  clear h2
  induction corners with
  | nil => exact ⟨0, le_refl _, fun h => by simp at h, fun j p h => by simp at h⟩
  | cons p ps ih =>
    rcases h1 p with hinf | ⟨q, hq, hr⟩
    · refine ⟨0, Nat.zero_le _, fun _ => by simp [hinf], fun j p' hj => ?_⟩
      simp only [not_lt_zero, if_false]
      have : Props.Detection.refinedUntilInf (p :: ps) (((p :: ps).map f).map seen) = p :: ps := by
        simp [Props.Detection.refinedUntilInf, hinf, seen]
      rw [this]
      exact hj
    · obtain ⟨k, hk, hk1, hk2⟩ := ih
      have hcons : Props.Detection.refinedUntilInf (p :: ps) (((p :: ps).map f).map seen) =
          q :: Props.Detection.refinedUntilInf ps ((ps.map f).map seen) := by
        simp [Props.Detection.refinedUntilInf, hq, seen]
      refine ⟨k + 1, by simpa using hk, fun h => by simpa using hk1 (by simpa using h), fun j p' hj => ?_⟩
      rw [hcons]
      cases j with
      | zero =>
        simp only [List.getElem?_cons_zero, Option.some.injEq] at hj
        subst hj
        simp only [Nat.zero_lt_succ, if_true]
        exact ⟨q, rfl, by simp [hq], hr⟩
      | succ j =>
        simp only [List.getElem?_cons_succ] at hj
        have := hk2 j p' hj
        by_cases hjk : j < k
        · rw [if_pos hjk] at this
          rw [if_pos (by omega)]
          obtain ⟨q', a1, a2, a3⟩ := this
          exact ⟨q', a1, by simpa using a2, a3⟩
        · rw [if_neg hjk] at this
          rw [if_neg (by omega)]
          simpa using this

/-! ### Example -/

/-- The least squares fit on a 3 x 3 window. -/
def demoP : List (Fin 6 → Rat) := (window 1).map fun o =>
  ![(3 * (o.1 : Rat) ^ 2 - 2) / 6, (3 * (o.2 : Rat) ^ 2 - 2) / 6, (o.1 : Rat) * o.2 / 4, (o.2 : Rat) / 6, (o.1 : Rat) / 6,
    (5 - 3 * (o.1 : Rat) ^ 2 - 3 * (o.2 : Rat) ^ 2) / 9]

/-- A 12 x 12 image, flat on the left and a saddle at (8.25, 6.5) on the right. -/
def demoS : Setup Rat :=
  ⟨⟨1000, 1 / 1000⟩, 1, ⟨12, 12, fun r c => if c ≤ 5 then 7 else 20 + ((c : Rat) - 33 / 4) * (r - 13 / 2)⟩,
    List.replicate 9 true, demoP, 1, 1 / 1000⟩

/-- A corner on the flat part becomes infinite, one near the saddle becomes the saddle; if the first comes first in
the list, the second is not updated although it was refined. -/
theorem C48_example : Ready demoS ∧
    refineAll demoS 20 (fun _ => 5) [(8, 6), (3, 6)] = .ok [(.fin (33 / 4), .fin (13 / 2)), (.inf, .inf)] ∧
    refineAll demoS 20 (fun _ => 5) [(3, 6), (8, 6)] = .ok [(.inf, .inf), (.fin (33 / 4), .fin (13 / 2))] ∧
    Detection.applyRefined [((3 : Rat), (6 : Rat)), (8, 6)] ([((.inf : Ext Rat), (.inf : Ext Rat)),
      (.fin (33 / 4), .fin (13 / 2))].map seen) = .ok [(3, 6), (8, 6)] := by
  refine ⟨by unfold Ready; decide +kernel, by decide +kernel, by decide +kernel, by decide +kernel⟩

end Verif.Props.Saddle
