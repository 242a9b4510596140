import Verif.Spec.Saddle
import Mathlib.Tactic.Linarith
import Mathlib.Tactic.Ring
import Mathlib.Algebra.Order.Ring.Abs

/-! Lemmas on the interpolation loop. -/
namespace Verif.Lemmas.Saddle
open Verif Verif.Saddle Verif.Spec.Saddle

variable {K : Type} [Field K] [LinearOrder K]

theorem mem_offsets {w : Nat} {i : Int} : i ∈ offsets w ↔ -(w : Int) ≤ i ∧ i ≤ w := by
  unfold offsets
  simp only [List.mem_map, List.mem_range]
  constructor
  · rintro ⟨a, h, rfl⟩
    omega
  · rintro ⟨h1, h2⟩
    exact ⟨(i + w).toNat, by omega, by omega⟩

theorem mem_window {w : Nat} {o : Int × Int} :
    o ∈ window w ↔ (-(w : Int) ≤ o.1 ∧ o.1 ≤ w) ∧ -(w : Int) ≤ o.2 ∧ o.2 ≤ w := by
  unfold window
  obtain ⟨a, b⟩ := o
  simp only [List.mem_flatMap, List.mem_map, mem_offsets, Prod.mk.injEq]
  constructor
  · rintro ⟨y, hy, x, hx, rfl, rfl⟩
    exact ⟨hx, hy⟩
  · rintro ⟨hx, hy⟩
    exact ⟨b, hy, a, hx, rfl, rfl⟩

theorem nodup_offsets (w : Nat) : (offsets w).Nodup := by
  unfold offsets
  refine List.Nodup.map ?_ List.nodup_range
  intro a b h
  simp only at h
  omega

theorem nodup_window (w : Nat) : (window w).Nodup := by
  unfold window
  rw [List.nodup_flatMap]
  refine ⟨fun y _ => ?_, ?_⟩
  · refine List.Nodup.map ?_ (nodup_offsets w)
    intro a b h
    exact (Prod.mk.inj h).1
  · refine (nodup_offsets w).imp ?_
    intro a b hab o h1 h2
    obtain ⟨x, _, rfl⟩ := List.mem_map.1 h1
    obtain ⟨y, _, h⟩ := List.mem_map.1 h2
    exact hab (Prod.mk.inj h).2.symm

theorem length_offsets (w : Nat) : (offsets w).length = 2 * w + 1 := by simp [offsets]

theorem length_window (w : Nat) : (window w).length = (2 * w + 1) * (2 * w + 1) := by
  simp [window, List.length_flatMap, length_offsets]

/-! ### Writing into the buffer -/

/-- `vals` written into `b` from position `m` on. -/
def over {α : Type} (b : List α) (m : Nat) (vals : List α) : List α := b.take m ++ vals ++ b.drop (m + vals.length)

theorem over_nil {α : Type} (b : List α) (m : Nat) : over b m [] = b := by simp [over]

theorem over_cons {α : Type} (b : List α) (m : Nat) (v : α) (vals : List α) (h : m < b.length) :
    over (b.set m v) (m + 1) vals = over b m (v :: vals) := by
  unfold over
  rw [List.take_add_one, List.take_set_of_le (le_refl m), List.getElem?_set_self h, List.drop_set_of_lt (by omega)]
  simp only [Option.toList_some, List.append_assoc, List.singleton_append, List.length_cons]
  rw [show m + 1 + vals.length = m + (vals.length + 1) by omega]

theorem over_zero {α : Type} (b vals : List α) (h : b.length = vals.length) : over b 0 vals = vals := by
  simp [over, ← h]

/-! ### The loop over the window -/

theorem tap_loop (im : Image K) (x0 y0 : Int) (xw yw : K) (f : Int × Int → K) :
    ∀ (L : List ((Int × Int) × Bool)), (∀ om ∈ L, blend im x0 y0 xw yw om.1 = .ok (f om.1)) →
      ∀ st : PatchState K, st.m + (L.filter (·.2)).length ≤ st.b.length →
        Outcome.foldlM (tapStep im x0 y0 xw yw) st L =
          .ok ⟨over st.b st.m (((L.filter (·.2)).map (·.1)).map f), st.m + (L.filter (·.2)).length,
            (((L.filter (·.2)).map (·.1)).map f).foldl min st.mn,
            (((L.filter (·.2)).map (·.1)).map f).foldl max st.mx⟩
  | [], _, st, _ => by simp [over_nil]
  | (o, false) :: L, hf, st, h => by
    rw [Outcome.foldlM_cons]
    have : tapStep im x0 y0 xw yw st (o, false) = .ok st := rfl
    rw [this, Outcome.bind_ok, tap_loop im x0 y0 xw yw f L (fun om hm => hf om (List.mem_cons_of_mem _ hm)) st
      (by simpa using h)]
    simp
  | (o, true) :: L, hf, st, h => by
    simp only [List.filter_cons_of_pos, List.length_cons] at h
    rw [Outcome.foldlM_cons]
    have hm : st.m < st.b.length := by omega
    have : tapStep im x0 y0 xw yw st (o, true) = .ok ⟨st.b.set st.m (f o), st.m + 1, min st.mn (f o), max st.mx (f o)⟩ := by
      unfold tapStep tapOn write
      rw [if_pos rfl, hf _ List.mem_cons_self, Outcome.bind_ok, if_pos hm, Outcome.bind_ok, Outcome.pure_eq]
      congr 2
      · simp only [gt_iff_lt]
        split
        · rename_i h1
          rw [min_eq_right h1.le]
        · rename_i h1
          rw [min_eq_left (not_lt.1 h1)]
      · split
        · rename_i h1
          rw [max_eq_right h1.le]
        · rename_i h1
          rw [max_eq_left (not_lt.1 h1)]
    rw [this, Outcome.bind_ok, tap_loop im x0 y0 xw yw f L (fun om hm => hf om (List.mem_cons_of_mem _ hm)) _
      (by simp only [List.length_set]; omega)]
    simp only [List.filter_cons_of_pos, List.map_cons, List.foldl_cons, List.length_cons, over_cons _ _ _ _ hm]
    congr 2
    omega

/-- With a buffer too small the loop writes outside. -/
theorem tap_loop_ub (im : Image K) (x0 y0 : Int) (xw yw : K) (f : Int × Int → K) :
    ∀ (L : List ((Int × Int) × Bool)), (∀ om ∈ L, blend im x0 y0 xw yw om.1 = .ok (f om.1)) →
      ∀ st : PatchState K, st.m ≤ st.b.length → st.b.length < st.m + (L.filter (·.2)).length →
        Outcome.foldlM (tapStep im x0 y0 xw yw) st L = .ub
  | [], _, st, h0, h => by simp at h; omega
  | (o, false) :: L, hf, st, h0, h => by
    rw [Outcome.foldlM_cons]
    have : tapStep im x0 y0 xw yw st (o, false) = .ok st := rfl
    rw [this, Outcome.bind_ok]
    exact tap_loop_ub im x0 y0 xw yw f L (fun om hm => hf om (List.mem_cons_of_mem _ hm)) st h0 (by simpa using h)
  | (o, true) :: L, hf, st, h0, h => by
    simp only [List.filter_cons_of_pos, List.length_cons] at h
    rw [Outcome.foldlM_cons]
    by_cases hm : st.m < st.b.length
    · have : tapStep im x0 y0 xw yw st (o, true) = .ok ⟨st.b.set st.m (f o), st.m + 1,
          if st.mn > f o then f o else st.mn, if st.mx < f o then f o else st.mx⟩ := by
        unfold tapStep tapOn write
        rw [if_pos rfl, hf _ List.mem_cons_self, Outcome.bind_ok, if_pos hm, Outcome.bind_ok, Outcome.pure_eq]
      rw [this, Outcome.bind_ok]
      exact tap_loop_ub im x0 y0 xw yw f L (fun om hm => hf om (List.mem_cons_of_mem _ hm)) _
        (by simp only [List.length_set]; omega) (by simp only [List.length_set]; omega)
    · have : tapStep im x0 y0 xw yw st (o, true) = .ub := by
        unfold tapStep tapOn write
        rw [if_pos rfl, hf _ List.mem_cons_self, Outcome.bind_ok, if_neg hm]
        rfl
      rw [this]
      rfl

/-! ### Minimum and maximum of a list -/

omit [Field K] in
theorem foldl_min_le (l : List K) (a : K) : l.foldl min a ≤ a ∧ ∀ v ∈ l, l.foldl min a ≤ v := by
  induction l generalizing a with
  | nil => simp
  | cons v l ih =>
    obtain ⟨h1, h2⟩ := ih (min a v)
    simp only [List.foldl_cons, List.mem_cons, forall_eq_or_imp]
    exact ⟨h1.trans (min_le_left _ _), h1.trans (min_le_right _ _), h2⟩

omit [Field K] in
theorem foldl_min_mem (l : List K) (a : K) : l.foldl min a = a ∨ l.foldl min a ∈ l := by
  induction l generalizing a with
  | nil => simp
  | cons v l ih =>
    simp only [List.foldl_cons, List.mem_cons]
    rcases ih (min a v) with h | h
    · rw [h]
      rcases min_choice a v with h' | h'
      · exact Or.inl h'
      · exact Or.inr (Or.inl h')
    · exact Or.inr (Or.inr h)

omit [Field K] in
theorem foldl_max_le (l : List K) (a : K) : a ≤ l.foldl max a ∧ ∀ v ∈ l, v ≤ l.foldl max a := by
  induction l generalizing a with
  | nil => simp
  | cons v l ih =>
    obtain ⟨h1, h2⟩ := ih (max a v)
    simp only [List.foldl_cons, List.mem_cons, forall_eq_or_imp]
    exact ⟨(le_max_left _ _).trans h1, (le_max_right _ _).trans h1, h2⟩

omit [Field K] in
theorem foldl_max_mem (l : List K) (a : K) : l.foldl max a = a ∨ l.foldl max a ∈ l := by
  induction l generalizing a with
  | nil => simp
  | cons v l ih =>
    simp only [List.foldl_cons, List.mem_cons]
    rcases ih (max a v) with h | h
    · rw [h]
      rcases max_choice a v with h' | h'
      · exact Or.inl h'
      · exact Or.inr (Or.inl h')
    · exact Or.inr (Or.inr h)

/-! ### The blend -/

variable [IsStrictOrderedRing K] [FloorRing K]

theorem floor_shift (x : K) (i : Int) : ⌊x + (i : K)⌋ = ⌊x⌋ + i ∧ Int.fract (x + (i : K)) = Int.fract x :=
  ⟨Int.floor_add_intCast x i, Int.fract_add_intCast x i⟩

theorem interior_window {w : Nat} {im : Image K} {x y : K} (h : Interior w im x y) : WindowInside w im x y := by
  obtain ⟨h1, h2, h3, h4⟩ := h
  intro u v hu hu' hv hv'
  have a1 : ((w + 1 : Int) : K) < x := by push_cast; exact h1
  have a2 : x < ((im.cols - (w + 2) : Int) : K) := by push_cast; linarith
  have a3 : ((w + 1 : Int) : K) < y := by push_cast; exact h3
  have a4 : y < ((im.rows - (w + 2) : Int) : K) := by push_cast; linarith
  have b1 : (w + 1 : Int) ≤ ⌊x⌋ := Int.le_floor.2 a1.le
  have b2 : ⌊x⌋ < (im.cols - (w + 2) : Int) := Int.floor_lt.2 a2
  have b3 : (w + 1 : Int) ≤ ⌊y⌋ := Int.le_floor.2 a3.le
  have b4 : ⌊y⌋ < (im.rows - (w + 2) : Int) := Int.floor_lt.2 a4
  omega

theorem blend_eq {w : Nat} {im : Image K} {x y : K} (h : WindowInside w im x y) {o : Int × Int}
    (ho : o ∈ window w) :
    blend im ⌊x⌋ ⌊y⌋ (x - ⌊x⌋) (y - ⌊y⌋) o = .ok (bilinear im (x + o.1) (y + o.2)) := by
  rw [mem_window] at ho
  obtain ⟨h1, h2, h3, h4⟩ := h o.1 o.2 ho.1.1 ho.1.2 ho.2.1 ho.2.2
  have hr : ∀ r c : Int, 0 ≤ r → r < im.rows → 0 ≤ c → c < im.cols → im.read r c = .ok (pixel im r c) := by
    intro r c a b d e
    unfold Image.read pixel
    rw [if_pos ⟨a, b, d, e⟩]
  unfold blend
  rw [hr _ _ h3 (by omega) h1 (by omega), Outcome.bind_ok, hr _ _ h3 (by omega) (by omega) h2, Outcome.bind_ok,
    hr _ _ (by omega) h4 h1 (by omega), Outcome.bind_ok, hr _ _ (by omega) h4 (by omega) h2, Outcome.bind_ok,
    Outcome.pure_eq]
  unfold bilinear
  simp only [(floor_shift x o.1).1, (floor_shift y o.2).1, Int.fract]
  congr 1
  push_cast
  ring

omit [FloorRing K] in
theorem inRange_iff (w : Nat) (im : Image K) (x y : K) :
    (inRange w im.cols x && inRange w im.rows y) = true ↔ Interior w im x y := by
  unfold inRange Interior
  simp only [Bool.and_eq_true, decide_eq_true_eq, lt_sub_iff_add_lt]
  tauto

theorem taps_length (w : Nat) (mask : List Bool) : (taps w mask).length = (((window w).zip mask).filter (·.2)).length := by
  simp [taps]

theorem patchInside_eq (lim : Limits K) {w : Nat} {im : Image K} {mask : List Bool} {b : List K} {x y : K}
    (h : WindowInside w im x y) (hb : (taps w mask).length ≤ b.length) :
    patchInside lim w im mask b x y =
      .ok (decide ((patch w mask im x y).foldl max lim.min - (patch w mask im x y).foldl min lim.max > 1 / 255),
        over b 0 (patch w mask im x y)) := by
  unfold patchInside
  simp only []
  rw [tap_loop im _ _ _ _ (fun o => bilinear im (x + o.1) (y + o.2)) _ (fun om hm =>
    blend_eq h (List.of_mem_zip (show (om.1, om.2) ∈ _ from hm)).1) _ (by
      rw [taps_length] at hb; simpa using hb)]
  rw [Outcome.bind_ok]
  rfl

theorem patchInside_ub (lim : Limits K) {w : Nat} {im : Image K} {mask : List Bool} {b : List K} {x y : K}
    (h : WindowInside w im x y) (hb : b.length < (taps w mask).length) :
    patchInside lim w im mask b x y = .ub := by
  unfold patchInside
  simp only []
  rw [tap_loop_ub im _ _ _ _ (fun o => bilinear im (x + o.1) (y + o.2)) _ (fun om hm =>
    blend_eq h (List.of_mem_zip (show (om.1, om.2) ∈ _ from hm)).1) _ (Nat.zero_le _) (by
      rw [taps_length] at hb; simpa using hb)]
  rfl

end Verif.Lemmas.Saddle
