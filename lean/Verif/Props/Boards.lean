import Verif.Model.Config
import Verif.Spec.Boards
import Verif.Lemmas.Collect
import Mathlib.Tactic.Ring
import Mathlib.Data.List.Nodup
import Mathlib.Tactic.Linarith

/-! C42: the ids of the markers of the generated boards. -/
namespace Verif.Props.Boards
open Verif.Config Verif.Spec.Boards

theorem parity_row (n : Nat) (b : Bool) :
    ((List.range n).filter fun x => (decide (x % 2 = 1)) == b).length = if b then n / 2 else (n + 1) / 2 := by
  induction n with
  | zero => cases b <;> rfl
  | succ n ih =>
    rw [List.range_succ, List.filter_append, List.length_append, ih]
    rcases Nat.mod_two_eq_zero_or_one n with h | h <;> cases b <;> simp [h] <;> omega

theorem row_length (nx y : Nat) : ((List.range nx).filter fun x => y % 2 != x % 2).length =
    if y % 2 = 0 then nx / 2 else (nx + 1) / 2 := by
  rcases Nat.mod_two_eq_zero_or_one y with h | h
  · have e := parity_row nx true
    rw [if_pos rfl] at e
    rw [if_pos h, ← e]
    congr 1
    apply List.filter_congr
    intro x _
    rcases Nat.mod_two_eq_zero_or_one x with hx | hx <;> simp [h, hx]
  · have e := parity_row nx false
    rw [if_neg (by simp)] at e
    rw [if_neg (by omega), ← e]
    congr 1
    apply List.filter_congr
    intro x _
    rcases Nat.mod_two_eq_zero_or_one x with hx | hx <;> simp [h, hx]

/-- The count of the loop over the squares is half the number of squares. -/
theorem markerCount_eq (nx ny : Nat) : markerCount nx ny = nx * ny / 2 := by
  unfold markerCount
  have h : ∀ ny : Nat, ((List.range ny).map fun y =>
      ((List.range nx).filter fun x => y % 2 != x % 2).length).sum =
        (ny + 1) / 2 * (nx / 2) + ny / 2 * ((nx + 1) / 2) := by
    intro ny
    induction ny with
    | zero => simp
    | succ n ih =>
      rw [List.range_succ, List.map_append, List.sum_append, ih]
      simp only [List.map_cons, List.map_nil, List.sum_cons, List.sum_nil, row_length, Nat.add_zero]
      rcases Nat.mod_two_eq_zero_or_one n with hn | hn
      · rw [if_pos hn, show (n + 1 + 1) / 2 = (n + 1) / 2 + 1 by omega, show (n + 1) / 2 = n / 2 by omega]
        ring
      · rw [if_neg (by omega), show (n + 1 + 1) / 2 = (n + 1) / 2 by omega,
          show (n + 1) / 2 = n / 2 + 1 by omega]
        ring
  rw [h]
  obtain ⟨a, ha⟩ : ∃ a, nx = 2 * a ∨ nx = 2 * a + 1 := ⟨nx / 2, by omega⟩
  obtain ⟨b, hb⟩ : ∃ b, ny = 2 * b ∨ ny = 2 * b + 1 := ⟨ny / 2, by omega⟩
  rcases ha with rfl | rfl <;> rcases hb with rfl | rfl
  · rw [show (2 * b + 1) / 2 = b by omega, show 2 * a / 2 = a by omega, show 2 * b / 2 = b by omega,
      show (2 * a + 1) / 2 = a by omega, show 2 * a * (2 * b) = 2 * (2 * a * b) by ring]
    rw [Nat.mul_div_cancel_left _ (by omega : 0 < 2)]
    ring
  · rw [show (2 * b + 1 + 1) / 2 = b + 1 by omega, show 2 * a / 2 = a by omega,
      show (2 * b + 1) / 2 = b by omega,
      show (2 * a + 1) / 2 = a by omega, show 2 * a * (2 * b + 1) = 2 * (a * (2 * b + 1)) by ring]
    rw [Nat.mul_div_cancel_left _ (by omega : 0 < 2)]
    ring
  · rw [show (2 * b + 1) / 2 = b by omega, show (2 * a + 1) / 2 = a by omega, show 2 * b / 2 = b by omega,
      show (2 * a + 1 + 1) / 2 = a + 1 by omega, show (2 * a + 1) * (2 * b) = 2 * ((2 * a + 1) * b) by ring]
    rw [Nat.mul_div_cancel_left _ (by omega : 0 < 2)]
    ring
  · rw [show (2 * b + 1 + 1) / 2 = b + 1 by omega, show (2 * a + 1) / 2 = a by omega,
      show (2 * b + 1) / 2 = b by omega,
      show (2 * a + 1 + 1) / 2 = a + 1 by omega,
      show (2 * a + 1) * (2 * b + 1) = 1 + 2 * (2 * a * b + a + b) by ring]
    rw [Nat.add_mul_div_left _ _ (by omega : 0 < 2)]
    simp only [show (1 : Nat) / 2 = 0 from rfl, Nat.zero_add]
    ring

theorem goodSize_iff (nx ny : Int) (s m : Rat) : goodSize nx ny s m = true ↔ Possible nx ny s m := by
  simp [goodSize, Possible, and_assoc]

variable {xs ys : List Int} {s m : Rat}

theorem foldlM_single {f : σ → α → Outcome σ} (a : σ) (x : α) : Outcome.foldlM f a [x] = f a x := by
  rw [Outcome.foldlM_cons]
  cases f a x <;> rfl

/-- All boards `0, …, n - 1` have a possible size. -/
def Sizes (xs ys : List Int) (s m : Rat) (n : Nat) : Prop :=
  ∀ i < n, ∃ nx ny, Size xs ys i nx ny ∧ Possible nx ny s m

theorem zip_get {i : Nat} {nx ny : Int} (h : Size xs ys i nx ny) : (xs.zip ys)[i]? = some (nx, ny) := by
  rw [List.getElem?_zip_eq_some]
  exact h

theorem before_succ {i : Nat} {nx ny : Int} (h : Size xs ys i nx ny) :
    before xs ys (i + 1) = before xs ys i + markers nx ny := by
  unfold before
  rw [List.take_add_one, zip_get h]
  simp

/-- The pattern with number `i`, for ids given from `start`, `count` of them. -/
def patternOf (xs ys : List Int) (start count : Nat → Nat) (i : Nat) : Pattern :=
  ⟨((xs[i]?).getD 0).toNat, ((ys[i]?).getD 0).toNat, List.range' (start i) (count i)⟩

/-- Number of markers of board `i`. -/
def countOf (xs ys : List Int) (i : Nat) : Nat := markers ((xs[i]?).getD 0) ((ys[i]?).getD 0)

theorem create_ok {nx ny : Int} (h : Possible nx ny s m) :
    create nx ny s m = .ok ⟨nx.toNat, ny.toNat, List.range (markers nx ny)⟩ := by
  unfold create
  rw [if_pos ((goodSize_iff _ _ _ _).2 h), markerCount_eq]
  rfl

theorem range_shift (n k : Nat) : (List.range n).map (fun i => i + k) = List.range' k n := by
  rw [List.range_eq_range', List.range'_eq_map_range, List.range'_eq_map_range]
  simp [Nat.add_comm]

theorem legacy_fold (n : Nat) (h : Sizes xs ys s m n) :
    Outcome.foldlM (legacyStep xs ys s m) ([], 0) (List.range n) =
      .ok ((List.range n).map (patternOf xs ys (before xs ys) (countOf xs ys)), before xs ys (n - 1)) := by
  induction n with
  | zero => rfl
  | succ n ih =>
    rw [List.range_succ, Outcome.foldlM_append, ih fun i hi => h i (by omega), Outcome.bind_ok,
      foldlM_single]
    obtain ⟨nx, ny, hsz, hp⟩ := h n (by omega)
    unfold legacyStep
    rw [Outcome.idx_of_getElem? hsz.1, Outcome.bind_ok, Outcome.idx_of_getElem? hsz.2, Outcome.bind_ok,
      create_ok hp, Outcome.bind_ok]
    have hpat : ∀ k, k = before xs ys n → patternOf xs ys (before xs ys) (countOf xs ys) n =
        ⟨nx.toNat, ny.toNat, List.range' k (markers nx ny)⟩ := by
      rintro _ rfl
      simp [patternOf, countOf, hsz.1, hsz.2]
    rcases n with _ | k
    · rw [if_neg (by simp)]
      simp only [Outcome.pure_eq, Outcome.bind_ok, List.range_zero, List.map_nil, List.nil_append,
        List.map_cons, Outcome.ok.injEq, Prod.mk.injEq]
      refine ⟨?_, by simp [before]⟩
      rw [hpat 0 (by simp [before]), List.range_eq_range']
    · rw [if_pos (by simp)]
      obtain ⟨nx', ny', hsz', _⟩ := h k (by omega)
      have hprev : ((List.range (k + 1)).map (patternOf xs ys (before xs ys) (countOf xs ys)))[k]? =
          some (patternOf xs ys (before xs ys) (countOf xs ys) k) := by
        simp
      simp only [Nat.add_sub_cancel, hprev, Outcome.deref_some, Outcome.bind_ok, Outcome.pure_eq, Outcome.ok.injEq, Prod.mk.injEq,
        Nat.add_sub_cancel]
      have hb : (patternOf xs ys (before xs ys) (countOf xs ys) k).ids.length + before xs ys k =
          before xs ys (k + 1) := by
        rw [before_succ hsz']
        simp [patternOf, countOf, hsz'.1, hsz'.2, Nat.add_comm]
      rw [hb]
      refine ⟨?_, rfl⟩
      rw [List.map_append, List.map_cons, List.map_nil, hpat _ rfl, range_shift]

theorem modern_fold (checks : Bool) (n : Nat) (h : Sizes xs ys s m n)
    (hc : checks = true → ∀ i < n, countOf xs ys i = countOf xs ys 0) :
    Outcome.foldlM (modernStep checks xs ys s m) ([], 0) (List.range n) =
      .ok ((List.range n).map (patternOf xs ys (fun i => i * countOf xs ys 0) fun _ => countOf xs ys 0),
        (n - 1) * countOf xs ys 0) := by
  induction n with
  | zero => simp
  | succ n ih =>
    rw [List.range_succ, Outcome.foldlM_append, ih (fun i hi => h i (by omega))
      fun hk i hi => hc hk i (by omega), Outcome.bind_ok, foldlM_single]
    obtain ⟨nx, ny, hsz, hp⟩ := h n (by omega)
    unfold modernStep
    rcases n with _ | k
    · rw [if_pos rfl, Outcome.idx_of_getElem? hsz.1, Outcome.bind_ok, Outcome.idx_of_getElem? hsz.2,
        Outcome.bind_ok, create_ok hp, Outcome.bind_ok]
      simp [patternOf, countOf, hsz.1, hsz.2, List.range_eq_range']
    · rw [if_neg (by simp)]
      have hprev : ((List.range (k + 1)).map (patternOf xs ys (fun i => i * countOf xs ys 0)
          fun _ => countOf xs ys 0))[k]? =
          some (patternOf xs ys (fun i => i * countOf xs ys 0) (fun _ => countOf xs ys 0) k) := by
        simp
      simp only [Nat.add_sub_cancel, hprev, Outcome.deref_some, Outcome.bind_ok, Outcome.idx_of_getElem? hsz.1,
        Outcome.idx_of_getElem? hsz.2, Nat.add_sub_cancel]
      have hl : (patternOf xs ys (fun i => i * countOf xs ys 0) (fun _ => countOf xs ys 0) k).ids.length =
          countOf xs ys 0 := by simp [patternOf]
      rw [hl, range_shift]
      unfold createIds
      rw [if_pos ((goodSize_iff _ _ _ _).2 hp), if_neg]
      · simp only [Outcome.bind_ok, Outcome.pure_eq, Outcome.ok.injEq, Prod.mk.injEq, List.map_append,
          List.map_cons, List.map_nil, List.append_cancel_left_eq, List.cons.injEq, and_true]
        refine ⟨?_, by ring⟩
        simp only [patternOf, hsz.1, hsz.2, Option.getD_some, Pattern.mk.injEq, true_and]
        congr 1
        ring
      · rintro ⟨hk, hne⟩
        have := hc hk (k + 1) (by omega)
        rw [countOf, hsz.1, hsz.2] at this
        simp only [Option.getD_some] at this
        rw [List.length_range', markerCount_eq] at hne
        exact hne this.symm

theorem step_sizes (v : Version) {st st' : List Pattern × Nat} {i : Nat}
    (h : step v xs ys s m st i = .ok st') : ∃ nx ny, Size xs ys i nx ny ∧ Possible nx ny s m := by
  cases v with
  | legacy =>
    unfold step legacyStep at h
    obtain ⟨nx, h1, h⟩ := Outcome.bind_eq_ok.1 h
    obtain ⟨ny, h2, h⟩ := Outcome.bind_eq_ok.1 h
    obtain ⟨c, h3, h⟩ := Outcome.bind_eq_ok.1 h
    refine ⟨nx, ny, ⟨Outcome.idx_ok_iff.1 h1, Outcome.idx_ok_iff.1 h2⟩, ?_⟩
    unfold create at h3
    split at h3
    · rename_i hg
      exact (goodSize_iff _ _ _ _).1 hg
    · cases h3
  | modern checks =>
    change modernStep checks xs ys s m st i = .ok st' at h
    unfold modernStep at h
    split at h
    · obtain ⟨nx, h1, h⟩ := Outcome.bind_eq_ok.1 h
      obtain ⟨ny, h2, h⟩ := Outcome.bind_eq_ok.1 h
      obtain ⟨c, h3, h⟩ := Outcome.bind_eq_ok.1 h
      refine ⟨nx, ny, ⟨Outcome.idx_ok_iff.1 h1, Outcome.idx_ok_iff.1 h2⟩, ?_⟩
      unfold create at h3
      split at h3
      · rename_i hg
        exact (goodSize_iff _ _ _ _).1 hg
      · cases h3
    · obtain ⟨prev, _, h⟩ := Outcome.bind_eq_ok.1 h
      obtain ⟨nx, h1, h⟩ := Outcome.bind_eq_ok.1 h
      obtain ⟨ny, h2, h⟩ := Outcome.bind_eq_ok.1 h
      obtain ⟨c, h3, h⟩ := Outcome.bind_eq_ok.1 h
      refine ⟨nx, ny, ⟨Outcome.idx_ok_iff.1 h1, Outcome.idx_ok_iff.1 h2⟩, ?_⟩
      unfold createIds at h3
      split at h3
      · rename_i hg
        exact (goodSize_iff _ _ _ _).1 hg
      · cases h3

theorem fold_prefix {f : σ → Nat → Outcome σ} {a r : σ} {n i : Nat}
    (h : Outcome.foldlM f a (List.range n) = .ok r) (hi : i < n) :
    ∃ b c, Outcome.foldlM f a (List.range i) = .ok b ∧ f b i = .ok c := by
  obtain ⟨k, rfl⟩ := Nat.exists_eq_add_of_lt hi
  rw [show i + k + 1 = i + (1 + k) by omega, List.range_add, Outcome.foldlM_append] at h
  obtain ⟨b, hb, h⟩ := Outcome.bind_eq_ok.1 h
  rw [Nat.add_comm 1 k, List.range_succ_eq_map] at h
  simp only [List.map_cons, Nat.add_zero, Outcome.foldlM_cons] at h
  obtain ⟨c, hc, _⟩ := Outcome.bind_eq_ok.1 h
  exact ⟨b, c, hb, hc⟩

theorem sizes_of_ok (v : Version) {n : Nat} {r : List Pattern × Nat}
    (h : Outcome.foldlM (step v xs ys s m) ([], 0) (List.range n) = .ok r) : Sizes xs ys s m n := by
  intro i hi
  obtain ⟨b, c, _, h2⟩ := fold_prefix h hi
  exact step_sizes v h2

theorem counts_of_ok {n : Nat} {r : List Pattern × Nat}
    (h : Outcome.foldlM (step (.modern true) xs ys s m) ([], 0) (List.range n) = .ok r) :
    ∀ i < n, countOf xs ys i = countOf xs ys 0 := by
  have hs := sizes_of_ok _ h
  intro i
  induction i using Nat.strong_induction_on with
  | _ i ih =>
    intro hi
    rcases i with _ | k
    · rfl
    · obtain ⟨b, c, h1, h2⟩ := fold_prefix h hi
      have hfold := modern_fold true (k + 1) (fun j hj => hs j (by omega))
        fun _ j hj => ih j hj (by omega)
      have h1' : Outcome.foldlM (modernStep true xs ys s m) ([], 0) (List.range (k + 1)) = .ok b := h1
      rw [hfold] at h1'
      simp only [Outcome.ok.injEq] at h1'
      subst h1'
      obtain ⟨nx, ny, hsz, hp⟩ := hs (k + 1) hi
      change modernStep true xs ys s m _ _ = .ok c at h2
      unfold modernStep at h2
      rw [if_neg (by simp)] at h2
      have hprev : ((List.range (k + 1)).map (patternOf xs ys (fun i => i * countOf xs ys 0)
          fun _ => countOf xs ys 0))[k]? =
          some (patternOf xs ys (fun i => i * countOf xs ys 0) (fun _ => countOf xs ys 0) k) := by
        simp
      simp only [Nat.add_sub_cancel, hprev, Outcome.deref_some, Outcome.bind_ok, Outcome.idx_of_getElem? hsz.1,
        Outcome.idx_of_getElem? hsz.2] at h2
      obtain ⟨p, h3, _⟩ := Outcome.bind_eq_ok.1 h2
      unfold createIds at h3
      rw [if_pos ((goodSize_iff _ _ _ _).2 hp)] at h3
      split at h3
      · cases h3
      · rename_i hne
        simp only [true_and, ne_eq, not_not] at hne
        rw [markerCount_eq] at hne
        simp only [List.length_map, List.length_range, patternOf, List.length_range'] at hne
        rw [countOf, hsz.1, hsz.2]
        exact hne.symm

/-- C42, OpenCV before 4.7: the generation succeeds iff every board has a possible size, and then board
`i` has its size and the ids following those of the boards before it, one per marker. -/
theorem C42_legacy (n : Nat) (ps : List Pattern) :
    createCharucoBoards .legacy n xs ys s m = .ok ps ↔
      (∀ i < n, ∃ nx ny, Size xs ys i nx ny ∧ Possible nx ny s m) ∧ ps.length = n ∧
      ∀ i nx ny, i < n → Size xs ys i nx ny →
        ps[i]? = some ⟨nx.toNat, ny.toNat, List.range' (before xs ys i) (markers nx ny)⟩ := by
  unfold createCharucoBoards
  constructor
  · intro h
    obtain ⟨r, h1, h2⟩ := Outcome.bind_eq_ok.1 h
    have hs := sizes_of_ok _ h1
    have h1' : Outcome.foldlM (legacyStep xs ys s m) ([], 0) (List.range n) = .ok r := h1
    rw [legacy_fold n hs] at h1'
    simp only [Outcome.ok.injEq] at h1'
    subst h1'
    simp only [Outcome.pure_eq, Outcome.ok.injEq] at h2
    subst h2
    refine ⟨hs, by simp, fun i nx ny hi hsz => ?_⟩
    simp [patternOf, countOf, hsz.1, hsz.2, hi]
  · rintro ⟨hs, hl, hps⟩
    have : Outcome.foldlM (step .legacy xs ys s m) ([], 0) (List.range n) = _ := legacy_fold n hs
    rw [this, Outcome.bind_ok, Outcome.pure_eq, Outcome.ok.injEq]
    apply List.ext_getElem?
    intro i
    by_cases hi : i < n
    · obtain ⟨nx, ny, hsz, _⟩ := hs i hi
      rw [hps i nx ny hi hsz]
      simp [patternOf, countOf, hsz.1, hsz.2, hi]
    · rw [List.getElem?_eq_none (by simp; omega), List.getElem?_eq_none (by omega)]

/-- C42, OpenCV 4.7 and later: every board gets as many ids as board 0 has markers.  If OpenCV verifies
the number of ids the generation succeeds iff all sizes are possible and all boards have the same number
of markers; otherwise it succeeds iff all sizes are possible. -/
theorem C42_modern (checks : Bool) (n : Nat) (ps : List Pattern) (nx₀ ny₀ : Int) (h0 : Size xs ys 0 nx₀ ny₀) :
    createCharucoBoards (.modern checks) n xs ys s m = .ok ps ↔
      (∀ i < n, ∃ nx ny, Size xs ys i nx ny ∧ Possible nx ny s m ∧
        (checks = true → markers nx ny = markers nx₀ ny₀)) ∧ ps.length = n ∧
      ∀ i nx ny, i < n → Size xs ys i nx ny →
        ps[i]? = some ⟨nx.toNat, ny.toNat, List.range' (i * markers nx₀ ny₀) (markers nx₀ ny₀)⟩ := by
  have hc0 : countOf xs ys 0 = markers nx₀ ny₀ := by simp [countOf, h0.1, h0.2]
  have key : ∀ {i nx ny}, Size xs ys i nx ny → countOf xs ys i = markers nx ny := by
    intro i nx ny h
    simp [countOf, h.1, h.2]
  unfold createCharucoBoards
  constructor
  · intro h
    obtain ⟨r, h1, h2⟩ := Outcome.bind_eq_ok.1 h
    have hs := sizes_of_ok _ h1
    have hc : checks = true → ∀ i < n, countOf xs ys i = countOf xs ys 0 := by
      rintro rfl
      exact counts_of_ok h1
    have h1' : Outcome.foldlM (modernStep checks xs ys s m) ([], 0) (List.range n) = .ok r := h1
    rw [modern_fold checks n hs hc] at h1'
    simp only [Outcome.ok.injEq] at h1'
    subst h1'
    simp only [Outcome.pure_eq, Outcome.ok.injEq] at h2
    subst h2
    refine ⟨fun i hi => ?_, by simp, fun i nx ny hi hsz => ?_⟩
    · obtain ⟨nx, ny, hsz, hp⟩ := hs i hi
      exact ⟨nx, ny, hsz, hp, fun hk => by rw [← key hsz, ← hc0, hc hk i hi]⟩
    · simp [patternOf, hc0, hsz.1, hsz.2, hi]
  · rintro ⟨hs, hl, hps⟩
    have hs' : Sizes xs ys s m n := fun i hi => by
      obtain ⟨nx, ny, hsz, hp, _⟩ := hs i hi
      exact ⟨nx, ny, hsz, hp⟩
    have hc : checks = true → ∀ i < n, countOf xs ys i = countOf xs ys 0 := by
      intro hk i hi
      obtain ⟨nx, ny, hsz, _, hm⟩ := hs i hi
      rw [key hsz, hc0, hm hk]
    have : Outcome.foldlM (step (.modern checks) xs ys s m) ([], 0) (List.range n) = _ :=
      modern_fold checks n hs' hc
    rw [this, Outcome.bind_ok, Outcome.pure_eq, Outcome.ok.injEq]
    apply List.ext_getElem?
    intro i
    by_cases hi : i < n
    · obtain ⟨nx, ny, hsz, _⟩ := hs i hi
      rw [hps i nx ny hi hsz]
      simp [patternOf, hc0, hsz.1, hsz.2, hi]
    · rw [List.getElem?_eq_none (by simp; omega), List.getElem?_eq_none (by omega)]

theorem flat_range (f g : Nat → Nat) (h0 : f 0 = 0) (hs : ∀ i, f (i + 1) = f i + g i) (n : Nat) :
    (List.range n).flatMap (fun i => List.range' (f i) (g i)) = List.range (f n) := by
  induction n with
  | zero => simp [h0]
  | succ n ih =>
    rw [List.range_succ, List.flatMap_append, ih, hs]
    simp only [List.flatMap_cons, List.flatMap_nil, List.append_nil]
    rw [List.range_eq_range', List.range_eq_range', ← List.range'_append]
    simp

theorem flat_range_lt (f g : Nat → Nat) (h0 : f 0 = 0) (n : Nat) (hs : ∀ i < n, f (i + 1) = f i + g i) :
    (List.range n).flatMap (fun i => List.range' (f i) (g i)) = List.range (f n) := by
  induction n with
  | zero => simp [h0]
  | succ n ih =>
    rw [List.range_succ, List.flatMap_append, ih fun i hi => hs i (by omega), hs n (by omega)]
    simp only [List.flatMap_cons, List.flatMap_nil, List.append_nil]
    rw [List.range_eq_range', List.range_eq_range', ← List.range'_append]
    simp

/-- C42, in one line: read board after board the ids are `0, 1, 2, …`, in every version; so no id is
used twice, within a board or by two boards, and the ids of a board begin where those of the board before
it end. -/
theorem C42_consecutive (v : Version) (n : Nat) (ps : List Pattern)
    (h : createCharucoBoards v n xs ys s m = .ok ps) :
    ∃ total, ps.flatMap (fun p => p.ids) = List.range total := by
  obtain ⟨r, h1, h2⟩ := Outcome.bind_eq_ok.1 h
  have hs := sizes_of_ok _ h1
  simp only [Outcome.pure_eq, Outcome.ok.injEq] at h2
  subst h2
  cases v with
  | legacy =>
    have h1' : Outcome.foldlM (legacyStep xs ys s m) ([], 0) (List.range n) = .ok r := h1
    rw [legacy_fold n hs] at h1'
    simp only [Outcome.ok.injEq] at h1'
    subst h1'
    refine ⟨before xs ys n, ?_⟩
    rw [List.flatMap_map]
    exact flat_range_lt (before xs ys) (countOf xs ys) (by simp [before]) n fun i hi => by
      obtain ⟨nx, ny, hsz, _⟩ := hs i hi
      rw [before_succ hsz]
      simp [countOf, hsz.1, hsz.2]
  | modern checks =>
    have hc : checks = true → ∀ i < n, countOf xs ys i = countOf xs ys 0 := by
      rintro rfl
      exact counts_of_ok h1
    have h1' : Outcome.foldlM (modernStep checks xs ys s m) ([], 0) (List.range n) = .ok r := h1
    rw [modern_fold checks n hs hc] at h1'
    simp only [Outcome.ok.injEq] at h1'
    subst h1'
    refine ⟨n * countOf xs ys 0, ?_⟩
    rw [List.flatMap_map]
    exact flat_range (fun i => i * countOf xs ys 0) (fun _ => countOf xs ys 0) (by simp) (fun i => by ring) n

/-- C42: an id belongs to one board at most. -/
theorem C42_disjoint (v : Version) (n : Nat) (ps : List Pattern)
    (h : createCharucoBoards v n xs ys s m = .ok ps) (i j : Nat) (p q : Pattern)
    (hp : ps[i]? = some p) (hq : ps[j]? = some q) (k : Nat) (hkp : k ∈ p.ids) (hkq : k ∈ q.ids) : i = j := by
  obtain ⟨t, ht⟩ := C42_consecutive v n ps h
  have hnd : (ps.flatMap fun p => p.ids).Nodup := by rw [ht]; exact List.nodup_range
  have hpw := (List.nodup_flatMap.1 hnd).2
  rcases Nat.lt_trichotomy i j with hij | hij | hij
  · obtain ⟨h1, rfl⟩ := List.getElem?_eq_some_iff.1 hp
    obtain ⟨h2, rfl⟩ := List.getElem?_eq_some_iff.1 hq
    exact absurd hkq (List.pairwise_iff_getElem.1 hpw i j h1 h2 hij hkp)
  · exact hij
  · obtain ⟨h1, rfl⟩ := List.getElem?_eq_some_iff.1 hp
    obtain ⟨h2, rfl⟩ := List.getElem?_eq_some_iff.1 hq
    exact absurd hkp (List.pairwise_iff_getElem.1 hpw j i h2 h1 hij hkq)

/-- C42: with OpenCV 4.7 or later and its check, boards of different numbers of markers cannot be
generated. -/
theorem C42_modern_throws (n : Nat) (hs : ∀ i < n, ∃ nx ny, Size xs ys i nx ny ∧ Possible nx ny s m)
    (nx₀ ny₀ nx ny : Int) (i : Nat) (hi : i < n) (h0 : Size xs ys 0 nx₀ ny₀) (hsz : Size xs ys i nx ny)
    (hne : markers nx ny ≠ markers nx₀ ny₀) : createCharucoBoards (.modern true) n xs ys s m = .throw := by
  have key : ∀ {i nx ny}, Size xs ys i nx ny → countOf xs ys i = markers nx ny := by
    intro i nx ny h
    simp [countOf, h.1, h.2]
  -- the first board that differs
  obtain ⟨j, hj, hmin⟩ : ∃ j, (j ≤ i ∧ countOf xs ys j ≠ countOf xs ys 0) ∧
      ∀ k < j, countOf xs ys k = countOf xs ys 0 := by
    have hex : ∃ j, j ≤ i ∧ countOf xs ys j ≠ countOf xs ys 0 := ⟨i, le_refl _, by rw [key hsz, key h0]; exact hne⟩
    classical
    refine ⟨Nat.find hex, Nat.find_spec hex, fun k hk => ?_⟩
    have := Nat.find_min hex hk
    have hle := (Nat.find_spec hex).1
    by_contra hcon
    exact this ⟨by omega, hcon⟩
  have hjn : j < n := by omega
  have hfold := modern_fold true j (fun k hk => hs k (by omega)) (fun _ k hk => hmin k hk)
  obtain ⟨nxj, nyj, hszj, hpj⟩ := hs j hjn
  have hstep : Outcome.foldlM (modernStep true xs ys s m) ([], 0) (List.range (j + 1)) = .throw := by
    rw [List.range_succ, Outcome.foldlM_append, hfold, Outcome.bind_ok, foldlM_single]
    rcases j with _ | k
    · exact absurd rfl hj.2
    · unfold modernStep
      rw [if_neg (by simp)]
      have hprev : ((List.range (k + 1)).map (patternOf xs ys (fun i => i * countOf xs ys 0)
          fun _ => countOf xs ys 0))[k]? =
          some (patternOf xs ys (fun i => i * countOf xs ys 0) (fun _ => countOf xs ys 0) k) := by
        simp
      simp only [Nat.add_sub_cancel, hprev, Outcome.deref_some, Outcome.bind_ok, Outcome.idx_of_getElem? hszj.1,
        Outcome.idx_of_getElem? hszj.2]
      unfold createIds
      rw [if_pos ((goodSize_iff _ _ _ _).2 hpj), if_pos]
      · rfl
      · refine ⟨rfl, ?_⟩
        rw [markerCount_eq]
        simp only [List.length_map, List.length_range, patternOf, List.length_range']
        intro hcon
        apply hj.2
        rw [key hszj]
        exact hcon.symm
  unfold createCharucoBoards
  obtain ⟨k, rfl⟩ := Nat.exists_eq_add_of_lt hjn
  have : Outcome.foldlM (step (.modern true) xs ys s m) ([], 0) (List.range (j + k + 1)) = .throw := by
    rw [show j + k + 1 = (j + 1) + k by omega, List.range_add, Outcome.foldlM_append]
    have e : Outcome.foldlM (step (.modern true) xs ys s m) ([], 0) (List.range (j + 1)) = .throw := hstep
    rw [e]
    rfl
  rw [this]
  rfl

/-- C42: the markers of all boards fit into a dictionary of `d` markers iff the boards have at most `d`
markers altogether (OpenCV before 4.7). -/
theorem C42_dictionary (n d : Nat) (ps : List Pattern)
    (h : createCharucoBoards .legacy n xs ys s m = .ok ps) :
    (∀ p ∈ ps, ∀ k ∈ p.ids, k < d) ↔ before xs ys n ≤ d := by
  obtain ⟨r, h1, h2⟩ := Outcome.bind_eq_ok.1 h
  have hs := sizes_of_ok _ h1
  simp only [Outcome.pure_eq, Outcome.ok.injEq] at h2
  subst h2
  have h1' : Outcome.foldlM (legacyStep xs ys s m) ([], 0) (List.range n) = .ok r := h1
  rw [legacy_fold n hs] at h1'
  simp only [Outcome.ok.injEq] at h1'
  subst h1'
  have hflat : ((List.range n).map (patternOf xs ys (before xs ys) (countOf xs ys))).flatMap (fun p => p.ids) =
      List.range (before xs ys n) := by
    rw [List.flatMap_map]
    exact flat_range_lt (before xs ys) (countOf xs ys) (by simp [before]) n fun i hi => by
      obtain ⟨nx, ny, hsz, _⟩ := hs i hi
      rw [before_succ hsz]
      simp [countOf, hsz.1, hsz.2]
  have hmem : ∀ k, (∃ p ∈ (List.range n).map (patternOf xs ys (before xs ys) (countOf xs ys)), k ∈ p.ids) ↔
      k < before xs ys n := by
    intro k
    rw [← List.mem_range, ← hflat, List.mem_flatMap]
  constructor
  · intro hall
    by_contra hcon
    obtain ⟨p, hp, hk⟩ := (hmem d).2 (by omega)
    exact absurd (hall p hp d hk) (by omega)
  · intro hle p hp k hk
    have := (hmem k).1 ⟨p, hp, hk⟩
    omega

/-- Three boards of different sizes, OpenCV before 4.7. -/
theorem C42_example : createCharucoBoards .legacy 3 [3, 5, 2] [3, 3, 2] (4 / 100) (3 / 100) =
    .ok [⟨3, 3, [0, 1, 2, 3]⟩, ⟨5, 3, [4, 5, 6, 7, 8, 9, 10]⟩, ⟨2, 2, [11, 12]⟩] := by decide +kernel

/-- The same boards with a later version: it throws, or gives all boards four ids. -/
theorem C42_example_modern :
    createCharucoBoards (.modern true) 3 [3, 5, 2] [3, 3, 2] (4 / 100) (3 / 100) = .throw ∧
    createCharucoBoards (.modern false) 3 [3, 5, 2] [3, 3, 2] (4 / 100) (3 / 100) =
      .ok [⟨3, 3, [0, 1, 2, 3]⟩, ⟨5, 3, [4, 5, 6, 7]⟩, ⟨2, 2, [8, 9, 10, 11]⟩] := by decide +kernel

end Verif.Props.Boards
