import Verif.Props.Boards
import Verif.Model.Detection
import Verif.Model.Quaternion
import Mathlib.Algebra.Order.Ring.Rat

/-! C43: the geometry of the boards; C44: the option `quaternion_averaging`; C58: the printed boards. -/
namespace Verif.Props.Config
open Verif.Config Verif.Spec.Boards Verif.Props.Boards

theorem flatMap_get {α : Type} (w : Nat) (g : Nat → Nat → α) (h x y : Nat) (hx : x < w) (hy : y < h) :
    ((List.range h).flatMap fun y => (List.range w).map (g y))[y * w + x]? = some (g y x) := by
  induction h with
  | zero => omega
  | succ h ih =>
    have hlen : ((List.range h).flatMap fun y => (List.range w).map (g y)).length = h * w := by
      simp [List.length_flatMap]
    rw [List.range_succ, List.flatMap_append]
    by_cases hyh : y < h
    · rw [List.getElem?_append_left]
      · exact ih hyh
      · rw [hlen]
        calc y * w + x < y * w + w := by omega
          _ = (y + 1) * w := by ring
          _ ≤ h * w := Nat.mul_le_mul_right _ (by omega)
    · have : y = h := by omega
      subst this
      rw [List.getElem?_append_right (by rw [hlen]; omega), hlen]
      simp [hx]

/-- C43: the points of a board are the inner corners of its grid. -/
theorem C43_grid (f : File) (b : Nat) (p : Pattern) (B : Board) (h : board f b p = .ok B) :
    Grid B.nx B.ny B.square B.pts := by
  obtain ⟨⟨nx, ny, s⟩, _, h2⟩ := Outcome.bind_eq_ok.1 h
  simp only [Outcome.pure_eq, Outcome.ok.injEq] at h2
  subst h2
  constructor
  · simp [gridPoints, corners, List.length_flatMap, Nat.mul_comm]
  · intro x y hx hy
    exact flatMap_get _ (fun y x => ((x : Rat) * s, (y : Rat) * s, (0 : Rat))) _ x y hx hy

theorem grid_get {nx ny : Int} {s : Rat} {pts : List (Rat × Rat × Rat)} (h : Grid nx ny s pts) (k : Nat)
    (hk : k < pts.length) : 0 < (nx - 1).toNat ∧ k % (nx - 1).toNat < (nx - 1).toNat ∧
      k / (nx - 1).toNat < (ny - 1).toNat ∧
      pts[k]? = some (((k % (nx - 1).toNat : Nat) : Rat) * s, ((k / (nx - 1).toNat : Nat) : Rat) * s, 0) := by
  rw [h.count, corners] at hk
  have hw : 0 < (nx - 1).toNat := by
    rcases Nat.eq_zero_or_pos (nx - 1).toNat with h0 | h0
    · rw [h0] at hk; omega
    · exact h0
  have h1 := Nat.mod_lt k hw
  have h2 : k / (nx - 1).toNat < (ny - 1).toNat := Nat.div_lt_of_lt_mul hk
  refine ⟨hw, h1, h2, ?_⟩
  have := h.point _ _ h1 h2
  rwa [Nat.mul_comm, Nat.div_add_mod] at this

/-- C43: the points of a grid are distinct if the squares have a size. -/
theorem C43_distinct (nx ny : Int) (s : Rat) (hs : s ≠ 0) (pts : List (Rat × Rat × Rat))
    (h : Grid nx ny s pts) : pts.Nodup := by
  rw [List.nodup_iff_injective_getElem]
  rintro ⟨i, hi⟩ ⟨j, hj⟩ hij
  obtain ⟨_, _, _, h1⟩ := grid_get h i hi
  obtain ⟨hw, _, _, h2⟩ := grid_get h j hj
  simp only at hij
  rw [List.getElem?_eq_getElem hi] at h1
  rw [List.getElem?_eq_getElem hj, ← hij, h1] at h2
  simp only [Option.some.injEq, Prod.mk.injEq, and_true] at h2
  have e1 := mul_right_cancel₀ hs h2.1
  have e2 := mul_right_cancel₀ hs h2.2
  have e1' : i % (nx - 1).toNat = j % (nx - 1).toNat := by exact_mod_cast e1
  have e2' : i / (nx - 1).toNat = j / (nx - 1).toNat := by exact_mod_cast e2
  apply Fin.ext
  simp only
  rw [← Nat.div_add_mod i (nx - 1).toNat, ← Nat.div_add_mod j (nx - 1).toNat, e1', e2']

/-- C43: the recorded number of points is the number of points. -/
theorem C43_number (f : File) (b : Nat) (p : Pattern) (B : Board) (h : board f b p = .ok B)
    (hx : 0 < B.nx) (hy : 0 < B.ny) (hsmall : B.nx * B.ny < 2 ^ 32) : B.nbPts = B.pts.length := by
  have hg := C43_grid f b p B h
  rw [hg.count]
  obtain ⟨⟨nx, ny, s⟩, _, h2⟩ := Outcome.bind_eq_ok.1 h
  simp only [Outcome.pure_eq, Outcome.ok.injEq] at h2
  subst h2
  simp only at hx hy hsmall ⊢
  have h1 : 0 ≤ (nx - 1) * (ny - 1) := Int.mul_nonneg (by omega) (by omega)
  have h2 : (nx - 1) * (ny - 1) < 2 ^ 32 := by nlinarith
  rw [Int.emod_eq_of_lt h1 h2, corners, Int.toNat_mul (by omega) (by omega)]

/-! ### The constructor -/

/-- A board of a successful set up: its index, its pattern, its size. -/
structure Made (f : File) (xs ys : List Int) (b : Nat) (B : Board) : Prop where
  index : ∃ i : Nat, (boardIndexes f)[b]? = some (i : Int) ∧
    ∃ nx ny, Size xs ys i nx ny ∧ 1 < nx ∧ 1 < ny ∧ B.pattern.nx = nx.toNat ∧ B.pattern.ny = ny.toNat
  size : boardSize f b = .ok (B.nx, B.ny, B.square)
  made : board f b B.pattern = .ok B

theorem forall₂_get {R : α → β → Prop} {l : List α} {l' : List β} (h : List.Forall₂ R l l') :
    l.length = l'.length ∧ ∀ (i : Nat) a b, l[i]? = some a → l'[i]? = some b → R a b := by
  induction h with
  | nil => simp
  | cons hr _ ih =>
    refine ⟨by simp [ih.1], fun i a b ha hb => ?_⟩
    rcases i with _ | i
    · simp only [List.getElem?_cons_zero, Option.some.injEq] at ha hb
      subst ha hb
      exact hr
    · exact ih.2 i a b (by simpa using ha) (by simpa using hb)

/-- The patterns have the sizes given, whatever the version. -/
theorem pattern_size {xs ys : List Int} {s m : Rat} (v : Version) {n : Nat} {ps : List Pattern}
    (h : createCharucoBoards v n xs ys s m = .ok ps) :
    ps.length = n ∧ ∀ i p, ps[i]? = some p → ∃ nx ny, Size xs ys i nx ny ∧ Possible nx ny s m ∧
      p.nx = nx.toNat ∧ p.ny = ny.toNat := by
  cases v with
  | legacy =>
    obtain ⟨h1, h2, h3⟩ := (C42_legacy n ps).1 h
    refine ⟨h2, fun i p hp => ?_⟩
    have hi : i < n := by
      rw [← h2]
      exact (List.getElem?_eq_some_iff.1 hp).1
    obtain ⟨nx, ny, hsz, hpo⟩ := h1 i hi
    rw [h3 i nx ny hi hsz] at hp
    simp only [Option.some.injEq] at hp
    subst hp
    exact ⟨nx, ny, hsz, hpo, rfl, rfl⟩
  | modern checks =>
    rcases n with _ | n
    · have : ps = [] := by
        simp [createCharucoBoards] at h
        exact h
      subst this
      simp
    · obtain ⟨r, hr, _⟩ := Outcome.bind_eq_ok.1 h
      obtain ⟨nx₀, ny₀, h0, _⟩ := sizes_of_ok _ hr 0 (by omega)
      obtain ⟨h1, h2, h3⟩ := (C42_modern checks (n + 1) ps nx₀ ny₀ h0).1 h
      refine ⟨h2, fun i p hp => ?_⟩
      have hi : i < n + 1 := by
        rw [← h2]
        exact (List.getElem?_eq_some_iff.1 hp).1
      obtain ⟨nx, ny, hsz, hpo, _⟩ := h1 i hi
      rw [h3 i nx ny hi hsz] at hp
      simp only [Option.some.injEq] at hp
      subst hp
      exact ⟨nx, ny, hsz, hpo, rfl, rfl⟩

theorem setup_boards {v : Version} {f : File} {st : Setup} (h : calibration v f = .ok st) :
    0 < int f "number_camera" ∧ 0 < int f "number_board" ∧
    ∃ xs ys, squares f = .ok (xs, ys) ∧ ∃ ps,
      createCharucoBoards v ((maxBoardIndex f + 1) % 2 ^ 32).toNat xs ys
        (real f "length_square") (real f "length_marker") = .ok ps ∧
      st.boards.length = boardCount f ∧
      (∀ b B, st.boards[b]? = some B → Made f xs ys b B ∧
        ∃ i : Nat, (boardIndexes f)[b]? = some (i : Int) ∧ ps[i]? = some B.pattern) ∧
      st.quaternionAveraging = bool f "quaternion_averaging:" ∧
      (∀ c < (int f "number_camera").toNat, ∃ m, (distortions f)[c]? = some m ∧ st.models[c]? = some m) ∧
      st.models.length = (int f "number_camera").toNat := by
  unfold calibration at h
  split at h
  · cases h
  rename_i hcam
  split at h
  · cases h
  rename_i hboard
  obtain ⟨⟨xs, ys⟩, h1, h⟩ := Outcome.bind_eq_ok.1 h
  obtain ⟨models, h2, h⟩ := Outcome.bind_eq_ok.1 h
  obtain ⟨ps, h3, h⟩ := Outcome.bind_eq_ok.1 h
  obtain ⟨boards, h4, h⟩ := Outcome.bind_eq_ok.1 h
  simp only [Outcome.pure_eq, Outcome.ok.injEq] at h
  subst h
  refine ⟨by omega, by omega, xs, ys, h1, ps, h3, ?_⟩
  obtain ⟨ys', hb1, hb2⟩ := Verif.Lemmas.Collect.foldlM_append_inv (f := boardStep f ps)
    (v := fun b => do
      let i ← Outcome.idx (boardIndexes f) b
      let p ← patternAt ps i
      board f b p)
    (fun acc b => by
      unfold boardStep
      cases Outcome.idx (boardIndexes f) b with
      | ok i =>
        simp only [Outcome.bind_ok]
        cases patternAt ps i <;> rfl
      | _ => rfl) h4
  simp only [List.nil_append] at hb1
  subst hb1
  obtain ⟨hl, hget⟩ := forall₂_get hb2
  obtain ⟨ms', hm1, hm2⟩ := Verif.Lemmas.Collect.foldlM_append_inv (f := cameraStep f)
    (v := fun i => Outcome.idx (distortions f) i) (fun acc i => by unfold cameraStep; rfl) h2
  simp only [List.nil_append] at hm1
  subst hm1
  obtain ⟨hml, hmget⟩ := forall₂_get hm2
  refine ⟨by simpa using hl.symm, fun b B hB => ?_, rfl, fun c hc => ?_, by simpa using hml.symm⟩
  · have hb : b < boardCount f := by
      have := (List.getElem?_eq_some_iff.1 hB).1
      rw [← hl] at this
      simpa using this
    have := hget b b B (by simp [hb]) hB
    obtain ⟨i, hi, this⟩ := Outcome.bind_eq_ok.1 this
    obtain ⟨p, hp, this⟩ := Outcome.bind_eq_ok.1 this
    unfold patternAt at hp
    split at hp
    · cases hp
    rename_i hi0
    have hp' : ps[i.toNat]? = some p := by
      unfold Outcome.at! at hp
      split at hp
      · rename_i e
        rw [e]
        simpa using hp
      · cases hp
    have hidx : (boardIndexes f)[b]? = some ((i.toNat : Nat) : Int) := by
      rw [Int.toNat_of_nonneg (by omega)]
      exact Outcome.idx_ok_iff.1 hi
    obtain ⟨nx, ny, hsz, hpo, e1, e2⟩ := (pattern_size v h3).2 _ _ hp'
    have hB := this
    obtain ⟨⟨bx, byy, bs⟩, hsize, this⟩ := Outcome.bind_eq_ok.1 this
    simp only [Outcome.pure_eq, Outcome.ok.injEq] at this
    subst this
    exact ⟨⟨⟨i.toNat, hidx, nx, ny, hsz, hpo.1, hpo.2.1, e1, e2⟩, hsize, hB⟩, i.toNat, hidx, hp'⟩
  · have hc' : c < models.length := by rw [← hml]; simpa using hc
    have := hmget c c _ (by simp [hc]) (List.getElem?_eq_getElem hc')
    exact ⟨_, Outcome.idx_ok_iff.1 this, List.getElem?_eq_getElem hc'⟩

/-- C43: if per-board square sizes and per-board numbers of squares are both given or both absent, then
every board of a successful set up has the size of its pattern: the corners OpenCV numbers
`0, …, (nx-1)(ny-1)-1` are exactly the points of the board. -/
theorem C43_agree (v : Version) (f : File) (st : Setup) (h : calibration v f = .ok st)
    (hboth : reals f "square_size_per_board" = [] ↔ ints f "number_x_square_per_board" = []) :
    ∀ B ∈ st.boards, B.nx = B.pattern.nx ∧ B.ny = B.pattern.ny ∧
      B.pts.length = (B.pattern.nx - 1) * (B.pattern.ny - 1) ∧ B.nbPts % 2 ^ 32 = B.pts.length % 2 ^ 32 := by
  intro B hB
  obtain ⟨b, hb⟩ := List.mem_iff_getElem?.1 hB
  obtain ⟨_, _, xs, ys, hsq, ps, _, _, hall, _⟩ := setup_boards h
  obtain ⟨⟨⟨i, hi, nx, ny, hsz, gx, gy, e1, e2⟩, hsize, hmade⟩, _⟩ := hall b B hb
  have hxy : B.nx = nx ∧ B.ny = ny := by
    unfold squares at hsq
    unfold boardSize at hsize
    by_cases hx : ints f "number_x_square_per_board" = []
    · rw [if_pos hx] at hsq
      rw [if_pos (hboth.2 hx)] at hsize
      simp only [Outcome.ok.injEq, Prod.mk.injEq] at hsize
      split at hsq
      · cases hsq
      · simp only [Outcome.ok.injEq, Prod.mk.injEq] at hsq
        obtain ⟨rfl, rfl⟩ := hsq
        have h1 := List.eq_of_mem_replicate (List.mem_of_getElem? hsz.1)
        have h2 := List.eq_of_mem_replicate (List.mem_of_getElem? hsz.2)
        rw [h1, h2]
        exact ⟨hsize.1.symm, hsize.2.1.symm⟩
    · rw [if_neg hx] at hsq
      rw [if_neg fun e => hx (hboth.1 e), Outcome.idx_of_getElem? hi, Outcome.bind_ok] at hsize
      simp only [Outcome.ok.injEq, Prod.mk.injEq] at hsq
      obtain ⟨rfl, rfl⟩ := hsq
      obtain ⟨a, ha, hsize⟩ := Outcome.bind_eq_ok.1 hsize
      obtain ⟨c, hc, hsize⟩ := Outcome.bind_eq_ok.1 hsize
      obtain ⟨d, _, hsize⟩ := Outcome.bind_eq_ok.1 hsize
      simp only [Outcome.pure_eq, Outcome.ok.injEq, Prod.mk.injEq] at hsize
      unfold idxInt at ha hc
      rw [if_neg (by omega)] at ha hc
      have ha' := Outcome.idx_ok_iff.1 ha
      have hc' := Outcome.idx_ok_iff.1 hc
      simp only [Int.toNat_natCast] at ha' hc'
      rw [hsz.1, Option.some.injEq] at ha'
      rw [hsz.2, Option.some.injEq] at hc'
      exact ⟨by rw [← hsize.1, ha'], by rw [← hsize.2.1, hc']⟩
  have hg := C43_grid f b B.pattern B hmade
  have hpts : B.pts.length = (B.pattern.nx - 1) * (B.pattern.ny - 1) := by
    rw [hg.count, corners, hxy.1, hxy.2, e1, e2]
    congr 1 <;> omega
  refine ⟨by rw [hxy.1, e1]; omega, by rw [hxy.2, e2]; omega, hpts, ?_⟩
  rw [hpts, e1, e2]
  obtain ⟨⟨bx, byy, bs⟩, _, h2⟩ := Outcome.bind_eq_ok.1 hmade
  simp only [Outcome.pure_eq, Outcome.ok.injEq] at h2
  have hnb : B.nbPts = ((B.nx - 1) * (B.ny - 1) % 2 ^ 32).toNat := by
    rw [← h2]
  rw [hnb, hxy.1, hxy.2]
  obtain ⟨a, ha⟩ : ∃ a : Nat, nx - 1 = a := ⟨(nx - 1).toNat, by omega⟩
  obtain ⟨c, hc⟩ : ∃ c : Nat, ny - 1 = c := ⟨(ny - 1).toNat, by omega⟩
  rw [ha, hc, show nx.toNat - 1 = a by omega, show ny.toNat - 1 = c by omega]
  have : ((a : Int) * c % 2 ^ 32) = ((a * c % 2 ^ 32 : Nat) : Int) := by push_cast; rfl
  rw [this, Int.toNat_natCast]
  omega

/-- C43: per-board numbers of squares without per-board square sizes: the boards keep the common size,
whatever the size of their patterns. -/
theorem C43_ignored (v : Version) (f : File) (st : Setup) (h : calibration v f = .ok st)
    (hsq : reals f "square_size_per_board" = []) :
    ∀ B ∈ st.boards, B.nx = int f "number_x_square" ∧ B.ny = int f "number_y_square" ∧
      B.square = real f "square_size" ∧
      B.pts.length = corners (int f "number_x_square") (int f "number_y_square") := by
  intro B hB
  obtain ⟨b, hb⟩ := List.mem_iff_getElem?.1 hB
  obtain ⟨_, _, xs, ys, _, ps, _, _, hall, _⟩ := setup_boards h
  obtain ⟨⟨_, hsize, hmade⟩, _⟩ := hall b B hb
  have hg := (C43_grid f b B.pattern B hmade).count
  unfold boardSize at hsize
  rw [if_pos hsq] at hsize
  simp only [Outcome.ok.injEq, Prod.mk.injEq] at hsize
  obtain ⟨h1, h2, h3⟩ := hsize
  exact ⟨h1.symm, h2.symm, h3.symm, by rw [hg, h1, h2]⟩

/-- What the detection uses of a board. -/
def geom (B : Board) : Detection.Geom Rat := ⟨B.nbPts, B.pts.map fun p => (p.1, p.2.1), B.square⟩

theorem boardPts_ub (g : Detection.Geom K) (ids : List Nat) (k : Nat) (hk : k ∈ ids)
    (hout : g.pts.length ≤ k) : Detection.boardPts g ids = .ub := by
  unfold Detection.boardPts
  refine Verif.Lemmas.Collect.foldlM_append_ub (v := fun i => Outcome.idx g.pts i) (fun acc x => rfl) ?_ ?_ []
  · intro x _
    by_cases hx : x < g.pts.length
    · exact .inl ⟨_, Outcome.idx_of_getElem? (List.getElem?_eq_getElem hx)⟩
    · exact .inr (Outcome.idx_ub_iff.2 (by omega))
  · exact ⟨k, hk, Outcome.idx_ub_iff.2 hout⟩

theorem applyRefined_or (ps : List P) (qs : List (Option P)) :
    (∃ r, Detection.applyRefined ps qs = .ok r) ∨ Detection.applyRefined ps qs = .ub := by
  induction ps generalizing qs with
  | nil => exact .inl ⟨_, rfl⟩
  | cons p ps ih =>
    rcases qs with _ | ⟨q, qs⟩
    · exact .inr rfl
    · rcases q with _ | q
      · exact .inl ⟨_, rfl⟩
      · rcases ih qs with ⟨r, hr⟩ | hr
        · exact .inl ⟨_, by rw [Detection.applyRefined, hr]; rfl⟩
        · exact .inr (by rw [Detection.applyRefined, hr]; rfl)

/-- C43: so the detection of a corner whose number is beyond the common size reads out of range. -/
theorem C43_out_of_range (v : Version) (f : File) (st : Setup) (h : calibration v f = .ok st)
    (hsq : reals f "square_size_per_board" = []) (B : Board) (hB : B ∈ st.boards)
    (fitLine : List (Rat × Rat) → Rat × Rat × Rat × Rat) (cfg : Detection.Cfg) (r : Detection.Raw P) (m : Nat)
    (hm : Detection.minCorners cfg B.nbPts = .ok m) (hlen : m < r.corners.length) (k : Nat) (hk : k ∈ r.ids)
    (hout : corners (int f "number_x_square") (int f "number_y_square") ≤ k) :
    Detection.detectBoard fitLine cfg (geom B) r = .ub := by
  have hpts := (C43_ignored v f st h hsq B hB).2.2.2
  unfold Detection.detectBoard
  have hm' : Detection.minCorners cfg (geom B).nbPts = .ok m := hm
  rw [hm', Outcome.bind_ok, if_pos hlen]
  have hub := boardPts_ub (geom B) r.ids k hk (by simpa [geom, hpts] using hout)
  unfold Detection.storedCorners
  split
  · rcases applyRefined_or r.corners r.refined with ⟨x, hx⟩ | hx
    · rw [hx, Outcome.bind_ok, hub]
      rfl
    · rw [hx]
      rfl
  · rw [Outcome.bind_ok, hub]
    rfl

/-- `i` is at most the largest board number of the file: `boards_index`, or `0, 1, ...` if absent. -/
def UpTo (f : File) (i : Nat) : Prop :=
  (ints f "boards_index" = [] ∧ (i : Int) < int f "number_board") ∨ ∃ j ∈ ints f "boards_index", (i : Int) ≤ j

theorem maximum_mem (l : List Int) (h : l ≠ []) : maximum l ∈ l := by
  induction l with
  | nil => exact absurd rfl h
  | cons a l ih =>
    rcases l with _ | ⟨b, l⟩
    · simp [maximum]
    · rw [maximum]
      rcases max_choice a (maximum (b :: l)) with e | e
      · rw [e]; simp
      · rw [e]; exact List.mem_cons_of_mem _ (ih (by simp))

theorem maximum_ge (l : List Int) : ∀ i ∈ l, i ≤ maximum l := by
  induction l with
  | nil => simp
  | cons a l ih =>
    intro i hi
    rcases l with _ | ⟨b, l⟩
    · simp at hi
      simp [maximum, hi]
    · rw [maximum]
      rcases List.mem_cons.1 hi with rfl | hi
      · exact le_max_left _ _
      · exact le_trans (ih i hi) (le_max_right _ _)

theorem upTo_iff (f : File) (hb : 0 < int f "number_board") (i : Nat) : UpTo f i ↔ (i : Int) ≤ maxBoardIndex f := by
  unfold UpTo maxBoardIndex boardCount
  by_cases e : ints f "boards_index" = []
  · simp only [e, ne_eq, not_true_eq_false, if_false, true_and, List.not_mem_nil, false_and, exists_false, or_false]
    omega
  · simp only [e, ne_eq, not_false_eq_true, if_true, false_and, false_or]
    exact ⟨fun ⟨j, hj, hij⟩ => le_trans hij (maximum_ge _ j hj), fun h => ⟨_, maximum_mem _ e, h⟩⟩

theorem upTo_small {f : File} (hb : 0 < int f "number_board") (h : ∀ i, UpTo f i → i + 1 < 2 ^ 32) :
    maxBoardIndex f + 1 < 2 ^ 32 := by
  by_contra hc
  have := h (maxBoardIndex f).toNat ((upTo_iff f hb _).2 (by omega))
  omega

/-- C43: per-board square sizes without per-board numbers of squares: the set up never succeeds; when the
patterns and cameras can be created it reads out of range. -/
theorem C43_missing (v : Version) (f : File) (hsq : reals f "square_size_per_board" ≠ [])
    (hx : ints f "number_x_square_per_board" = []) :
    (∀ st, calibration v f ≠ .ok st) ∧
    (0 < int f "number_camera" → 0 < int f "number_board" → (∀ i ∈ ints f "boards_index", 0 ≤ i) →
      (∃ ms, Outcome.foldlM (cameraStep f) [] (List.range (int f "number_camera").toNat) = .ok ms) →
      Possible (int f "number_x_square") (int f "number_y_square") (real f "length_square")
        (real f "length_marker") → v = .legacy → (∀ i, UpTo f i → i + 1 < 2 ^ 32) → calibration v f = .ub) := by
  have hpos : 0 < int f "number_board" → 0 < boardCount f := by
    intro h
    unfold boardCount
    split
    · rename_i hb
      exact List.length_pos_iff.2 hb
    · omega
  have hsize : ∀ b i, (boardIndexes f)[b]? = some i → boardSize f b = .ub := by
    intro b i hi
    unfold boardSize
    rw [if_neg hsq, Outcome.idx_of_getElem? hi, Outcome.bind_ok, hx]
    have : idxInt ([] : List Int) i = .ub := by
      unfold idxInt
      split
      · rfl
      · rfl
    rw [this]
    rfl
  constructor
  · intro st h
    obtain ⟨_, hb, xs, ys, _, ps, _, hl, hall, _⟩ := setup_boards h
    have h0 : 0 < st.boards.length := by rw [hl]; exact hpos hb
    obtain ⟨⟨⟨i, hi, _⟩, hsz, _⟩, _⟩ := hall 0 _ (List.getElem?_eq_getElem h0)
    rw [hsize 0 i hi] at hsz
    cases hsz
  · rintro hc hb hnn ⟨ms, hms⟩ hpo rfl hsmall
    replace hsmall := upTo_small hb hsmall
    replace hnn : ∀ i ∈ boardIndexes f, 0 ≤ i := by
      intro i hi
      unfold boardIndexes at hi
      split at hi
      · obtain ⟨k, _, rfl⟩ := List.mem_map.1 hi
        omega
      · exact hnn i hi
    have hidx : (boardIndexes f).length = boardCount f := by
      unfold boardIndexes boardCount
      split
      · rename_i e
        rw [if_neg (by simpa using e)]
        simp
      · rfl
    have hmem : ∀ i ∈ boardIndexes f, i ≤ maxBoardIndex f := by
      intro i hi
      unfold boardIndexes at hi
      unfold maxBoardIndex
      split at hi
      · rename_i e
        rw [if_neg (by simpa using e)]
        obtain ⟨k, hk, rfl⟩ := List.mem_map.1 hi
        have : boardCount f = (int f "number_board").toNat := by
          unfold boardCount
          rw [if_neg (by simpa using e)]
        rw [this]
        have := List.mem_range.1 hk
        omega
      · rename_i e
        rw [if_pos e]
        exact maximum_ge _ i hi
    have h0 : 0 < (boardIndexes f).length := by rw [hidx]; exact hpos hb
    have hi0 : (boardIndexes f)[0]? = some (boardIndexes f)[0] := List.getElem?_eq_getElem h0
    have hge := hnn _ (List.getElem_mem h0)
    have hle := hmem _ (List.getElem_mem h0)
    unfold calibration
    rw [if_neg (by omega), if_neg (by omega)]
    have hsqs : squares f = .ok (List.replicate (maxBoardIndex f + 1).toNat (int f "number_x_square"),
        List.replicate (maxBoardIndex f + 1).toNat (int f "number_y_square")) := by
      unfold squares
      rw [if_pos hx, if_neg (by omega)]
    rw [hsqs, Outcome.bind_ok]
    simp only
    rw [hms, Outcome.bind_ok, Int.emod_eq_of_lt (by omega) hsmall]
    have hps := legacy_fold (xs := List.replicate (maxBoardIndex f + 1).toNat (int f "number_x_square"))
      (ys := List.replicate (maxBoardIndex f + 1).toNat (int f "number_y_square"))
      (s := real f "length_square") (m := real f "length_marker") (maxBoardIndex f + 1).toNat
      (fun i hi => ⟨_, _, ⟨by simp [hi], by simp [hi]⟩, hpo⟩)
    have hps' : createCharucoBoards .legacy (maxBoardIndex f + 1).toNat
        (List.replicate (maxBoardIndex f + 1).toNat (int f "number_x_square"))
        (List.replicate (maxBoardIndex f + 1).toNat (int f "number_y_square"))
        (real f "length_square") (real f "length_marker") = .ok ((List.range (maxBoardIndex f + 1).toNat).map
          (patternOf (List.replicate (maxBoardIndex f + 1).toNat (int f "number_x_square"))
            (List.replicate (maxBoardIndex f + 1).toNat (int f "number_y_square"))
            (before (List.replicate (maxBoardIndex f + 1).toNat (int f "number_x_square"))
              (List.replicate (maxBoardIndex f + 1).toNat (int f "number_y_square")))
            (countOf (List.replicate (maxBoardIndex f + 1).toNat (int f "number_x_square"))
              (List.replicate (maxBoardIndex f + 1).toNat (int f "number_y_square"))))) := by
      unfold createCharucoBoards
      exact congrArg (fun o => o >>= fun st : List Pattern × Nat => (pure st.1 : Outcome _)) hps
    rw [hps', Outcome.bind_ok]
    obtain ⟨n, hn⟩ : ∃ n, boardCount f = n + 1 := ⟨boardCount f - 1, by have := hpos hb; omega⟩
    rw [hn, List.range_succ_eq_map, Outcome.foldlM_cons]
    have hstep : ∀ ps : List Pattern, ps.length = (maxBoardIndex f + 1).toNat →
        boardStep f ps [] 0 = .ub := by
      intro ps hps
      unfold boardStep
      rw [Outcome.idx_of_getElem? hi0, Outcome.bind_ok, patternAt, if_neg (by omega)]
      have : Outcome.at! ps ((boardIndexes f)[0]).toNat = .ok (ps[((boardIndexes f)[0]).toNat]'(by omega)) := by
        unfold Outcome.at!
        rw [List.getElem?_eq_getElem (by omega)]
      rw [this, Outcome.bind_ok]
      unfold board
      rw [hsize 0 _ hi0]
      rfl
    rw [hstep _ (by simp)]
    rfl

end Verif.Props.Config
