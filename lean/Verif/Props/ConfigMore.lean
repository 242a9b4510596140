import Verif.Props.Config

/-! C43 (when the set up succeeds), C44: the option `quaternion_averaging`; C58: the printed boards. -/
namespace Verif.Props.Config
open Verif.Config Verif.Spec.Boards Verif.Props.Boards

/-! ### When the set up succeeds -/

theorem index_le (f : File) : ∀ i ∈ boardIndexes f, i ≤ maxBoardIndex f := by
  intro i hi
  unfold boardIndexes at hi
  unfold maxBoardIndex
  split at hi
  · rename_i e
    rw [if_neg (by simpa using e)]
    obtain ⟨k, hk, rfl⟩ := List.mem_map.1 hi
    have : boardCount f = (int f "number_board").toNat := by
      unfold boardCount
      rw [if_neg (by simpa using e)]
    rw [this]
    have := List.mem_range.1 hk
    omega
  · rename_i e
    rw [if_pos e]
    exact maximum_ge _ i hi

theorem index_length (f : File) : (boardIndexes f).length = boardCount f := by
  unfold boardIndexes boardCount
  split
  · rename_i e
    rw [if_neg (by simpa using e)]
    simp
  · rfl

/-- What a usable configuration file contains: numbers of cameras and boards, a distortion model per
camera (or a common one), board numbers that are not negative, and either one size for all boards or,
for every board number up to the largest, a size and a square size. -/
structure Usable (f : File) : Prop where
  cameras : 0 < int f "number_camera"
  boards : 0 < int f "number_board"
  distortion : ints f "distortion_per_camera" = [] ∨
    int f "number_camera" ≤ (ints f "distortion_per_camera").length
  index : ∀ i ∈ ints f "boards_index", 0 ≤ i
  few : ∀ i, UpTo f i → i + 1 < 2 ^ 32
  sizes : (ints f "number_x_square_per_board" = [] ∧ reals f "square_size_per_board" = [] ∧
      Possible (int f "number_x_square") (int f "number_y_square") (real f "length_square") (real f "length_marker")) ∨
    (∀ i : Nat, UpTo f i → ∃ nx ny s,
      Size (ints f "number_x_square_per_board") (ints f "number_y_square_per_board") i nx ny ∧
      (reals f "square_size_per_board")[i]? = some s ∧
      Possible nx ny (real f "length_square") (real f "length_marker"))

/-- C43: with a usable file the set up succeeds (OpenCV before 4.7). -/
theorem C43_succeeds (f : File) (h : Usable f) : ∃ st, calibration .legacy f = .ok st := by
  have up := upTo_iff f h.boards
  have hfew := upTo_small h.boards h.few
  have hnn : ∀ i ∈ boardIndexes f, 0 ≤ i := by
    intro i hi
    unfold boardIndexes at hi
    split at hi
    · obtain ⟨k, _, rfl⟩ := List.mem_map.1 hi
      omega
    · exact h.index i hi
  have hcount : 0 < boardCount f := by
    unfold boardCount
    split
    · rename_i hb
      exact List.length_pos_iff.2 hb
    · have := h.boards; omega
  have hmax : 0 ≤ maxBoardIndex f := by
    have h0 : 0 < (boardIndexes f).length := by rw [index_length]; exact hcount
    exact le_trans (hnn _ (List.getElem_mem h0)) (index_le f _ (List.getElem_mem h0))
  -- cameras
  have hcam : Outcome.foldlM (cameraStep f) [] (List.range (int f "number_camera").toNat) =
      .ok ([] ++ (List.range (int f "number_camera").toNat).map fun c => ((distortions f)[c]?).getD 0) := by
    apply Verif.Lemmas.Collect.foldlM_append_ok
    intro acc c hc
    have hc' := List.mem_range.1 hc
    have hlt : c < (distortions f).length := by
      unfold distortions
      split
      · simpa using hc'
      · rename_i e
        rcases h.distortion with h1 | h1
        · exact absurd h1 e
        · omega
    unfold cameraStep
    rw [Outcome.idx_of_getElem? (List.getElem?_eq_getElem hlt)]
    simp [hlt]
  -- sizes
  obtain ⟨xs, ys, hsq, hs⟩ : ∃ xs ys, squares f = .ok (xs, ys) ∧
      Sizes xs ys (real f "length_square") (real f "length_marker") (maxBoardIndex f + 1).toNat := by
    rcases h.sizes with ⟨h1, _, h3⟩ | h1
    · refine ⟨_, _, by unfold squares; rw [if_pos h1, if_neg (by omega)], fun i hi => ?_⟩
      exact ⟨_, _, ⟨by simp [hi], by simp [hi]⟩, h3⟩
    · have hne : ints f "number_x_square_per_board" ≠ [] := by
        obtain ⟨nx, ny, s, hsz, _⟩ := h1 0 ((up 0).2 (by omega))
        intro e
        have := hsz.1
        rw [e] at this
        simp at this
      refine ⟨_, _, by unfold squares; rw [if_neg hne], fun i hi => ?_⟩
      obtain ⟨nx, ny, s, hsz, _, hp⟩ := h1 i ((up i).2 (by omega))
      exact ⟨nx, ny, hsz, hp⟩
  have hps : ∃ ps, createCharucoBoards .legacy (maxBoardIndex f + 1).toNat xs ys
      (real f "length_square") (real f "length_marker") = .ok ps ∧ ps.length = (maxBoardIndex f + 1).toNat := by
    have e : createCharucoBoards .legacy (maxBoardIndex f + 1).toNat xs ys (real f "length_square")
        (real f "length_marker") = .ok ((List.range (maxBoardIndex f + 1).toNat).map
          (patternOf xs ys (before xs ys) (countOf xs ys))) := by
      unfold createCharucoBoards
      exact congrArg (fun o => o >>= fun st : List Pattern × Nat => (pure st.1 : Outcome _)) (legacy_fold _ hs)
    exact ⟨_, e, by simp⟩
  obtain ⟨ps, hps, hpl⟩ := hps
  -- boards
  have hboard : ∀ b ∈ List.range (boardCount f), ∃ B, ∀ acc, boardStep f ps acc b = .ok (acc ++ [B]) := by
    intro b hb
    have hb' : b < (boardIndexes f).length := by rw [index_length]; exact List.mem_range.1 hb
    have h1 := hnn _ (List.getElem_mem hb')
    have h2 := index_le f _ (List.getElem_mem hb')
    have hsize : ∃ e, boardSize f b = .ok e := by
      unfold boardSize
      rcases h.sizes with ⟨_, h4, _⟩ | h4
      · rw [if_pos h4]
        exact ⟨_, rfl⟩
      · obtain ⟨nx, ny, s, hsz, hsqr, _⟩ := h4 ((boardIndexes f)[b]).toNat ((up _).2 (by omega))
        have hne : reals f "square_size_per_board" ≠ [] := by
          intro e
          rw [e] at hsqr
          simp at hsqr
        rw [if_neg hne, Outcome.idx_of_getElem? (List.getElem?_eq_getElem hb'), Outcome.bind_ok, idxInt, idxInt,
          idxInt, if_neg (by omega), if_neg (by omega), if_neg (by omega), Outcome.idx_of_getElem? hsz.1,
          Outcome.bind_ok, Outcome.idx_of_getElem? hsz.2, Outcome.bind_ok, Outcome.idx_of_getElem? hsqr,
          Outcome.bind_ok]
        exact ⟨_, rfl⟩
    obtain ⟨⟨nx, ny, s⟩, hsize⟩ := hsize
    have hpat : patternAt ps (boardIndexes f)[b] = .ok (ps[((boardIndexes f)[b]).toNat]'(by omega)) := by
      unfold patternAt
      rw [if_neg (by omega)]
      unfold Outcome.at!
      rw [List.getElem?_eq_getElem (by omega)]
    obtain ⟨B, hBd⟩ : ∃ B, board f b (ps[((boardIndexes f)[b]).toNat]'(by omega)) = .ok B := by
      unfold board
      rw [hsize]
      exact ⟨_, rfl⟩
    refine ⟨B, fun acc => ?_⟩
    unfold boardStep
    rw [Outcome.idx_of_getElem? (List.getElem?_eq_getElem hb'), Outcome.bind_ok, hpat, Outcome.bind_ok, hBd,
      Outcome.bind_ok]
    rfl
  have hboards : ∃ bs, Outcome.foldlM (boardStep f ps) [] (List.range (boardCount f)) = .ok bs := by
    have : Nonempty Board := by
      obtain ⟨B, _⟩ := hboard 0 (by simpa using hcount)
      exact ⟨B⟩
    choose! B hB using hboard
    exact ⟨_, Verif.Lemmas.Collect.foldlM_append_ok (v := B) (fun acc b hb => hB b hb acc) []⟩
  obtain ⟨bs, hboards⟩ := hboards
  unfold calibration
  have := h.cameras
  have := h.boards
  rw [if_neg (by omega), if_neg (by omega), hsq, Outcome.bind_ok]
  simp only
  rw [hcam, Outcome.bind_ok, Int.emod_eq_of_lt (by omega) hfew, hps, Outcome.bind_ok, hboards, Outcome.bind_ok]
  exact ⟨_, rfl⟩

/-! ### C44 -/

/-- C44: a key of a YAML file ends at the first colon, so none contains one.  The option is then off in
every calibration, whatever the file says. -/
theorem C44_off (v : Version) (f : File) (hyaml : ∀ k : String, ':' ∈ k.toList → f k = none) (st : Setup)
    (h : calibration v f = .ok st) : st.quaternionAveraging = false := by
  obtain ⟨_, _, xs, ys, _, ps, _, _, _, hq, _⟩ := setup_boards h
  rw [hq]
  unfold Config.bool int
  rw [hyaml "quaternion_averaging:" (by decide)]
  rfl

/-- C44: the key `quaternion_averaging` is never read: files that differ only there are
indistinguishable. -/
theorem C44_not_read (v : Version) (f f' : File) (h : ∀ k, k ≠ "quaternion_averaging" → f k = f' k) :
    calibration v f = calibration v f' := by
  have hi : ∀ k, k ≠ "quaternion_averaging" → int f k = int f' k := fun k hk => by unfold int; rw [h k hk]
  have hl : ∀ k, k ≠ "quaternion_averaging" → ints f k = ints f' k := fun k hk => by unfold ints; rw [h k hk]
  have hr : ∀ k, k ≠ "quaternion_averaging" → real f k = real f' k := fun k hk => by unfold real; rw [h k hk]
  have hs : ∀ k, k ≠ "quaternion_averaging" → reals f k = reals f' k := fun k hk => by unfold reals; rw [h k hk]
  have e1 : boardCount f = boardCount f' := by
    unfold boardCount
    rw [hl _ (by decide), hi _ (by decide)]
  have e2 : maxBoardIndex f = maxBoardIndex f' := by
    unfold maxBoardIndex
    rw [hl _ (by decide), e1]
  have e3 : squares f = squares f' := by
    unfold squares
    rw [hl _ (by decide), hl _ (by decide), e2, hi _ (by decide), hi _ (by decide)]
  have e4 : distortions f = distortions f' := by
    unfold distortions
    rw [hl _ (by decide), hi _ (by decide), hi _ (by decide)]
  have e5 : boardIndexes f = boardIndexes f' := by
    unfold boardIndexes
    rw [hl _ (by decide), hi _ (by decide)]
  have e6 : boardSize f = boardSize f' := by
    funext b
    unfold boardSize
    rw [hs _ (by decide), hi _ (by decide), hi _ (by decide), hr _ (by decide), e5, hl _ (by decide),
      hl _ (by decide)]
  have e7 : cameraStep f = cameraStep f' := by
    funext acc i
    unfold cameraStep
    rw [e4]
  have e8 : boardStep f = boardStep f' := by
    funext ps acc b
    unfold boardStep board
    rw [e5, e6]
  unfold calibration
  rw [e1, e2, e3, e7, e8, hi _ (by decide), hi _ (by decide), hr _ (by decide), hr _ (by decide)]
  unfold Config.bool
  rw [hi _ (by decide)]

/-- C44: so the averages of relative poses are the componentwise medians of the rotation vectors. -/
theorem C44_method (v : Version) (f : File) (hyaml : ∀ k : String, ':' ∈ k.toList → f k = none) (st : Setup)
    (h : calibration v f = .ok st) (ro : Rigid.Rodrigues ℝ) (svd : Rigid.Mat4 ℝ → Quaternion.Quat)
    (rs : List (Rigid.Vec3 ℝ)) :
    Quaternion.getAverageRotation ro svd st.quaternionAveraging rs = ![Average.median (rs.map (· 0)),
      Average.median (rs.map (· 1)), Average.median (rs.map (· 2))] := by
  rw [C44_off v f hyaml st h]
  rfl

/-! ### C58 -/

theorem before_congr {xs ys xs' ys' : List Int} (i : Nat)
    (h : ∀ j < i, ∃ nx ny, Size xs ys j nx ny ∧ Size xs' ys' j nx ny) : before xs ys i = before xs' ys' i := by
  induction i with
  | zero => simp [before]
  | succ i ih =>
    obtain ⟨nx, ny, h1, h2⟩ := h i (by omega)
    rw [before_succ h1, before_succ h2, ih fun j hj => h j (by omega)]

/-- A pattern depends only on the sizes of the boards up to it. -/
theorem pattern_congr (v : Version) {xs ys xs' ys' : List Int} {s m : Rat} {n n' : Nat} {ps ps' : List Pattern}
    (h : createCharucoBoards v n xs ys s m = .ok ps) (h' : createCharucoBoards v n' xs' ys' s m = .ok ps')
    (i : Nat) (hi : i < n) (hi' : i < n')
    (hsame : ∀ j ≤ i, ∃ nx ny, Size xs ys j nx ny ∧ Size xs' ys' j nx ny) : ps[i]? = ps'[i]? := by
  obtain ⟨nx, ny, h1, h2⟩ := hsame i (le_refl _)
  cases v with
  | legacy =>
    rw [((C42_legacy n ps).1 h).2.2 i nx ny hi h1, ((C42_legacy n' ps').1 h').2.2 i nx ny hi' h2,
      before_congr i fun j hj => hsame j (by omega)]
  | modern checks =>
    obtain ⟨a, b, k1, k2⟩ := hsame 0 (by omega)
    rw [((C42_modern checks n ps a b k1).1 h).2.2 i nx ny hi h1,
      ((C42_modern checks n' ps' a b k2).1 h').2.2 i nx ny hi' h2]

/-- C58: if the boards are printed and the calibration is run with the same file and version of OpenCV,
then a board of the calibration with number `i` below the number of printed boards is looked for with
exactly the pattern of the printed board number `i`: same size, same marker ids.  The file must not give
per-board heights without per-board widths. -/
theorem C58_printed (v : Version) (f : File) (images : List (Pattern × Int × Int)) (st : Setup)
    (hp : printBoards v f = .ok images) (hc : calibration v f = .ok st)
    (hxy : ints f "number_x_square_per_board" = [] → ints f "number_y_square_per_board" = [])
    (b : Nat) (B : Board) (i : Nat) (hB : st.boards[b]? = some B)
    (hi : (boardIndexes f)[b]? = some (i : Int)) (hlt : (i : Int) < int f "number_board") :
    ∃ w h, images[i]? = some (B.pattern, w, h) := by
  unfold printBoards at hp
  split at hp
  · cases hp
  rename_i hnb
  obtain ⟨ps', hps', hp⟩ := Outcome.bind_eq_ok.1 hp
  obtain ⟨_, _, xs, ys, hsq, ps, hps, _, hall, _⟩ := setup_boards hc
  obtain ⟨_, i', hi', hpat⟩ := hall b B hB
  rw [hi, Option.some.injEq] at hi'
  have : i' = i := by exact_mod_cast hi'.symm
  subst this
  obtain ⟨hl, hsz⟩ := pattern_size v hps
  obtain ⟨hl', hsz'⟩ := pattern_size v hps'
  have hi1 : i' < ((maxBoardIndex f + 1) % 2 ^ 32).toNat := by
    rw [← hl]
    exact (List.getElem?_eq_some_iff.1 hpat).1
  have hi2 : i' < (int f "number_board").toNat := by omega
  have hsame : ∀ j ≤ i', ∃ nx ny, Size xs ys j nx ny ∧ Size (printedSizes f).1.1 (printedSizes f).1.2 j nx ny := by
    intro j hj
    have hj1 : j < ps.length := by omega
    obtain ⟨nx, ny, k1, _⟩ := hsz j _ (List.getElem?_eq_getElem hj1)
    refine ⟨nx, ny, k1, ?_⟩
    unfold squares at hsq
    by_cases hx : ints f "number_x_square_per_board" = []
    · rw [if_pos hx] at hsq
      split at hsq
      · cases hsq
      simp only [Outcome.ok.injEq, Prod.mk.injEq] at hsq
      obtain ⟨rfl, rfl⟩ := hsq
      have e1 := List.eq_of_mem_replicate (List.mem_of_getElem? k1.1)
      have e2 := List.eq_of_mem_replicate (List.mem_of_getElem? k1.2)
      by_cases hs : reals f "square_size_per_board" = []
      · unfold Size printedSizes
        simp only [hs, hx, hxy hx, if_true, List.nil_append]
        rw [e1, e2]
        constructor <;> rw [List.getElem?_replicate, if_pos (by omega)]
      · exfalso
        have hj2 : 0 < ps'.length := by omega
        obtain ⟨_, _, k2, _⟩ := hsz' 0 _ (List.getElem?_eq_getElem hj2)
        have := k2.1
        unfold printedSizes at this
        simp [hs, hx] at this
    · rw [if_neg hx] at hsq
      simp only [Outcome.ok.injEq, Prod.mk.injEq] at hsq
      obtain ⟨rfl, rfl⟩ := hsq
      unfold Size printedSizes
      simp only
      have hj2 := (List.getElem?_eq_some_iff.1 k1.1).1
      have hj3 := (List.getElem?_eq_some_iff.1 k1.2).1
      split
      · rw [List.getElem?_append_left hj2, List.getElem?_append_left hj3]
        exact k1
      · exact k1
  have heq := pattern_congr v hps hps' i' hi1 hi2 hsame
  rw [hpat] at heq
  obtain ⟨ims, him, hims⟩ := Verif.Lemmas.Collect.foldlM_append_inv
    (f := drawStep (printedSizes f).2.1 (printedSizes f).2.2)
    (v := fun e => do
      let w ← Outcome.idx (printedSizes f).2.1 e.2
      let h ← Outcome.idx (printedSizes f).2.2 e.2
      pure (e.1, w, h))
    (fun acc e => by
      unfold drawStep
      cases Outcome.idx (printedSizes f).2.1 e.2 with
      | ok w => simp only [Outcome.bind_ok]; cases Outcome.idx (printedSizes f).2.2 e.2 <;> rfl
      | _ => rfl) hp
  simp only [List.nil_append] at him
  subst him
  obtain ⟨hll, hget⟩ := forall₂_get hims
  have hlt' : i' < images.length := by
    rw [← hll]
    simp
    omega
  have := hget i' (B.pattern, i') images[i'] (by
    rw [List.getElem?_zipIdx, ← heq]
    simp) (List.getElem?_eq_getElem hlt')
  obtain ⟨w, _, this⟩ := Outcome.bind_eq_ok.1 this
  obtain ⟨h, _, this⟩ := Outcome.bind_eq_ok.1 this
  simp only [Outcome.pure_eq, Outcome.ok.injEq] at this
  exact ⟨w, h, by rw [List.getElem?_eq_getElem hlt', this]⟩

/-! ### Examples -/

/-- A file of two cameras and three boards of which two are used. -/
def demo : File := fun k =>
  if k = "number_camera" then some (.int 2)
  else if k = "number_board" then some (.int 3)
  else if k = "boards_index" then some (.ints [2, 0])
  else if k = "number_x_square" then some (.int 3)
  else if k = "number_y_square" then some (.int 4)
  else if k = "length_square" then some (.real (4 / 100))
  else if k = "length_marker" then some (.real (3 / 100))
  else if k = "square_size" then some (.real (1 / 5))
  else if k = "quaternion_averaging" then some (.int 1)
  else none

/-- What the example sets up. -/
def demoSetup : Setup := match calibration .legacy demo with
  | .ok st => st
  | _ => ⟨[], true, []⟩

/-- The boards of the example. -/
theorem C43_example : calibration .legacy demo = .ok demoSetup ∧ demoSetup.models = [0, 0] ∧
    demoSetup.quaternionAveraging = false ∧ (demoSetup.boards.map fun B => (B.nx, B.nbPts)) = [(3, 6), (3, 6)] ∧
    (demoSetup.boards.map fun B => B.pts.take 3) =
      [[(0, 0, 0), (1 / 5, 0, 0), (0, 1 / 5, 0)], [(0, 0, 0), (1 / 5, 0, 0), (0, 1 / 5, 0)]] ∧
    (demoSetup.boards.map fun B => B.pattern.ids) = [[12, 13, 14, 15, 16, 17], [0, 1, 2, 3, 4, 5]] := by
  refine ⟨?_, ?_, ?_, ?_, ?_, ?_⟩ <;> decide +kernel

/-- It prints three boards. -/
theorem C58_example : (match printBoards .legacy demo with
    | .ok l => l.map fun e => e.1.ids
    | _ => []) = [[0, 1, 2, 3, 4, 5], [6, 7, 8, 9, 10, 11], [12, 13, 14, 15, 16, 17]] := by decide +kernel

/-- The example with one key changed. -/
def with' (k : String) (v : Value) : File := fun k' => if k' = k then some v else demo k'

/-- Square sizes without numbers of squares: undefined behaviour; numbers of squares without square sizes:
board 0 has a pattern of 5 by 5 squares but 6 points; the misspelt key would work. -/
theorem C43_example_mismatch :
    calibration .legacy (with' "square_size_per_board" (.reals [1, 1, 1])) = .ub ∧
    (match calibration .legacy (fun k => if k = "number_y_square_per_board" then some (.ints [5, 5, 5]) else
        with' "number_x_square_per_board" (.ints [5, 5, 5]) k) with
      | .ok st => st.boards.map fun B => ((B.pattern.nx, B.pattern.ny), B.pts.length)
      | _ => []) = [((5, 5), 6), ((5, 5), 6)] ∧
    (match calibration .legacy (with' "quaternion_averaging:" (.int 1)) with
      | .ok st => st.quaternionAveraging
      | _ => false) = true := by decide +kernel

theorem C43_demo_usable : Usable demo where
  cameras := by decide
  boards := by decide
  distortion := .inl (by decide)
  index := by decide
  few := by
    intro i h
    have := (upTo_iff demo (by decide) i).1 h
    have : maxBoardIndex demo < 10 := by decide
    omega
  sizes := .inl ⟨by decide, by decide, by decide, by decide, by decide +kernel, by decide +kernel⟩

/-! ### Sizes per board -/

/-- The `i`-th number of a list of numbers in the file. -/
def Entry (f : File) (k : String) (i : Nat) (x : Rat) : Prop :=
  (∃ l : List Rat, f k = some (.reals l) ∧ l[i]? = some x) ∨
  (∃ (l : List Int) (n : Int), f k = some (.ints l) ∧ l[i]? = some n ∧ x = n)

theorem entry_of {f : File} {k : String} {i : Nat} {x : Rat} (h : (reals f k)[i]? = some x) : Entry f k i x := by
  unfold reals at h
  split at h
  · next l hl => exact .inl ⟨l, hl, h⟩
  · next l hl =>
    rw [List.getElem?_map, Option.map_eq_some_iff] at h
    obtain ⟨n, h1, h2⟩ := h
    exact .inr ⟨l, n, hl, h1, h2.symm⟩
  · simp at h

theorem entry_int {f : File} {k : String} {i : Nat} {x : Int} (h : (ints f k)[i]? = some x) : Entry f k i x := by
  unfold ints at h
  split at h
  · next l hl => exact .inr ⟨l, x, hl, h, rfl⟩
  · simp at h

/-- The number by which the sizes of board `b` are looked up. -/
def NumberOf (f : File) (b i : Nat) : Prop :=
  (∃ l, f "boards_index" = some (.ints l) ∧ l[b]? = some (i : Int)) ∨ (ints f "boards_index" = [] ∧ i = b)

/-- C43: where square sizes are given per board, board `b` has the numbers of squares and the square size that the file
gives for its number, as integers or as reals. -/
theorem C43_per_board (v : Version) (f : File) (st : Setup) (h : calibration v f = .ok st)
    (hper : ∃ i x, Entry f "square_size_per_board" i x) (b : Nat) (B : Board) (hB : st.boards[b]? = some B) :
    ∃ i, NumberOf f b i ∧ Entry f "square_size_per_board" i B.square ∧
      Entry f "number_x_square_per_board" i B.nx ∧ Entry f "number_y_square_per_board" i B.ny := by
  obtain ⟨_, _, xs, ys, _, ps, _, _, hall, _⟩ := setup_boards h
  obtain ⟨⟨⟨i, hi, _⟩, hsize, _⟩, _⟩ := hall b B hB
  have hne : reals f "square_size_per_board" ≠ [] := by
    obtain ⟨j, x, ⟨l, h1, h2⟩ | ⟨l, n, h1, h2, _⟩⟩ := hper
    · intro h0
      unfold reals at h0
      rw [h1] at h0
      simp only at h0
      rw [h0] at h2
      cases h2
    · intro h0
      unfold reals at h0
      rw [h1] at h0
      simp only [List.map_eq_nil_iff] at h0
      rw [h0] at h2
      cases h2
  unfold boardSize at hsize
  rw [if_neg hne, Outcome.idx_of_getElem? hi, Outcome.bind_ok] at hsize
  obtain ⟨a, ha, hsize⟩ := Outcome.bind_eq_ok.1 hsize
  obtain ⟨c, hc, hsize⟩ := Outcome.bind_eq_ok.1 hsize
  obtain ⟨d, hd, hsize⟩ := Outcome.bind_eq_ok.1 hsize
  simp only [Outcome.pure_eq, Outcome.ok.injEq, Prod.mk.injEq] at hsize
  obtain ⟨rfl, rfl, rfl⟩ := hsize
  unfold idxInt at ha hc hd
  rw [if_neg (by omega)] at ha hc hd
  refine ⟨i, ?_, entry_of (Outcome.idx_ok_iff.1 hd), entry_int (Outcome.idx_ok_iff.1 ha), entry_int (Outcome.idx_ok_iff.1 hc)⟩
  unfold boardIndexes at hi
  split at hi
  · next h0 =>
    rw [List.getElem?_map, Option.map_eq_some_iff] at hi
    obtain ⟨j, h1, h2⟩ := hi
    have := (List.getElem?_eq_some_iff.1 h1)
    simp only [List.getElem_range, List.length_range] at this
    obtain ⟨_, this⟩ := this
    exact .inr ⟨h0, by omega⟩
  · unfold ints at hi
    split at hi
    · next l hl => exact .inl ⟨l, hl, hi⟩
    · simp at hi

/-- Sizes given per board as integers: board 0 is number 2, board 1 number 0. -/
example : (match calibration .legacy (fun k => if k = "number_y_square_per_board" then some (.ints [6, 5, 4]) else
        if k = "square_size_per_board" then some (.ints [7, 8, 9]) else
        with' "number_x_square_per_board" (.ints [3, 4, 5]) k) with
      | .ok st => st.boards.map fun B => (B.nx, B.ny, B.square)
      | _ => []) = [(5, 4, 9), (3, 6, 7)] := by decide +kernel

/-- The file gives this number under a key; a missing key, or one with something else, gives zero. -/
def Given (f : File) (k : String) (x : Rat) : Prop :=
  (∃ n : Int, f k = some (.int n) ∧ x = n) ∨ (∃ q : Rat, f k = some (.real q) ∧ x = q) ∨
  ((∀ n : Int, f k ≠ some (.int n)) ∧ (∀ q : Rat, f k ≠ some (.real q)) ∧ x = 0)

theorem given_real (f : File) (k : String) : Given f k (real f k) := by
  unfold real
  split
  · next n h => exact .inl ⟨n, h, rfl⟩
  · next q h => exact .inr (.inl ⟨q, h, rfl⟩)
  · next h1 h2 => exact .inr (.inr ⟨h1, h2, rfl⟩)

/-- C43: where no square sizes are given per board, all boards have the square size given for all, zero if there is
none. -/
theorem C43_common (v : Version) (f : File) (st : Setup) (h : calibration v f = .ok st)
    (hper : ¬∃ i x, Entry f "square_size_per_board" i x) (b : Nat) (B : Board) (hB : st.boards[b]? = some B) :
    Given f "square_size" B.square := by
  obtain ⟨_, _, xs, ys, _, ps, _, _, hall, _⟩ := setup_boards h
  obtain ⟨⟨⟨i, hi, _⟩, hsize, _⟩, _⟩ := hall b B hB
  have hne : reals f "square_size_per_board" = [] := by
    by_contra h0
    obtain ⟨x, l, hx⟩ := List.exists_cons_of_ne_nil h0
    exact hper ⟨0, x, entry_of (by rw [hx]; rfl)⟩
  unfold boardSize at hsize
  rw [if_pos hne] at hsize
  simp only [Outcome.ok.injEq, Prod.mk.injEq] at hsize
  rw [← hsize.2.2]
  exact given_real f _

/-- Without any square size the points of a board coincide. -/
example : (match calibration .legacy (fun k => if k = "square_size" then none else with' "number_x_square" (.int 5) k) with
      | .ok st => st.boards.map fun B => B.square
      | _ => []) = [0, 0] := by decide +kernel

end Verif.Props.Config
