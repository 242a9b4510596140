import Verif.Spec.Print
import Verif.Lemmas.DiskSave
import Verif.Props.Folders
import Verif.Props.Start
import Verif.Props.ConfigMore

/-! C88: the program that prints boards. -/
namespace Verif.Props.Print
open Verif.Folders hiding folder
open Verif.Start hiding main
open Verif Verif.Disk Verif.Config Verif.Print Verif.Spec.Print Verif.Spec.Disk Verif.Lemmas.Disk
open Verif.Spec.Boards Verif.Props.Config

variable {C Img : Type}

theorem plain_name (i : Nat) : Plain (boardName i) := by
  refine ⟨by unfold boardName; simp, fun h => ?_⟩
  unfold boardName at h
  rcases List.mem_append.1 h with h | h
  · rcases List.mem_append.1 h with h | h
    · exact absurd h (by decide)
    · exact Images.paddedTo_no_slash 3 i h
  · exact absurd h (by decide)

theorem boardFile_eq (i : Nat) : boardFile i = join "charuco_boards".toList (boardName i) := rfl

theorem plain_folder : Plain "charuco_boards".toList := ⟨by decide, by decide⟩

theorem loc_folder : loc "charuco_boards".toList = folder := by decide

theorem loc_board (i : Nat) : loc (boardFile i) = place i := by
  rw [boardFile_eq, loc_join_plain _ (plain_name i)]
  unfold below
  rw [loc_folder]
  rfl

theorem place_parent (i : Nat) : (place i).parent = folder := rfl

theorem place_inj {i j : Nat} (h : place i = place j) : i = j := by
  unfold place at h
  simp only [Loc.mk.injEq, List.cons.injEq, and_true, true_and] at h
  exact Folders.C50_board_files i j (by rw [boardFile_eq, boardFile_eq, h])

theorem file_board (i : Nat) : filename (boardFile i) ≠ [] := by
  rw [boardFile_eq, filename_plain _ (plain_name i)]
  exact (plain_name i).1

theorem saveBoard_eq (ofImg : Img → C) (d : Disk C) (e : Img × Nat) (h1 : d.dir folder = true) (h2 : d.dir (place e.2) = false) :
    saveBoard ofImg d e = { d with file := fun x => if x = place e.2 then some (ofImg e.1) else d.file x } := by
  unfold saveBoard write
  rw [loc_board, place_parent, if_neg]
  simp [h1, h2, file_board]

/-- The files of the boards are written. -/
theorem saved (ofImg : Img → C) (d : Disk C) (l : List (Img × Nat)) (h1 : d.dir folder = true)
    (h2 : ∀ e ∈ l, d.dir (place e.2) = false) (hnd : (l.map (·.2)).Nodup) :
    (l.foldl (saveBoard ofImg) d).dir = d.dir ∧ (∀ e ∈ l, (l.foldl (saveBoard ofImg) d).file (place e.2) = some (ofImg e.1)) ∧
      ∀ x, (∀ e ∈ l, x ≠ place e.2) → (l.foldl (saveBoard ofImg) d).file x = d.file x := by
  induction l generalizing d with
  | nil => exact ⟨rfl, (fun _ h => nomatch h), fun x _ => rfl⟩
  | cons e l ih =>
    rw [List.map_cons, List.nodup_cons] at hnd
    rw [List.foldl_cons, saveBoard_eq ofImg d e h1 (h2 e (by simp))]
    obtain ⟨q1, q2, q3⟩ := ih { d with file := fun x => if x = place e.2 then some (ofImg e.1) else d.file x } h1
      (fun e' he' => h2 e' (by simp [he'])) hnd.2
    refine ⟨q1, fun e' he' => ?_, fun x hx => ?_⟩
    · rcases List.mem_cons.1 he' with rfl | he'
      · rw [q3 _ fun e'' he'' hp => hnd.1 (List.mem_map.2 ⟨e'', he'', (place_inj hp).symm⟩)]
        exact if_pos rfl
      · exact q2 e' he'
    · rw [q3 x fun e' he' => hx e' (by simp [he'])]
      exact if_neg (hx e (by simp))

theorem has_eq (d : Disk C) (p : Str) (h1 : p ≠ []) (h2 : filename p ≠ []) :
    d.has p = (d.dir (loc p) || (d.file (loc p)).isSome) := by
  unfold Disk.has
  simp [h1, h2]

theorem has_folder (d : Disk C) : d.has "charuco_boards".toList = (d.dir folder || (d.file folder).isSome) := by
  have h2 : filename "charuco_boards".toList ≠ [] := by decide
  have := has_eq d _ plain_folder.1 h2
  rw [loc_folder] at this
  exact this

theorem take_folder (k : Nat) : folder.names.take (k + 1) = folder.names := List.take_of_length_le (Nat.le_add_left 1 k)

theorem create_folder (d : Disk C) (p : Str) (hp : loc p = folder) (hd : Sound d) (hf : d.file folder = none) :
    ∃ d', createDirectories d p = .ok d' ∧ (∀ x, d'.dir x = true ↔ x = folder ∨ d.dir x = true) ∧ d'.file = d.file := by
  have hno : NoFile d (loc p) := by
    intro k
    rw [hp]
    match k with
    | 0 => exact hd.either _ (hd.base _)
    | k + 1 => rw [take_folder]; exact hf
  obtain ⟨d', e1, -, e2, e3⟩ := create_ok d hd _ hno
  refine ⟨d', e1, fun x => ?_, e3⟩
  rw [e2, hp]
  constructor
  · rintro (⟨k, rfl⟩ | h)
    · match k with
      | 0 => exact .inr (hd.base _)
      | k + 1 => left; rw [take_folder]
    · exact .inr h
  · rintro (rfl | h)
    · exact .inl ⟨1, rfl⟩
    · exact .inr h

/-- The directory. -/
theorem makeDir_ok (d : Disk C) (hd : Sound d) (hf : d.file folder = none) :
    ∃ d', makeDir d = .ok d' ∧ (∀ x, d'.dir x = true ↔ x = folder ∨ d.dir x = true) ∧ d'.file = d.file := by
  unfold makeDir
  rw [has_folder, hf]
  cases h : d.dir folder with
  | true => exact ⟨d, rfl, fun x => ⟨Or.inr, fun e => e.elim (fun e => e ▸ h) id⟩, rfl⟩
  | false => exact create_folder d _ loc_folder hd hf

theorem has_file (d : Disk C) (c : C) (hf : d.file folder = some c) : d.has "charuco_boards".toList = true := by
  rw [has_folder, hf]
  exact Bool.or_true _

/-- C88: without exactly one argument that names an existing file or directory `*.yml`, the program returns -1 and touches
nothing; it never returns -1 otherwise. -/
theorem C88_refused (en : Env C Img) (argv : List Str) (d d' : Disk C) :
    main en argv d = .ok (-1, d') ↔ d' = d ∧ ∀ prog p, argv = [prog, p] → available d.has p = false := by
  unfold main
  split
  · next h =>
    simp only [Outcome.ok.injEq, Prod.mk.injEq, true_and]
    constructor
    · rintro rfl
      exact ⟨rfl, fun a b e => absurd (by rw [e]; rfl) h⟩
    · rintro ⟨rfl, -⟩
      rfl
  · next h =>
    rw [not_not] at h
    obtain ⟨a, b, rfl⟩ := List.length_eq_two.1 h
    simp only [List.getElem?_cons_succ, List.getElem?_cons_zero]
    split
    · next hav =>
      constructor
      · intro e
        obtain ⟨x, -, e⟩ := Outcome.bind_eq_ok.1 e
        simp only [Outcome.pure_eq, Outcome.ok.injEq, Prod.mk.injEq] at e
        omega
      · rintro ⟨-, e⟩
        rw [e a b rfl] at hav
        cases hav
    · next hav =>
      simp only [Outcome.ok.injEq, Prod.mk.injEq, true_and]
      constructor
      · rintro rfl
        refine ⟨rfl, fun x y e => ?_⟩
        cases e
        simpa using hav
      · rintro ⟨rfl, -⟩
        rfl

theorem zero_inv {en : Env C Img} {argv : List Str} {d d' : Disk C} {c : Int} (h : main en argv d = .ok (c, d')) (hc : c ≠ -1) :
    c = 0 ∧ ∃ prog p f l ims, argv = [prog, p] ∧ available d.has p = true ∧ en.parse (d.file (loc p)) = .ok f ∧
      printBoards en.version f = .ok l ∧ paint en.draw l = .ok ims ∧ saveBoards en.ofImg ims d = .ok d' := by
  unfold main at h
  split at h
  · simp only [Outcome.ok.injEq, Prod.mk.injEq] at h
    exact absurd h.1.symm hc
  · next hl =>
    rw [not_not] at hl
    obtain ⟨a, b, rfl⟩ := List.length_eq_two.1 hl
    simp only [List.getElem?_cons_succ, List.getElem?_cons_zero] at h
    split at h
    · next hav =>
      obtain ⟨x, h1, h⟩ := Outcome.bind_eq_ok.1 h
      simp only [Outcome.pure_eq, Outcome.ok.injEq, Prod.mk.injEq] at h
      obtain ⟨rfl, rfl⟩ := h
      unfold print at h1
      obtain ⟨f, h2, h1⟩ := Outcome.bind_eq_ok.1 h1
      obtain ⟨l, h3, h1⟩ := Outcome.bind_eq_ok.1 h1
      obtain ⟨ims, h4, h1⟩ := Outcome.bind_eq_ok.1 h1
      exact ⟨rfl, a, b, f, l, ims, rfl, hav, h2, h3, h4, h1⟩
    · simp only [Outcome.ok.injEq, Prod.mk.injEq] at h
      exact absurd h.1.symm hc

theorem fill_get (f : File) (own common : String) (i n : Nat) (hi : i < n) :
    (if reals f "square_size_per_board" = [] then ints f own ++ List.replicate n (int f common) else ints f own)[i]? =
      requested f own common i := by
  unfold requested
  split
  · rw [List.getElem?_append]
    split
    · next h => rw [List.getElem?_eq_getElem h]
    · next h =>
      rw [List.getElem?_eq_none (l := ints f own) (by omega), List.getElem?_replicate, if_pos (by omega)]
  · cases (ints f own)[i]? <;> rfl

/-- What is to be drawn. -/
theorem printed_list {v : Version} {f : File} {l : List (Pattern × Int × Int)} (h : printBoards v f = .ok l) :
    0 < int f "number_board" ∧ l.length = (int f "number_board").toNat ∧ ∀ (i : Nat) p w hh, l[i]? = some (p, w, hh) →
      requested f "number_x_square_per_board" "number_x_square" i = some (p.nx : Int) ∧
      requested f "number_y_square_per_board" "number_y_square" i = some (p.ny : Int) ∧
      requested f "resolution_x_per_board" "resolution_x" i = some w ∧
      requested f "resolution_y_per_board" "resolution_y" i = some hh := by
  unfold printBoards at h
  split at h
  · cases h
  next hn =>
  obtain ⟨ps, hps, h⟩ := Outcome.bind_eq_ok.1 h
  obtain ⟨hl, hsz⟩ := pattern_size v hps
  obtain ⟨ims, him, hims⟩ := Verif.Lemmas.Collect.foldlM_append_inv
    (f := drawStep (printedSizes f).2.1 (printedSizes f).2.2)
    (v := fun e => do
      let w ← Outcome.idx (printedSizes f).2.1 e.2
      let h ← Outcome.idx (printedSizes f).2.2 e.2
      pure (e.1, w, h))
    (fun acc e => by
      unfold drawStep
      cases Outcome.idx (printedSizes f).2.1 e.2 with
      | ok w => simp only [Outcome.bind_ok]; cases Outcome.idx (printedSizes f).2.2 e.2 <;> rfl
      | _ => rfl) h
  rw [List.nil_append] at him
  subst him
  obtain ⟨hll, hget⟩ := forall₂_get hims
  refine ⟨by omega, by rw [← hll, List.length_zipIdx, hl], fun i p w hh hi => ?_⟩
  have hlt : i < ps.length := by
    have := (List.getElem?_eq_some_iff.1 hi).1
    rw [← hll, List.length_zipIdx] at this
    exact this
  have hin : i < (int f "number_board").toNat := by rw [← hl]; exact hlt
  have := hget i (ps[i], i) _ (by rw [List.getElem?_zipIdx, List.getElem?_eq_getElem hlt]; simp) hi
  obtain ⟨w', w1, this⟩ := Outcome.bind_eq_ok.1 this
  obtain ⟨h', h1, this⟩ := Outcome.bind_eq_ok.1 this
  simp only [Outcome.pure_eq, Outcome.ok.injEq, Prod.mk.injEq] at this
  obtain ⟨rfl, rfl, rfl⟩ := this
  obtain ⟨nx, ny, s1, s2, s3, s4⟩ := hsz i _ (List.getElem?_eq_getElem hlt)
  have w2 := Outcome.idx_ok_iff.1 w1
  have h2 := Outcome.idx_ok_iff.1 h1
  unfold Size at s1
  unfold printedSizes at s1 w2 h2
  simp only at s1 w2 h2
  rw [fill_get f _ _ i _ hin] at w2 h2
  rw [fill_get f _ _ i _ hin, fill_get f _ _ i _ hin] at s1
  refine ⟨?_, ?_, w2, h2⟩
  · rw [s1.1, s3]
    congr 1
    have := s2.1
    omega
  · rw [s1.2, s4]
    congr 1
    have := s2.2.1
    omega

theorem paint_get {draw : Pattern → Int → Int → Outcome Img} {l : List (Pattern × Int × Int)} {ims : List Img}
    (h : paint draw l = .ok ims) : ims.length = l.length ∧ ∀ (i : Nat) e im, l[i]? = some e → ims[i]? = some im →
      draw e.1 e.2.1 e.2.2 = .ok im := by
  unfold paint at h
  obtain ⟨ys, hy, hf⟩ := Verif.Lemmas.Collect.foldlM_append_inv (f := paintStep draw)
    (v := fun e : Pattern × Int × Int => draw e.1 e.2.1 e.2.2) (fun acc e => rfl) h
  rw [List.nil_append] at hy
  subst hy
  obtain ⟨h1, h2⟩ := forall₂_get hf
  exact ⟨h1.symm, h2⟩

/-- C88: otherwise, if nothing is in the way, the program returns 0 and has printed the boards: file number `i` is the
drawing of board `i`, with the squares and the size the configuration asks for, for each of the boards, and nothing else is
touched. If something fails, which can only happen before, nothing is written. -/
theorem C88_printed (en : Env C Img) (argv : List Str) (d d' : Disk C) (hd : Sound d) (hfile : d.file folder = none)
    (hplace : ∀ i, d.dir (place i) = false) (c : Int) (h : main en argv d = .ok (c, d')) (hc : c ≠ -1) :
    c = 0 ∧ ∃ prog p f, argv = [prog, p] ∧ en.parse (d.file (loc p)) = .ok f ∧ Printed en.draw en.ofImg f d d' := by
  obtain ⟨rfl, prog, p, f, l, ims, ha, -, h1, h2, h3, h4⟩ := zero_inv h hc
  refine ⟨rfl, prog, p, f, ha, h1, ?_⟩
  obtain ⟨l1, l2, l3⟩ := printed_list h2
  obtain ⟨p1, p2⟩ := paint_get h3
  unfold saveBoards at h4
  obtain ⟨d1, e1, e2, e3⟩ := makeDir_ok d hd hfile
  rw [e1, Outcome.bind_ok] at h4
  simp only [Outcome.pure_eq, Outcome.ok.injEq] at h4
  subst h4
  have hnot : ∀ i, d1.dir (place i) = false := by
    intro i
    rw [Bool.eq_false_iff]
    intro hh
    rcases (e2 _).1 hh with h5 | h5
    · cases h5
    · rw [hplace i] at h5; cases h5
  obtain ⟨q1, q2, q3⟩ := saved en.ofImg d1 ims.zipIdx ((e2 _).2 (.inl rfl)) (fun e _ => hnot e.2) (by
    rw [List.zipIdx_map_snd]
    exact List.nodup_range')
  have hlen : ims.length = (int f "number_board").toNat := by rw [p1, l2]
  refine ⟨fun x => by rw [q1, e2], fun i hi => ?_, fun x hx => ?_⟩
  · have hlt : i < ims.length := by omega
    have hlt' : i < l.length := by omega
    obtain ⟨a1, a2, a3, a4⟩ := l3 i l[i].1 l[i].2.1 l[i].2.2 (List.getElem?_eq_getElem hlt')
    refine ⟨ims[i], ⟨_, _, _, a1, a2, a3, a4, p2 i l[i] ims[i] (List.getElem?_eq_getElem hlt') (List.getElem?_eq_getElem hlt)⟩, ?_⟩
    exact q2 (ims[i], i) (List.mem_iff_getElem?.2 ⟨i, by rw [List.getElem?_zipIdx, List.getElem?_eq_getElem hlt]; simp⟩)
  · rw [q3 x, e3]
    intro e he
    apply hx
    obtain ⟨j, hj⟩ := List.mem_iff_getElem?.1 he
    rw [List.getElem?_zipIdx] at hj
    cases hx : ims[j]? with
    | none => rw [hx] at hj; cases hj
    | some y =>
      rw [hx] at hj
      simp only [Option.map_some, Option.some.injEq, Nat.zero_add] at hj
      have := (List.getElem?_eq_some_iff.1 hx).1
      rw [← hj]
      simp only
      omega

/-- C88: the program ends with 0 whenever the configuration can be read, describes boards and can be drawn: saving does not
fail. -/
theorem C88_ends (en : Env C Img) (prog p : Str) (d : Disk C) (hd : Sound d) (hav : available d.has p = true) (f : File)
    (hf : en.parse (d.file (loc p)) = .ok f) (l : List (Pattern × Int × Int)) (hl : printBoards en.version f = .ok l)
    (hdraw : ∀ e ∈ l, ∃ im, en.draw e.1 e.2.1 e.2.2 = .ok im) : ∃ d', main en [prog, p] d = .ok (0, d') := by
  have hp : ∀ acc, ∃ ims, Outcome.foldlM (paintStep en.draw) acc l = .ok ims := by
    clear hl
    induction l with
    | nil => exact fun acc => ⟨acc, rfl⟩
    | cons e l ih =>
      intro acc
      obtain ⟨im, him⟩ := hdraw e (by simp)
      obtain ⟨ims, h⟩ := ih (fun e' he' => hdraw e' (by simp [he'])) (acc ++ [im])
      refine ⟨ims, ?_⟩
      rw [Outcome.foldlM_cons]
      unfold paintStep
      rw [him]
      exact h
  obtain ⟨ims, h3⟩ := hp []
  have hm : ∃ d1, makeDir d = .ok d1 := by
    cases hx : d.file folder with
    | none =>
      obtain ⟨d1, h, -⟩ := makeDir_ok d hd hx
      exact ⟨d1, h⟩
    | some c =>
      unfold makeDir
      rw [has_file d c hx]
      exact ⟨d, rfl⟩
  obtain ⟨d1, h4⟩ := hm
  refine ⟨ims.zipIdx.foldl (saveBoard en.ofImg) d1, ?_⟩
  unfold main
  rw [if_neg (by simp)]
  simp only [List.getElem?_cons_succ, List.getElem?_cons_zero]
  rw [if_pos hav]
  unfold print paint saveBoards
  rw [hf, Outcome.bind_ok, hl, Outcome.bind_ok, h3, Outcome.bind_ok, h4]
  rfl

/-- C88: if there is a file named `charuco_boards`, nothing is printed, and the program returns 0 all the same. -/
theorem C88_blocked (en : Env C Img) (argv : List Str) (d d' : Disk C) (hd : Sound d) (x : C) (hfile : d.file folder = some x)
    (c : Int) (h : main en argv d = .ok (c, d')) : d' = d := by
  by_cases hc : c = -1
  · subst hc
    exact ((C88_refused en argv d d').1 h).1
  obtain ⟨-, prog, p, f, l, ims, ha, -, h1, h2, h3, h4⟩ := zero_inv h hc
  unfold saveBoards makeDir at h4
  rw [has_file d x hfile] at h4
  simp only [Bool.not_true, Bool.false_eq_true, if_false, Outcome.bind_ok, Outcome.pure_eq, Outcome.ok.injEq] at h4
  have hnd : d.dir folder = false := by
    rw [Bool.eq_false_iff]
    intro hh
    rw [hd.either _ hh] at hfile
    cases hfile
  rw [← h4]
  clear h3 h4
  generalize ims.zipIdx = es
  induction es with
  | nil => rfl
  | cons e es ih =>
    rw [List.foldl_cons]
    have : saveBoard en.ofImg d e = d := by
      unfold saveBoard write
      rw [loc_board, place_parent, hnd]
      simp
    rw [this]
    exact ih

/-- C88: what is printed is what the calibration with the same configuration looks for: the file of board `i` holds a drawing
of the pattern that is looked for. -/
theorem C88_looked_for (en : Env C Img) (argv : List Str) (d d' : Disk C) (hd : Sound d) (hfile : d.file folder = none)
    (hplace : ∀ i, d.dir (place i) = false) (c : Int) (h : main en argv d = .ok (c, d')) (hc : c ≠ -1) :
    ∃ prog p f, argv = [prog, p] ∧ en.parse (d.file (loc p)) = .ok f ∧
      ∀ st, calibration en.version f = .ok st →
        (ints f "number_x_square_per_board" = [] → ints f "number_y_square_per_board" = []) →
        ∀ (b : Nat) (B : Board) (i : Nat), st.boards[b]? = some B → (boardIndexes f)[b]? = some (i : Int) →
          (i : Int) < int f "number_board" → ∃ w hh im, en.draw B.pattern w hh = .ok im ∧ d'.file (place i) = some (en.ofImg im) := by
  obtain ⟨rfl, prog, p, f, l, ims, ha, -, h1, h2, h3, h4⟩ := zero_inv h hc
  refine ⟨prog, p, f, ha, h1, fun st hst hxy b B i hB hi hlt => ?_⟩
  obtain ⟨w, hh, hw⟩ := C58_printed en.version f l st h2 hst hxy b B i hB hi hlt
  obtain ⟨p1, p2⟩ := paint_get h3
  unfold saveBoards at h4
  obtain ⟨d1, e1, e2, e3⟩ := makeDir_ok d hd hfile
  rw [e1, Outcome.bind_ok] at h4
  simp only [Outcome.pure_eq, Outcome.ok.injEq] at h4
  subst h4
  have hnot : ∀ i, d1.dir (place i) = false := by
    intro i
    rw [Bool.eq_false_iff]
    intro hh
    rcases (e2 _).1 hh with h5 | h5
    · cases h5
    · rw [hplace i] at h5; cases h5
  obtain ⟨q1, q2, q3⟩ := saved en.ofImg d1 ims.zipIdx ((e2 _).2 (.inl rfl)) (fun e _ => hnot e.2) (by
    rw [List.zipIdx_map_snd]
    exact List.nodup_range')
  have hlt2 : i < ims.length := by rw [p1]; exact (List.getElem?_eq_some_iff.1 hw).1
  refine ⟨w, hh, ims[i], p2 i _ _ hw (List.getElem?_eq_getElem hlt2), ?_⟩
  exact q2 (ims[i], i) (List.mem_iff_getElem?.2 ⟨i, by rw [List.getElem?_zipIdx, List.getElem?_eq_getElem hlt2]; simp⟩)

/-- The configuration file is none of the files written. -/
theorem config_apart {p : Str} (h : Start.IsYml p) (i : Nat) : loc p ≠ place i := by
  obtain ⟨dir, stem, rfl, h1, h2, h3⟩ := h
  have hplain : Plain (stem ++ ".yml".toList) := by
    refine ⟨by simp, fun hm => ?_⟩
    rcases List.mem_append.1 hm with hm | hm
    · exact h3 hm
    · exact absurd hm (by decide)
  have hlast : (loc (dir ++ stem ++ ".yml".toList)).names.getLast? = some (stem ++ ".yml".toList) := by
    rw [List.append_assoc]
    generalize stem ++ ".yml".toList = b at hplain
    rcases h1 with rfl | h1
    · rw [List.nil_append, names_plain hplain]
      rfl
    · obtain ⟨a, rfl⟩ := List.getLast?_eq_some_iff.1 h1
      unfold loc
      simp only
      rw [List.append_assoc, List.singleton_append, pieces_append, pieces_plain b hplain.2, List.filter_append,
        List.filter_singleton]
      simp [hplain.1]
  intro he
  rw [he] at hlast
  have hn : boardName i = stem ++ ".yml".toList := Option.some.inj hlast
  have hl := congrArg List.getLast? hn
  unfold boardName at hl
  rw [List.getLast?_append_of_ne_nil _ (by decide), List.getLast?_append_of_ne_nil _ (by decide)] at hl
  exact absurd hl (by decide)

/-- C88: printing again changes nothing. -/
theorem C88_again (en : Env C Img) (argv : List Str) (d d' : Disk C) (hd : Sound d) (hfile : d.file folder = none)
    (hplace : ∀ i, d.dir (place i) = false) (c : Int) (h : main en argv d = .ok (c, d')) : main en argv d' = .ok (c, d') := by
  by_cases hc : c = -1
  · subst hc
    have e := ((C88_refused en argv d d').1 h).1
    subst e
    exact h
  obtain ⟨rfl, prog, p, f, l, ims, rfl, hav, h1, h2, h3, h4⟩ := zero_inv h hc
  obtain ⟨-, prog', p', f', a1, a2, hP⟩ := C88_printed en _ d d' hd hfile hplace 0 h hc
  cases a1
  rw [h1] at a2
  cases a2
  obtain ⟨y1, y2⟩ := (Start.C67_available d.has p).1 hav
  have hcfg : d'.file (loc p) = d.file (loc p) := hP.others _ fun i _ => config_apart y2 i
  have hdir : ∀ x, d.dir x = true → d'.dir x = true := fun x hx => (hP.dirs x).2 (.inr hx)
  have hav' : available d'.has p = true := by
    refine (Start.C67_available d'.has p).2 ⟨?_, y2⟩
    unfold Disk.has at y1 ⊢
    rw [hcfg]
    simp only [Bool.and_eq_true, Bool.or_eq_true] at y1 ⊢
    exact ⟨y1.1, y1.2.imp_left (hdir _)⟩
  have hfold : d'.dir folder = true := (hP.dirs _).2 (.inl rfl)
  have hnot : ∀ i, d'.dir (place i) = false := by
    intro i
    rw [Bool.eq_false_iff]
    intro hh
    rcases (hP.dirs _).1 hh with h5 | h5
    · cases h5
    · rw [hplace i] at h5; cases h5
  have hsave : saveBoards en.ofImg ims d' = .ok d' := by
    unfold saveBoards at h4 ⊢
    obtain ⟨d1, e1, e2, e3⟩ := makeDir_ok d hd hfile
    rw [e1, Outcome.bind_ok] at h4
    simp only [Outcome.pure_eq, Outcome.ok.injEq] at h4
    have hnot1 : ∀ i, d1.dir (place i) = false := by
      intro i
      rw [Bool.eq_false_iff]
      intro hh
      rcases (e2 _).1 hh with h5 | h5
      · cases h5
      · rw [hplace i] at h5; cases h5
    have hnd : (ims.zipIdx.map (·.2)).Nodup := by rw [List.zipIdx_map_snd]; exact List.nodup_range'
    obtain ⟨q1, q2, q3⟩ := saved en.ofImg d1 ims.zipIdx ((e2 _).2 (.inl rfl)) (fun e _ => hnot1 e.2) hnd
    rw [h4] at q1 q2 q3
    have hmk : makeDir d' = .ok d' := by
      unfold makeDir
      rw [has_folder, hfold]
      rfl
    rw [hmk, Outcome.bind_ok]
    obtain ⟨r1, r2, r3⟩ := saved en.ofImg d' ims.zipIdx hfold (fun e _ => hnot e.2) hnd
    generalize ims.zipIdx.foldl (saveBoard en.ofImg) d' = d'' at r1 r2 r3
    have : d''.file = d'.file := by
      funext x
      by_cases hx : ∃ e ∈ ims.zipIdx, x = place e.2
      · obtain ⟨e, he, rfl⟩ := hx
        rw [r2 e he, q2 e he]
      · push Not at hx
        exact r3 x hx
    have hd2 : d'' = d' := by
      cases d'' with
      | mk a b =>
        cases d' with
        | mk a' b' => simp only at r1 this; rw [r1, this]
    rw [hd2]
    rfl
  unfold main
  rw [if_neg (by simp)]
  simp only [List.getElem?_cons_succ, List.getElem?_cons_zero]
  rw [if_pos hav']
  unfold print
  rw [hcfg, h1, Outcome.bind_ok, h2, Outcome.bind_ok, h3, Outcome.bind_ok, hsave]
  rfl

/-! ### An example -/

namespace Example
open Verif.Props.Config

/-- The working directory has the configuration file, and boards printed earlier. -/
def d0 : Disk (String ⊕ (Pattern × Int × Int)) where
  dir x := x.names == [] || x == folder
  file x := if x = ⟨false, ["a.yml".toList]⟩ then some (.inl "demo") else
    if x = place 2 ∨ x = place 7 then some (.inl "old") else none

/-- Pictures smaller than 10 by 10 cannot be drawn. -/
def en : Env (String ⊕ (Pattern × Int × Int)) (Pattern × Int × Int) where
  version := .legacy
  draw p w h := if w < 10 ∨ h < 10 then .throw else .ok (p, w, h)
  parse c := match c with
    | some (.inl "demo") => .ok (with' "resolution_x" (.int 100) |> fun f k => if k = "resolution_y" then some (.int 50) else f k)
    | _ => .throw
  ofImg := .inr

/-- Three boards are printed, over an old one; the other old one stays. -/
theorem C88_demo : (match main en ["create".toList, "a.yml".toList] d0 with
    | .ok (c, d) => (c, [0, 1, 2, 3, 7].map fun i => match d.file (place i) with
      | some (.inr (p, w, h)) => some (p.ids, w, h)
      | some (.inl _) => some ([], 0, 0)
      | none => none)
    | _ => (1, [])) =
    (0, [some ([0, 1, 2, 3, 4, 5], 100, 50), some ([6, 7, 8, 9, 10, 11], 100, 50), some ([12, 13, 14, 15, 16, 17], 100, 50), none,
      some ([], 0, 0)]) := by decide +kernel

/-- A configuration with another ending, a missing one, and two arguments are refused. -/
theorem C88_demo_refused : (∀ a ∈ [["create".toList, "a.yaml".toList], ["create".toList, "b.yml".toList], ["create".toList],
    ["create".toList, "a.yml".toList, "b.yml".toList]], (match main en a d0 with | .ok (c, _) => c | _ => 0) = -1) := by decide +kernel

theorem hypotheses : Sound d0 ∧ d0.file folder = none ∧ ∀ i, d0.dir (place i) = false := by
  have hne : ∀ i, place i ≠ folder := fun i h => by cases h
  refine ⟨⟨fun a => rfl, ?_, ?_, ?_⟩, by decide, ?_⟩
  · intro a xs x h
    simp only [d0, Bool.or_eq_true, beq_iff_eq] at h ⊢
    rcases h with h | h
    · simp at h
    · left
      simp only [folder, Loc.mk.injEq] at h
      have := congrArg List.length h.2
      simp at this
      exact this
  · intro a xs x h
    simp only [d0, Bool.or_eq_true, beq_iff_eq] at h ⊢
    split_ifs at h with h1 h2
    · left
      simp only [Loc.mk.injEq] at h1
      have := congrArg List.length h1.2
      simp at this
      exact this
    · right
      have : ∀ i, (⟨a, xs ++ [x]⟩ : Loc) = place i → (⟨a, xs⟩ : Loc) = folder := by
        intro i e
        have := congrArg Loc.parent e
        rw [place_parent] at this
        rw [← this]
        unfold Loc.parent
        simp
      exact h2.elim (this 2) (this 7)
    · exact absurd rfl h
  · intro x h
    simp only [d0, Bool.or_eq_true, beq_iff_eq] at h ⊢
    rcases h with h | rfl
    · rw [if_neg (by rintro rfl; cases h), if_neg (by rintro (rfl | rfl) <;> cases h)]
    · rw [if_neg (by decide), if_neg (by rintro (h | h); exact hne 2 h.symm; exact hne 7 h.symm)]
  · intro i
    simp only [d0, Bool.or_eq_false_iff, beq_eq_false_iff_ne]
    exact ⟨by simp [place], hne i⟩

end Example

end Verif.Props.Print
