import Verif.Model.Folders
import Mathlib.Tactic.Ring
import Mathlib.Tactic.IntervalCases

/-! C50: folders of the cameras and the filter of the images. -/
namespace Verif.Props.Folders
open Verif.Folders

theorem digitVal_digitChar (d : Nat) (h : d < 10) : digitVal (digitChar d) = d := by
  interval_cases d <;> rfl

theorem digitChar_ne_slash (d : Nat) (h : d < 10) : digitChar d ≠ '/' := by
  interval_cases d <;> decide

theorem digitChar_ne_minus (d : Nat) (h : d < 10) : digitChar d ≠ '-' := by
  interval_cases d <;> decide

theorem value_append (s t : Str) : value (s ++ t) = t.foldl (fun a c => 10 * a + digitVal c) (value s) := by
  simp [value]

/-- Reading the decimal text of a number gives the number. -/
theorem value_decimal (n : Nat) : value (decimal n) = n := by
  induction n using Nat.strong_induction_on with
  | _ n ih =>
    rw [decimal]
    split
    · rename_i h
      simp [value, digitVal_digitChar n h]
    · rename_i h
      rw [value_append, ih (n / 10) (by omega)]
      simp only [List.foldl_cons, List.foldl_nil, digitVal_digitChar _ (Nat.mod_lt n (by omega : 0 < 10))]
      omega

theorem decimal_digits (n : Nat) : ∀ c ∈ decimal n, ∃ d < 10, c = digitChar d := by
  induction n using Nat.strong_induction_on with
  | _ n ih =>
    rw [decimal]
    split
    · rename_i h
      intro c hc
      exact ⟨n, h, by simpa using hc⟩
    · rename_i h
      intro c hc
      rcases List.mem_append.1 hc with hc | hc
      · exact ih (n / 10) (by omega) c hc
      · exact ⟨n % 10, Nat.mod_lt n (by omega), by simpa using hc⟩

theorem decimal_ne_nil (n : Nat) : decimal n ≠ [] := by
  rw [decimal]
  split <;> simp

/-- The assumption of the model of the graph: `std::stoi (std::to_string v) = v`; a sign is written before negative
numbers only. -/
theorem C50_stoi (n : Int) : stoi (decimalInt n) = n ∧ ('-' ∈ decimalInt n ↔ n < 0) := by
  refine ⟨?_, ?_⟩
  swap
  · unfold decimalInt
    split
    · rename_i h; simp [h]
    · rename_i h
      refine iff_of_false (fun hm => ?_) h
      obtain ⟨d, hd, hc⟩ := decimal_digits n.toNat '-' hm
      exact digitChar_ne_minus d hd hc.symm
  unfold decimalInt
  split
  · rw [stoi, value_decimal]
    omega
  · have h : stoi (decimal n.toNat) = (value (decimal n.toNat) : Int) := by
      unfold stoi
      split
      · rename_i s e
        obtain ⟨d, hd, hc⟩ := decimal_digits n.toNat '-' (by rw [e]; simp)
        exact absurd hc.symm (digitChar_ne_minus d hd)
      · rfl
    rw [h, value_decimal]
    omega

theorem value_padded (n : Nat) : value (padded n) = n := by
  unfold padded
  rw [value_append]
  have : ∀ k, value (List.replicate k '0') = 0 := by
    intro k
    induction k with
    | zero => rfl
    | succ k ih =>
      rw [List.replicate_succ', value_append, ih]
      rfl
  rw [this]
  exact value_decimal n

theorem padded_no_slash (n : Nat) : '/' ∉ padded n := by
  unfold padded
  intro h
  rcases List.mem_append.1 h with h | h
  · have := List.eq_of_mem_replicate h
    revert this
    decide
  · obtain ⟨d, hd, hc⟩ := decimal_digits n _ h
    exact digitChar_ne_slash d hd hc.symm

theorem padded_ne_nil (n : Nat) : padded n ≠ [] := by
  unfold padded
  simp [decimal_ne_nil]

theorem padded_injective {m n : Nat} (h : padded m = padded n) : m = n := by
  rw [← value_padded m, h, value_padded]

theorem join_eq (root pre : Str) : ∃ base : Str, ∀ n, join root (pre ++ padded n) = base ++ padded n := by
  by_cases hp : pre = []
  · subst hp
    have hh : ∀ n, (padded n).head? ≠ some '/' := by
      intro n h
      exact padded_no_slash n (List.mem_of_head? h)
    by_cases hr : root = [] ∨ root.getLast? = some '/'
    · exact ⟨root, fun n => by simp [join, hh n, hr]⟩
    · exact ⟨root ++ ['/'], fun n => by simp only [join, List.nil_append, if_neg (hh n), if_neg hr, List.append_assoc, List.cons_append]⟩
  · have hh : ∀ n, (pre ++ padded n).head? = pre.head? := by
      intro n
      rcases pre with _ | ⟨a, l⟩
      · exact absurd rfl hp
      · rfl
    by_cases h1 : pre.head? = some '/'
    · exact ⟨pre, fun n => by unfold join; rw [hh n, if_pos h1]⟩
    · by_cases hr : root = [] ∨ root.getLast? = some '/'
      · exact ⟨root ++ pre, fun n => by unfold join; rw [hh n, if_neg h1, if_pos hr, List.append_assoc]⟩
      · exact ⟨root ++ '/' :: pre, fun n => by
          unfold join
          rw [hh n, if_neg h1, if_neg hr]
          simp⟩

/-- C50: distinct cameras have distinct folders, for every root and prefix. -/
theorem C50_folders (root pre : Str) (i j : Nat) (h : folder root pre i = folder root pre j) : i = j := by
  obtain ⟨base, hb⟩ := join_eq root pre
  unfold folder at h
  rw [hb, hb, List.append_cancel_left_eq] at h
  have := padded_injective h
  omega

theorem split_slash {a b r s : Str} (ha : '/' ∉ a) (hb : '/' ∉ b) (h : a ++ '/' :: r = b ++ '/' :: s) : a = b := by
  induction a generalizing b with
  | nil =>
    rcases b with _ | ⟨c, b⟩
    · rfl
    · simp only [List.nil_append, List.cons_append, List.cons.injEq] at h
      exact absurd (List.mem_cons.2 (.inl h.1)) hb
  | cons c a ih =>
    rcases b with _ | ⟨d, b⟩
    · simp only [List.nil_append, List.cons_append, List.cons.injEq] at h
      exact absurd (List.mem_cons.2 (.inl h.1.symm)) ha
    · simp only [List.cons_append, List.cons.injEq] at h
      rw [h.1, ih (fun hh => ha (by simp [hh])) (fun hh => hb (by simp [hh])) h.2]

/-- C50: no file is an image of two cameras.  `glob` may return any files below the folder. -/
theorem C50_no_shared_image (glob : Str → List Str) (hglob : ∀ d, ∀ p ∈ glob d, ∃ r, p = d ++ '/' :: r)
    (root pre : Str) (i j : Nat) (p : Str) (hi : p ∈ images glob root pre i) (hj : p ∈ images glob root pre j) :
    i = j := by
  unfold images at hi hj
  obtain ⟨r, hr⟩ := hglob _ p (List.mem_filter.1 hi).1
  obtain ⟨s, hs⟩ := hglob _ p (List.mem_filter.1 hj).1
  obtain ⟨base, hb⟩ := join_eq root pre
  unfold folder at hr hs
  rw [hr, hb, hb, List.append_assoc, List.append_assoc, List.append_cancel_left_eq] at hs
  have := padded_injective (split_slash (padded_no_slash _) (padded_no_slash _) hs)
  omega

theorem findLast_none {c : Char} {s : Str} : findLast c s = none ↔ c ∉ s := by
  induction s with
  | nil => simp [findLast]
  | cons x s ih =>
    unfold findLast
    cases h : findLast c s with
    | some i =>
      have : c ∈ s := by
        by_contra hc
        rw [ih.2 hc] at h
        cases h
      simp [this]
    | none =>
      have := ih.1 h
      by_cases hx : x = c
      · simp [hx]
      · simp [hx, this, Ne.symm hx]

theorem findLast_split {c : Char} (s t : Str) (ht : c ∉ t) : findLast c (s ++ c :: t) = some s.length := by
  induction s with
  | nil =>
    simp only [List.nil_append, List.length_nil]
    unfold findLast
    rw [findLast_none.2 ht]
    simp
  | cons x s ih =>
    rw [List.cons_append]
    unfold findLast
    rw [ih]
    rfl

theorem exists_last {c : Char} {s : Str} (h : c ∈ s) : ∃ a b, s = a ++ c :: b ∧ c ∉ b := by
  induction s with
  | nil => simp at h
  | cons x s ih =>
    by_cases hs : c ∈ s
    · obtain ⟨a, b, h1, h2⟩ := ih hs
      exact ⟨x :: a, b, by rw [h1]; rfl, h2⟩
    · have : x = c := by
        rcases List.mem_cons.1 h with h | h
        · exact h.symm
        · exact absurd h hs
      subst this
      exact ⟨[], s, rfl, hs⟩

/-- C50: exactly the found files whose name ends in a full stop and one of the six extensions, in lower
case, are images of the camera, in the order found.  (The pattern `*.*` finds only names with a full
stop.) -/
theorem C50_filter (glob : Str → List Str) (hdot : ∀ d, ∀ p ∈ glob d, '.' ∈ p) (root pre : Str) (cam : Nat) :
    List.Sublist (images glob root pre cam) (glob (folder root pre cam)) ∧
    ∀ p, p ∈ images glob root pre cam ↔ p ∈ glob (folder root pre cam) ∧
      ∃ stem, p = stem ++ ".jpg".toList ∨ p = stem ++ ".png".toList ∨ p = stem ++ ".bmp".toList ∨
        p = stem ++ ".jpeg".toList ∨ p = stem ++ ".jp2".toList ∨ p = stem ++ ".tiff".toList := by
  refine ⟨List.filter_sublist, fun p => ?_⟩
  unfold images
  rw [List.mem_filter]
  refine and_congr_right fun hp => ?_
  obtain ⟨a, b, rfl, hb⟩ := exists_last (hdot _ p hp)
  have hext : extension (a ++ '.' :: b) = b := by
    unfold extension
    rw [findLast_split a b hb]
    simp
  rw [hext]
  have key : ∀ e : Str, '.' ∉ e → ((∃ stem, a ++ '.' :: b = stem ++ '.' :: e) ↔ b = e) := by
    intro e he
    constructor
    · rintro ⟨stem, h⟩
      have := findLast_split a b hb
      rw [h, findLast_split stem e he, Option.some.injEq] at this
      exact (List.cons.inj (List.append_inj_right h this.symm)).2
    · rintro rfl
      exact ⟨a, rfl⟩
  have e1 : ".jpg".toList = '.' :: "jpg".toList := by decide
  have e2 : ".png".toList = '.' :: "png".toList := by decide
  have e3 : ".bmp".toList = '.' :: "bmp".toList := by decide
  have e4 : ".jpeg".toList = '.' :: "jpeg".toList := by decide
  have e5 : ".jp2".toList = '.' :: "jp2".toList := by decide
  have e6 : ".tiff".toList = '.' :: "tiff".toList := by decide
  rw [e1, e2, e3, e4, e5, e6, exists_or, exists_or, exists_or, exists_or, exists_or, key _ (by decide),
    key _ (by decide), key _ (by decide), key _ (by decide), key _ (by decide), key _ (by decide)]
  simp [allowed]

/-- C50: camera by camera, each image is detected once, under its position among the images of the
camera. -/
theorem C50_frames (glob : Str → List Str) (root pre : Str) (nbCam cam frame : Nat) (p : Str) :
    (cam, frame, p) ∈ detectBoards glob root pre nbCam ↔
      cam < nbCam ∧ (images glob root pre cam)[frame]? = some p := by
  unfold detectBoards
  simp only [List.mem_flatMap, List.mem_range, List.mem_map, Prod.mk.injEq, Prod.exists]
  constructor
  · rintro ⟨c, hc, q, f, hq, rfl, rfl, rfl⟩
    exact ⟨hc, by simpa using List.mem_zipIdx_iff_getElem?.1 hq⟩
  · rintro ⟨hc, h⟩
    exact ⟨cam, hc, p, frame, List.mem_zipIdx_iff_getElem?.2 h, rfl, rfl, rfl⟩

theorem C50_frames_once (glob : Str → List Str) (root pre : Str) (nbCam : Nat) :
    (detectBoards glob root pre nbCam).Pairwise fun a b => (a.1, a.2.1) ≠ (b.1, b.2.1) := by
  have hz : ∀ (l : List Str) (k : Nat), (l.zipIdx k).Pairwise fun a b => a.2 < b.2 := by
    intro l
    induction l with
    | nil => intro k; simp
    | cons x l ih =>
      intro k
      rw [List.zipIdx_cons, List.pairwise_cons]
      refine ⟨fun e he => ?_, ih _⟩
      have := List.le_snd_of_mem_zipIdx he
      simp only
      omega
  have hcam : ∀ n, ((List.range n).flatMap fun cam =>
      (images glob root pre cam).zipIdx.map fun e => (cam, e.2, e.1)).Pairwise
        fun a b : Nat × Nat × Str => (a.1, a.2.1) ≠ (b.1, b.2.1) := by
    intro n
    induction n with
    | zero => simp
    | succ n ih =>
      rw [List.range_succ, List.flatMap_append, List.pairwise_append]
      refine ⟨ih, ?_, ?_⟩
      · simp only [List.flatMap_cons, List.flatMap_nil, List.append_nil, List.pairwise_map]
        refine (hz _ 0).imp fun {a b} hab h => ?_
        simp only [Prod.mk.injEq, true_and] at h
        omega
      · intro a ha b hb h
        simp only [List.mem_flatMap, List.mem_range, List.mem_map] at ha
        simp only [List.flatMap_cons, List.flatMap_nil, List.append_nil, List.mem_map] at hb
        obtain ⟨c, hc, e, _, rfl⟩ := ha
        obtain ⟨e', _, rfl⟩ := hb
        simp only [Prod.mk.injEq] at h
        omega
  exact hcam nbCam

theorem decimal_length (n : Nat) (h : n < 1000) : (decimal n).length ≤ 3 := by
  rw [decimal]
  split
  · simp
  · rw [decimal]
    split
    · simp
    · rw [decimal, if_pos (by omega)]
      simp

/-- C50: up to 999 the number in a folder name has three digits. -/
theorem C50_three_digits (n : Nat) (h : n < 1000) : (padded n).length = 3 := by
  unfold padded
  have := decimal_length n h
  rw [List.length_append, List.length_replicate]
  omega

/-- The files of the printed boards are distinct. -/
theorem C50_board_files (i j : Nat) (h : boardFile i = boardFile j) : i = j := by
  unfold boardFile join at h
  have hh : ∀ n, ("charuco_board_".toList ++ padded n ++ ".bmp".toList).head? = some 'c' := by
    intro n; rfl
  rw [hh, hh, if_neg (by decide), if_neg (by decide), if_neg (by decide), if_neg (by decide)] at h
  simp only [List.append_cancel_left_eq, List.cons.injEq, true_and, List.append_assoc] at h
  have := List.append_cancel_right h
  exact padded_injective this

/-- The folders of the first and of the twelfth camera; a folder with five files. -/
theorem C50_example : folder "data".toList "Cam_".toList 0 = "data/Cam_001".toList ∧
    folder "data".toList "Cam_".toList 11 = "data/Cam_012".toList ∧
    folder "data".toList "Cam_".toList 1233 = "data/Cam_1234".toList ∧
    images (fun d => ["/a.png", "/b.PNG", "/c.jpg.txt", "/d.tiff", "/x.y/e"].map fun s => d ++ s.toList)
      "data".toList "Cam_".toList 0 = ["data/Cam_001/a.png".toList, "data/Cam_001/d.tiff".toList] := by
  decide +kernel

end Verif.Props.Folders
