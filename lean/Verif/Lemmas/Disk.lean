import Verif.Spec.Disk
import Verif.Props.Folders

/-! Paths as strings and as places; making directories. -/
namespace Verif.Lemmas.Disk
open Verif Verif.Folders Verif.Start Verif.Disk Verif.Spec.Disk

theorem pieces_ne_nil (s : Str) : pieces s ≠ [] := by
  cases s with
  | nil => simp [pieces]
  | cons c s =>
    unfold pieces
    split
    · simp
    · split <;> simp

theorem pieces_append (a b : Str) : pieces (a ++ '/' :: b) = pieces a ++ pieces b := by
  induction a with
  | nil => simp [pieces]
  | cons c a ih =>
    rw [List.cons_append, pieces, ih]
    conv_rhs => rw [pieces]
    split
    · simp
    · rcases h : pieces a with _ | ⟨w, ws⟩
      · exact absurd h (pieces_ne_nil a)
      · simp

theorem pieces_plain (b : Str) (h : '/' ∉ b) : pieces b = [b] := by
  induction b with
  | nil => rfl
  | cons c b ih =>
    have hc : c ≠ '/' := fun e => h (by simp [e])
    rw [pieces, if_neg hc, ih (fun e => h (List.mem_cons_of_mem _ e))]

theorem names_plain {b : Str} (h : Plain b) : (loc b).names = [b] := by
  unfold loc
  simp only [pieces_plain b h.2]
  simp [h.1]

theorem head_ne {b : Str} (h : Plain b) : b.head? ≠ some '/' := fun e => h.2 (List.mem_of_head? e)

theorem loc_join (a b : Str) (h : b.head? ≠ some '/') : loc (join a b) = below a (loc b).names := by
  unfold join below
  rw [if_neg h]
  rcases List.eq_nil_or_concat a with rfl | ⟨a', x, rfl⟩
  · rw [if_pos (Or.inl rfl)]
    show loc b = ⟨false, [] ++ (loc b).names⟩
    unfold loc
    congr 1
    simpa using h
  · rw [List.concat_eq_append]
    by_cases hx : x = '/'
    · subst hx
      rw [if_pos (Or.inr (by simp))]
      unfold loc
      congr 1
      · cases a' <;> simp
      · rw [List.append_assoc, List.singleton_append, pieces_append, show a' ++ ['/'] = a' ++ '/' :: [] from rfl, pieces_append]
        simp [pieces]
    · rw [if_neg (by simp [hx])]
      unfold loc
      congr 1
      · cases a' <;> simp
      · rw [pieces_append]
        simp

theorem loc_join_plain (a : Str) {b : Str} (h : Plain b) : loc (join a b) = below a [b] := by
  rw [loc_join a b (head_ne h), names_plain h]

theorem below_join (a : Str) {b : Str} (h : Plain b) (cs : List Str) : below (join a b) cs = below a (b :: cs) := by
  unfold below
  rw [loc_join_plain a h]
  unfold below
  simp

theorem filename_plain (a : Str) {b : Str} (h : Plain b) : filename (join a b) = b := by
  unfold join
  rw [if_neg (head_ne h)]
  have key : ∀ x : Str, filename (x ++ '/' :: b) = b := by
    intro x
    unfold filename
    rw [Props.Folders.findLast_split x b h.2]
    simp
  split
  · next h0 =>
    rcases h0 with rfl | h0
    · unfold filename
      rw [List.nil_append, (Props.Folders.findLast_none).2 h.2]
    · obtain ⟨x, rfl⟩ := List.getLast?_eq_some_iff.1 h0
      rw [List.append_assoc]
      exact key x
  · exact key a

theorem join_ne_nil (a : Str) {b : Str} (h : Plain b) : join a b ≠ [] := by
  intro e
  have := filename_plain a h
  rw [e] at this
  exact h.1 this.symm

/-! ### Directories -/

variable {C : Type}

theorem mkdir_ok (d : Disk C) (l : Loc) (h1 : d.dir l.parent = true) (h2 : d.file l = none) :
    ∃ d', mkdir d l = .ok d' ∧ (∀ x, d'.dir x = true ↔ x = l ∨ d.dir x = true) ∧ d'.file = d.file := by
  unfold mkdir
  split
  · next h => exact ⟨d, rfl, fun x => ⟨Or.inr, fun e => e.elim (fun e => e ▸ h) id⟩, rfl⟩
  · rw [if_neg (by simp [h1, h2])]
    exact ⟨_, rfl, fun x => by simp [Disk.addDir], rfl⟩

theorem sound_mkdir {d d' : Disk C} (hd : Sound d) {l : Loc} (h1 : d.dir l.parent = true) (h2 : d.file l = none)
    (h3 : ∀ x, d'.dir x = true ↔ x = l ∨ d.dir x = true) (h4 : d'.file = d.file) : Sound d' := by
  refine ⟨fun a => (h3 _).2 (Or.inr (hd.base a)), fun a xs x h => ?_, fun a xs x h => ?_, fun x h => ?_⟩
  · rcases (h3 _).1 h with rfl | h
    · refine (h3 _).2 (Or.inr ?_)
      have : d.dir ⟨a, (xs ++ [x]).dropLast⟩ = true := h1
      simpa using this
    · exact (h3 _).2 (Or.inr (hd.dirIn a xs x h))
  · rw [h4] at h
    exact (h3 _).2 (Or.inr (hd.fileIn a xs x h))
  · rw [h4]
    rcases (h3 _).1 h with rfl | h
    · exact h2
    · exact hd.either x h

theorem create_ok (d : Disk C) (hd : Sound d) (p : Str) (hf : NoFile d (loc p)) :
    ∃ d', createDirectories d p = .ok d' ∧ Sound d' ∧
      (∀ x, d'.dir x = true ↔ (∃ k, x = ⟨(loc p).abs, (loc p).names.take k⟩) ∨ d.dir x = true) ∧ d'.file = d.file := by
  unfold createDirectories
  have key : ∀ n, n ≤ (loc p).names.length → ∃ d', Outcome.foldlM mkdir d ((List.range n).map fun i =>
      (⟨(loc p).abs, (loc p).names.take (i + 1)⟩ : Loc)) = .ok d' ∧ Sound d' ∧
      (∀ x, d'.dir x = true ↔ (∃ k ≤ n, x = ⟨(loc p).abs, (loc p).names.take k⟩) ∨ d.dir x = true) ∧ d'.file = d.file := by
    intro n
    induction n with
    | zero =>
      intro _
      refine ⟨d, rfl, hd, fun x => ⟨Or.inr, ?_⟩, rfl⟩
      rintro (⟨k, hk, rfl⟩ | h)
      · have : k = 0 := by omega
        subst this
        exact hd.base _
      · exact h
    | succ n ih =>
      intro hn
      obtain ⟨d1, e1, e2, e3, e4⟩ := ih (by omega)
      have hp : d1.dir (Loc.parent ⟨(loc p).abs, (loc p).names.take (n + 1)⟩) = true := by
        refine (e3 _).2 (Or.inl ⟨n, le_refl _, ?_⟩)
        unfold Loc.parent
        congr 1
        rw [List.dropLast_eq_take, List.take_take, List.length_take]
        congr 1
        omega
      have hq : d1.file ⟨(loc p).abs, (loc p).names.take (n + 1)⟩ = none := by rw [e4]; exact hf _
      obtain ⟨d2, f1, f2, f3⟩ := mkdir_ok d1 _ hp hq
      refine ⟨d2, ?_, sound_mkdir e2 hp hq f2 f3, fun x => ?_, by rw [f3, e4]⟩
      · rw [List.range_succ, List.map_append, Outcome.foldlM_append, e1, Outcome.bind_ok, List.map_singleton,
          Outcome.foldlM_cons, f1, Outcome.bind_ok]
        rfl
      · rw [f2, e3]
        constructor
        · rintro (rfl | ⟨k, hk, rfl⟩ | h)
          · exact Or.inl ⟨n + 1, le_refl _, rfl⟩
          · exact Or.inl ⟨k, by omega, rfl⟩
          · exact Or.inr h
        · rintro (⟨k, hk, rfl⟩ | h)
          · rcases Nat.lt_or_ge k (n + 1) with hk' | hk'
            · exact Or.inr (Or.inl ⟨k, by omega, rfl⟩)
            · have : k = n + 1 := by omega
              subst this
              exact Or.inl rfl
          · exact Or.inr (Or.inr h)
  obtain ⟨d', e1, e2, e3, e4⟩ := key _ (le_refl _)
  refine ⟨d', e1, e2, fun x => ?_, e4⟩
  rw [e3]
  refine or_congr ⟨fun ⟨k, _, h⟩ => ⟨k, h⟩, fun ⟨k, h⟩ => ?_⟩ Iff.rfl
  rcases Nat.lt_or_ge (loc p).names.length k with hk | hk
  · exact ⟨_, le_refl _, by rw [h, List.take_of_length_le (by omega), List.take_length]⟩
  · exact ⟨k, hk, h⟩

/-- Directories above a directory. -/
theorem dir_take {d : Disk C} (hd : Sound d) {a : Bool} {xs : List Str} (h : d.dir ⟨a, xs⟩ = true) (k : Nat) :
    d.dir ⟨a, xs.take k⟩ = true := by
  induction xs using List.reverseRecOn with
  | nil => simpa using h
  | append_singleton xs x ih =>
    rcases Nat.lt_or_ge xs.length k with hk | hk
    · rw [List.take_of_length_le (by simp; omega)]
      exact h
    · rw [List.take_append_of_le_length hk]
      exact ih (hd.dirIn a xs x h)

end Verif.Lemmas.Disk
