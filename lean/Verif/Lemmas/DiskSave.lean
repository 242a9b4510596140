import Verif.Lemmas.Disk
import Verif.Props.Images

/-! The stages of saving. -/
namespace Verif.Lemmas.Disk
open Verif Verif.Folders Verif.Start Verif.Disk Verif.Spec.Disk
open Verif.Images (paddedTo imageFile Written)

variable {C : Type}

theorem plain_kind {kind : Str} (h : kind ∈ kinds) : Plain kind := by
  simp only [kinds, List.mem_cons, List.not_mem_nil, or_false] at h
  rcases h with rfl | rfl <;> exact ⟨by decide, by decide⟩

theorem plain_cam (c : Nat) : Plain (paddedTo 3 c) := ⟨Props.Images.paddedTo_ne_nil 3 c, Props.Images.paddedTo_no_slash 3 c⟩

theorem plain_image (f : Nat) : Plain (imageName f) := by
  refine ⟨by unfold imageName; simp, ?_⟩
  unfold imageName
  rw [List.mem_append, not_or]
  exact ⟨Props.Images.paddedTo_no_slash 6 f, by decide⟩

theorem paddedTo_inj {w m n : Nat} (h : paddedTo w m = paddedTo w n) : m = n := by
  rw [← Props.Images.paddedTo_value w m, h, Props.Images.paddedTo_value]

theorem imageName_inj {m n : Nat} (h : imageName m = imageName n) : m = n := by
  unfold imageName at h
  exact paddedTo_inj (List.append_cancel_right h)

theorem loc_image (save : Str) {kind : Str} (hk : kind ∈ kinds) (c f : Nat) :
    loc (imageFile save kind c f) = below save [kind, paddedTo 3 c, imageName f] := by
  show loc (join (join (join save kind) (paddedTo 3 c)) (imageName f)) = _
  rw [loc_join_plain _ (plain_image f), below_join _ (plain_cam c), below_join _ (plain_kind hk)]

theorem filename_image (save kind : Str) (c f : Nat) : filename (imageFile save kind c f) ≠ [] := by
  rw [show filename (imageFile save kind c f) = imageName f from filename_plain _ (plain_image f)]
  exact (plain_image f).1

theorem made_not_image {save : Str} {x : Loc} (h : Made save x) : ¬ImagePlace save x := by
  rintro ⟨kind, _, c, f, rfl⟩
  have hl : ∀ (ys : List Str) (y : Loc), below save [kind, paddedTo 3 c, imageName f] = y →
      y.names.length ≤ (loc save).names.length + 2 → False := by
    intro _ y e h
    rw [← e] at h
    simp [below] at h
  rcases h with ⟨k, h⟩ | ⟨kind', _, h | ⟨c', h⟩⟩
  · exact hl [] _ h (by simp only [List.length_take]; omega)
  · exact hl [] _ h (by simp [below])
  · exact hl [] _ h (by simp [below])

/-- What holds while images are saved. -/
structure Inv (save : Str) (d0 d : Disk C) : Prop where
  sound : Sound d
  more : ∀ x, d0.dir x = true → d.dir x = true
  made : ∀ x, d.dir x = true → d0.dir x = true ∨ Made save x
  files : ∀ x, ¬ImagePlace save x → d.file x = d0.file x

variable {save : Str} {d0 d : Disk C}

theorem Inv.none (h : Inv save d0 d) (h0 : Clear save d0) {x : Loc} (hx : Made save x) : d.file x = .none := by
  rw [h.files x (made_not_image hx)]
  exact h0.made x hx

theorem Inv.image (h : Inv save d0 d) (h0 : Clear save d0) {x : Loc} (hx : ImagePlace save x) : d.dir x = false := by
  cases hd : d.dir x with
  | false => rfl
  | true =>
    rcases h.made x hd with h1 | h1
    · rw [h0.image x hx] at h1; cases h1
    · exact absurd hx (made_not_image h1)

theorem noFile_save (h : Inv save d0 d) (h0 : Clear save d0) : NoFile d (loc save) :=
  fun k => h.none h0 (Or.inl ⟨k, rfl⟩)

theorem take_below {save kind : Str} (k : Nat) : (∃ k', (below save [kind]).names.take k = (loc save).names.take k') ∨
    (below save [kind]).names.take k = (below save [kind]).names := by
  rcases Nat.lt_or_ge (loc save).names.length k with hk | hk
  · right
    exact List.take_of_length_le (by simp [below]; omega)
  · left
    exact ⟨k, List.take_append_of_le_length hk⟩

theorem made_take {kind : Str} (hk : kind ∈ kinds) (k : Nat) :
    Made save ⟨(below save [kind]).abs, (below save [kind]).names.take k⟩ := by
  rcases take_below (save := save) (kind := kind) k with ⟨k', h⟩ | h
  · rw [h]; exact Or.inl ⟨k', rfl⟩
  · rw [h]; exact Or.inr ⟨kind, hk, Or.inl rfl⟩

theorem inv_create (h : Inv save d0 d) {d' : Disk C} (hs : Sound d')
    (hd : ∀ x, d'.dir x = true → Made save x ∨ d.dir x = true) (hm : ∀ x, d.dir x = true → d'.dir x = true)
    (hf : d'.file = d.file) : Inv save d0 d' where
  sound := hs
  more x hx := hm x (h.more x hx)
  made x hx := (hd x hx).elim Or.inr (h.made x)
  files x hx := by rw [hf]; exact h.files x hx

theorem has_false {p : Str} (h1 : d.has p = false) (h2 : p ≠ []) : d.dir (loc p) = false := by
  unfold Disk.has at h1
  cases hd : d.dir (loc p) with
  | false => rfl
  | true => simp [hd, h2] at h1

theorem has_true {p : Str} (h1 : d.has p = true) (h2 : d.file (loc p) = none) : d.dir (loc p) = true := by
  unfold Disk.has at h1
  simpa [h2] using (Bool.and_eq_true_iff.1 h1).2

theorem makeSaveDir_ok (h : Inv save d0 d) (h0 : Clear save d0) : ∃ d', makeSaveDir d save = .ok d' ∧ Inv save d0 d' ∧
    (∀ x, d.dir x = true → d'.dir x = true) ∧ d'.file = d.file ∧
    (d.dir (loc save) = true ∨ filename save ≠ [] → d'.dir (loc save) = true) := by
  unfold makeSaveDir
  split
  · next hc =>
    obtain ⟨d', e1, e2, e3, e4⟩ := create_ok d h.sound save (noFile_save h h0)
    refine ⟨d', e1, inv_create h e2 (fun x hx => ((e3 x).1 hx).imp (fun h => Or.inl h) id) (fun x hx => (e3 x).2 (Or.inr hx)) e4,
      fun x hx => (e3 x).2 (Or.inr hx), e4, fun _ => (e3 _).2 (Or.inl ⟨(loc save).names.length, ?_⟩)⟩
    rw [List.take_length]
  · next hc =>
    refine ⟨d, rfl, h, fun _ => id, rfl, ?_⟩
    rintro (h1 | h1)
    · exact h1
    · have : d.has save = true := by
        cases hh : d.has save with
        | true => rfl
        | false => simp [hh, h1] at hc
      exact has_true this (by
        have := noFile_save h h0 (loc save).names.length
        rwa [List.take_length] at this)

theorem kindDir_ok (h : Inv save d0 d) (h0 : Clear save d0) {kind : Str} (hk : kind ∈ kinds) :
    ∃ d', kindDir save kind d = .ok d' ∧ Inv save d0 d' ∧ (∀ x, d.dir x = true → d'.dir x = true) ∧ d'.file = d.file ∧
      d'.dir (below save [kind]) = true := by
  have hl := loc_join_plain save (plain_kind hk)
  unfold kindDir
  split
  · next hc =>
    obtain ⟨d', e1, e2, e3, e4⟩ := create_ok d h.sound (join save kind) (by
      rw [hl]; exact fun k => h.none h0 (made_take hk k))
    rw [hl] at e3
    refine ⟨d', e1, inv_create h e2 (fun x hx => ((e3 x).1 hx).imp (fun ⟨k, e⟩ => e ▸ made_take hk k) id)
      (fun x hx => (e3 x).2 (Or.inr hx)) e4, fun x hx => (e3 x).2 (Or.inr hx), e4,
      (e3 _).2 (Or.inl ⟨(below save [kind]).names.length, by rw [List.take_length]⟩)⟩
  · next hc =>
    refine ⟨d, rfl, h, fun _ => id, rfl, ?_⟩
    have : d.has (join save kind) = true := by
      cases hh : d.has (join save kind) with
      | true => rfl
      | false => simp [hh, filename_plain save (plain_kind hk), (plain_kind hk).1] at hc
    rw [← hl]
    exact has_true this (by rw [hl]; exact h.none h0 (Or.inr ⟨kind, hk, Or.inl rfl⟩))

theorem camDir_ok (h : Inv save d0 d) (h0 : Clear save d0) {kind : Str} (hk : kind ∈ kinds) (c : Nat)
    (hd : d.dir (below save [kind]) = true) :
    ∃ d', camDir save kind c d = .ok d' ∧ Inv save d0 d' ∧ (∀ x, d.dir x = true → d'.dir x = true) ∧ d'.file = d.file ∧
      d'.dir (below save [kind, paddedTo 3 c]) = true := by
  have hl : loc (join (join save kind) (paddedTo 3 c)) = below save [kind, paddedTo 3 c] := by
    rw [loc_join_plain _ (plain_cam c), below_join _ (plain_kind hk)]
  have hM : Made save (below save [kind, paddedTo 3 c]) := Or.inr ⟨kind, hk, Or.inr ⟨c, rfl⟩⟩
  unfold camDir
  split
  · next hc =>
    have hp : d.dir (below save [kind, paddedTo 3 c]).parent = true := by
      have : (below save [kind, paddedTo 3 c]).parent = below save [kind] := by
        unfold Loc.parent below
        simp
      rw [this]; exact hd
    have hq : d.file (below save [kind, paddedTo 3 c]) = none := h.none h0 hM
    obtain ⟨d', e1, e2, e3⟩ := mkdir_ok d _ hp hq
    refine ⟨d', by unfold createDirectory; rw [hl]; exact e1, inv_create h (sound_mkdir h.sound hp hq e2 e3)
      (fun x hx => ((e2 x).1 hx).imp (fun e => by rw [e]; exact hM) id) (fun x hx => (e2 x).2 (Or.inr hx)) e3,
      fun x hx => (e2 x).2 (Or.inr hx), e3, (e2 _).2 (Or.inl rfl)⟩
  · next hc =>
    refine ⟨d, rfl, h, fun _ => id, rfl, ?_⟩
    have : d.has (join (join save kind) (paddedTo 3 c)) = true := by
      cases hh : d.has (join (join save kind) (paddedTo 3 c)) with
      | true => rfl
      | false => simp [hh, filename_plain save (plain_kind hk), (plain_kind hk).1] at hc
    rw [← hl]
    exact has_true this (by rw [hl]; exact h.none h0 hM)

/-! ### Files -/

theorem write_file (p : Str) (v : C) (h1 : filename p ≠ []) (h2 : d.dir (loc p) = false) (h3 : d.dir (loc p).parent = true)
    (x : Loc) : (write d p v).file x = if x = loc p then some v else d.file x := by
  unfold write
  rw [if_neg (by simp [h1, h2, h3])]

theorem write_other (p : Str) (v : C) (x : Loc) (h : x ≠ loc p) : (write d p v).file x = d.file x := by
  unfold write
  split
  · rfl
  · simp [h]

theorem write_dir (p : Str) (v : C) : (write d p v).dir = d.dir := by
  unfold write
  split <;> rfl

theorem sound_write (h : Sound d) (p : Str) (v : C) : Sound (write d p v) := by
  unfold write
  split
  · exact h
  · next hc =>
    have hc' : (filename p ≠ [] ∧ d.dir (loc p) = false) ∧ d.dir (loc p).parent = true := by simpa using hc
    obtain ⟨⟨_, h2⟩, h3⟩ := hc'
    refine ⟨h.base, h.dirIn, fun a xs x hx => ?_, fun l hl => ?_⟩
    · show d.dir _ = true
      by_cases he : (⟨a, xs ++ [x]⟩ : Loc) = loc p
      · rw [← he] at h3
        simpa [Loc.parent] using h3
      · simp only [he, if_false] at hx
        exact h.fileIn a xs x hx
    · have : l ≠ loc p := by rintro rfl; have hl' : d.dir (loc p) = true := hl; rw [h2] at hl'; cases hl'
      simp only [this, if_false]
      exact h.either l hl

variable {V G Pt K Img KP : Type}

theorem writeImages_ok {d0 d : Disk (Content V G Pt K Img KP)} (h : Inv save d0 d) (h0 : Clear save d0) {kind : Str}
    (hk : kind ∈ kinds) (c : Nat) (hd : d.dir (below save [kind, paddedTo 3 c]) = true) (ws : List (Written Img))
    (hw : Shaped save kind c ws) : Inv save d0 (ws.foldl writeImage d) ∧ (ws.foldl writeImage d).dir = d.dir ∧
      (∀ x, (∀ f, x ≠ below save [kind, paddedTo 3 c, imageName f]) → (ws.foldl writeImage d).file x = d.file x) ∧
      (∀ x, (∀ w ∈ ws, x ≠ loc w.file) → (ws.foldl writeImage d).file x = d.file x) ∧
      ∀ w ∈ ws, (ws.foldl writeImage d).file (loc w.file) = some (.image w.image w.circles) := by
  induction ws generalizing d with
  | nil => exact ⟨h, rfl, fun _ _ => rfl, fun _ _ => rfl, fun _ h => nomatch h⟩
  | cons w ws ih =>
    obtain ⟨f, hf⟩ := hw.1 w (by simp)
    have hloc : loc w.file = below save [kind, paddedTo 3 c, imageName f] := by rw [hf, loc_image save hk]
    have himg : ImagePlace save (loc w.file) := ⟨kind, hk, c, f, hloc⟩
    have hdir : (writeImage d w).dir = d.dir := write_dir _ _
    have hi : Inv save d0 (writeImage d w) := by
      refine ⟨sound_write h.sound _ _, fun x hx => by rw [hdir]; exact h.more x hx, fun x hx => h.made x (by rw [← hdir]; exact hx),
        fun x hx => ?_⟩
      unfold writeImage
      rw [write_other _ _ x (fun e => hx (by rw [e]; exact himg))]
      exact h.files x hx
    have hnd := List.nodup_cons.1 (show ((w.file) :: ws.map (·.file)).Nodup from hw.2)
    obtain ⟨i1, i2, i3, i4, i5⟩ := ih hi (by rw [hdir]; exact hd) ⟨fun w' hw' => hw.1 w' (List.mem_cons_of_mem _ hw'), hnd.2⟩
    rw [List.foldl_cons]
    refine ⟨i1, i2.trans hdir, fun x hx => ?_, fun x hx => ?_, fun w' hw' => ?_⟩
    · rw [i3 x hx]
      exact write_other _ _ _ (fun e => hx f (e.trans hloc))
    · rw [i4 x fun w' hw' => hx w' (List.mem_cons_of_mem _ hw')]
      exact write_other _ _ _ (hx w (by simp))
    · rcases List.mem_cons.1 hw' with rfl | hw'
      · rw [i4 _ fun w'' hw'' => ?_]
        · unfold writeImage
          rw [write_file _ _ (by rw [hf]; exact filename_image save kind c f) (h.image h0 himg) (by
            rw [hloc]
            have : (below save [kind, paddedTo 3 c, imageName f]).parent = below save [kind, paddedTo 3 c] := by
              unfold Loc.parent below
              simp
            rw [this]; exact hd), if_pos rfl]
        · intro e
          obtain ⟨f', hf'⟩ := hw.1 w'' (List.mem_cons_of_mem _ hw'')
          rw [hloc, hf', loc_image save hk] at e
          have : imageName f = imageName f' := by
            have := congrArg Loc.names e
            simpa [below] using this
          apply hnd.1
          rw [hf, imageName_inj this, ← hf']
          exact List.mem_map.2 ⟨w'', hw'', rfl⟩
      · exact i5 w' hw'

theorem saveCam_ok {d0 d : Disk (Content V G Pt K Img KP)} (h : Inv save d0 d) (h0 : Clear save d0) {kind : Str}
    (hk : kind ∈ kinds) (c : Nat) (ws : List (Written Img)) (hw : Shaped save kind c ws) :
    ∃ d', saveCam save kind d (ws, c) = .ok d' ∧ Inv save d0 d' ∧ (∀ x, d.dir x = true → d'.dir x = true) ∧
      d'.dir (loc save) = true ∧
      (∀ x, (∀ f, x ≠ below save [kind, paddedTo 3 c, imageName f]) → d'.file x = d.file x) ∧
      (∀ w ∈ ws, d'.file (loc w.file) = some (.image w.image w.circles)) ∧
      d'.dir (below save [kind, paddedTo 3 c]) = true := by
  obtain ⟨d1, a1, a2, a3, a4, a5⟩ := kindDir_ok h h0 hk
  obtain ⟨d2, b1, b2, b3, b4, b5⟩ := camDir_ok a2 h0 hk c a5
  obtain ⟨c1, c2, c3, _, c5⟩ := writeImages_ok b2 h0 hk c b5 ws hw
  refine ⟨ws.foldl writeImage d2, ?_, c1, fun x hx => ?_, ?_, fun x hx => ?_, c5, by rw [c2]; exact b5⟩
  · unfold saveCam
    rw [a1, Outcome.bind_ok, b1, Outcome.bind_ok]
    rfl
  · rw [c2]; exact b3 x (a3 x hx)
  · rw [c2]
    apply b3
    have := a2.sound.dirIn (loc save).abs (loc save).names kind a5
    exact this
  · rw [c3 x hx, b4, a4]

theorem saveImages_ok {d0 : Disk (Content V G Pt K Img KP)} (h0 : Clear save d0) {kind : Str} (hk : kind ∈ kinds)
    (l : List (List (Written Img))) : ∀ (k : Nat) (d : Disk (Content V G Pt K Img KP)), Inv save d0 d →
    (∀ (i : Nat) ws, l[i]? = some ws → Shaped save kind (k + i) ws) →
    ∃ d', Outcome.foldlM (saveCam save kind) d (l.zipIdx k) = .ok d' ∧ Inv save d0 d' ∧
      (∀ x, d.dir x = true → d'.dir x = true) ∧ (l ≠ [] → d'.dir (loc save) = true) ∧
      (∀ x, (∀ c f, k ≤ c → x ≠ below save [kind, paddedTo 3 c, imageName f]) → d'.file x = d.file x) ∧
      (∀ ws ∈ l, ∀ w ∈ ws, d'.file (loc w.file) = some (.image w.image w.circles)) ∧
      ∀ i < l.length, d'.dir (below save [kind, paddedTo 3 (k + i)]) = true := by
  induction l with
  | nil =>
    intro k d h _
    exact ⟨d, rfl, h, fun _ => id, (fun h => absurd rfl h), fun _ _ => rfl, (fun _ h => nomatch h), (fun _ h => nomatch h)⟩
  | cons ws l ih =>
    intro k d h hs
    obtain ⟨d1, a1, a2, a3, a4, a5, a6, a7⟩ := saveCam_ok h h0 hk k ws (by simpa using hs 0 ws rfl)
    obtain ⟨d2, b1, b2, b3, b4, b5, b6, b7⟩ := ih (k + 1) d1 a2 (fun i ws' hi => by
      have := hs (i + 1) ws' (by simpa using hi)
      rwa [show k + 1 + i = k + (i + 1) by omega])
    refine ⟨d2, ?_, b2, fun x hx => b3 x (a3 x hx), fun _ => b3 _ a4, fun x hx => ?_, fun ws' hws' w hw => ?_, fun i hi => ?_⟩
    · rw [List.zipIdx_cons, Outcome.foldlM_cons, a1, Outcome.bind_ok]
      exact b1
    · rw [b5 x fun c f hc => hx c f (by omega), a5 x fun f => hx k f (le_refl _)]
    · rcases List.mem_cons.1 hws' with rfl | hws'
      · obtain ⟨f, hf⟩ := (show Shaped save kind k ws' by simpa using hs 0 ws' rfl).1 w hw
        rw [b5 _ fun c f' hc e => ?_]
        · exact a6 w hw
        · rw [hf, loc_image save hk] at e
          have h2 : paddedTo 3 k = paddedTo 3 c ∧ imageName f = imageName f' := by
            have := congrArg Loc.names e
            simpa [below] using this
          have := paddedTo_inj h2.1
          omega
      · exact b6 ws' hws' w hw
    · obtain _ | i := i
      · exact b3 _ a7
      · have := b7 i (by simpa using hi)
        rwa [show k + 1 + i = k + (i + 1) by omega] at this

end Verif.Lemmas.Disk
