import Verif.Model.Crash
import Verif.Spec.Crash
import Verif.Props.WholeSame

/-! C87: interrupted runs. -/
namespace Verif.Props.Crash
open Verif Verif.Folders Verif.Start Verif.Disk Verif.Crash Verif.Spec.Disk Verif.Spec.Crash Verif.Spec.Whole Verif.Lemmas.Disk
open Verif.Props.Disk (mkdir_file create_file cameraFile_eq plain_report plain_default not_made not_image)
open Verif.Images (paddedTo)

variable {V G Pt K Img KP : Type}

theorem foldlM_flatMap {σ α β : Type} (f : σ → β → Outcome σ) (g : α → List β) (l : List α) (s : σ) :
    Outcome.foldlM f s (l.flatMap g) = Outcome.foldlM (fun s a => Outcome.foldlM f s (g a)) s l := by
  induction l generalizing s with
  | nil => rfl
  | cons a l ih =>
    rw [List.flatMap_cons, Outcome.foldlM_append, Outcome.foldlM_cons]
    congr 1
    funext t
    exact ih t

theorem exec_images (save : Str) (ws : List (Images.Written Img)) (d : Disk (Content V G Pt K Img KP)) :
    Outcome.foldlM (exec save) d (ws.map imageStep) = .ok (ws.foldl writeImage d) := by
  induction ws generalizing d with
  | nil => rfl
  | cons w ws ih =>
    rw [List.map_cons, Outcome.foldlM_cons]
    exact ih _

theorem exec_cam (save kind : Str) (e : List (Images.Written Img) × Nat) (d : Disk (Content V G Pt K Img KP)) :
    Outcome.foldlM (exec save) d (camSteps kind e) = saveCam save kind d e := by
  unfold camSteps saveCam
  rw [Outcome.foldlM_cons]
  show (Disk.kindDir save kind d >>= fun t => _) = _
  congr 1
  funext t
  rw [Outcome.foldlM_cons]
  show (Disk.camDir save kind e.2 t >>= fun t => _) = _
  congr 1
  funext t
  exact exec_images save e.1 t

/-- C87: the steps are those of a run. -/
theorem C87_steps (save name : Str) (rep : Finish.Reports V G Pt K Img) (kp : KP) (d : Disk (Content V G Pt K Img KP)) :
    Outcome.foldlM (exec save) d (steps save name rep kp) = saveAll save name rep kp d := by
  have hf : ∀ d : Disk (Content V G Pt K Img KP), Outcome.foldlM (exec save) d (fileSteps save name rep kp) =
      .ok (saveFiles save name rep kp d) := fun d => rfl
  unfold steps saveAll saveImages
  rw [List.cons_append, Outcome.foldlM_cons]
  show (makeSaveDir d save >>= fun t => _) = _
  congr 1
  funext t
  rw [Outcome.foldlM_append, Outcome.foldlM_append, foldlM_flatMap, Lemmas.WholeSame.bind_assoc']
  simp only [exec_cam, foldlM_flatMap, hf]
  rfl

/-! ### What a step changes -/

theorem mkdir_dir {C : Type} {d d' : Disk C} {l : Loc} (h : mkdir d l = .ok d') (hs : Sound d) :
    Sound d' ∧ (∀ x, d.dir x = true → d'.dir x = true) ∧ ∀ x, d'.dir x = true → d.dir x = true ∨ x = l := by
  by_cases hd : d.dir l = true
  · have : d' = d := by
      unfold mkdir at h
      rw [if_pos hd] at h
      cases h
      rfl
    subst this
    exact ⟨hs, fun _ => id, fun _ => Or.inl⟩
  · have hc : ¬ ((d.file l).isSome || !d.dir l.parent) = true := by
      intro hc
      unfold mkdir at h
      rw [if_neg hd, if_pos hc] at h
      cases h
    have hc' : d.file l = none ∧ d.dir l.parent = true := by
      simpa using hc
    obtain ⟨e, e1, e2, e3⟩ := mkdir_ok d l hc'.2 hc'.1
    rw [h] at e1
    cases e1
    exact ⟨sound_mkdir hs hc'.2 hc'.1 e2 e3, fun x hx => (e2 x).2 (.inr hx), fun x hx => ((e2 x).1 hx).symm⟩

/-- From `d` to `d'` only directories in `D` and files in `F` are new. -/
structure Within {C : Type} (D F : Loc → Prop) (d d' : Disk C) : Prop where
  sound : Sound d'
  dirs : ∀ x, d.dir x = true → d'.dir x = true
  newDirs : ∀ x, d'.dir x = true → d.dir x = true ∨ D x
  others : ∀ x, ¬ F x → d'.file x = d.file x

section
variable {C : Type} {D F : Loc → Prop} {d d' d'' : Disk C}

theorem Within.refl (h : Sound d) : Within D F d d := ⟨h, fun _ => id, fun _ => Or.inl, fun _ _ => rfl⟩

theorem Within.trans (h : Within D F d d') (h' : Within D F d' d'') : Within D F d d'' :=
  ⟨h'.sound, fun x hx => h'.dirs x (h.dirs x hx), fun x hx => (h'.newDirs x hx).elim (h.newDirs x) Or.inr,
    fun x hx => (h'.others x hx).trans (h.others x hx)⟩

theorem within_mkdir {l : Loc} (hl : D l) (hs : Sound d) (h : mkdir d l = .ok d') : Within D F d d' := by
  obtain ⟨h1, h2, h3⟩ := mkdir_dir h hs
  exact ⟨h1, h2, fun x hx => (h3 x hx).imp_right (fun e => by rw [e]; exact hl), fun x _ => by rw [mkdir_file h]⟩

theorem within_mkdirs {ls : List Loc} (hl : ∀ l ∈ ls, D l) (hs : Sound d) (h : Outcome.foldlM mkdir d ls = .ok d') :
    Within D F d d' :=
  Outcome.foldlM_inv (fun e => Within D F d e) (fun _ _ x hx hi hm => hi.trans (within_mkdir (hl x hx) hi.sound hm)) (.refl hs) h

theorem within_write {p : Str} (hp : F (loc p)) (hs : Sound d) (v : C) : Within D F d (write d p v) :=
  ⟨sound_write hs p v, fun x hx => by rw [write_dir]; exact hx, fun x hx => .inl (by rw [write_dir] at hx; exact hx),
    fun x hx => write_other p v x (fun e => hx (by rw [e]; exact hp))⟩

end

/-- What a step may make. -/
def Allowed (save : Str) (D F : Loc → Prop) : Step V G Pt K Img KP → Prop
  | .saveDir => ∀ k, D ⟨(loc save).abs, (loc save).names.take k⟩
  | .kindDir kind => ∀ k, D ⟨(loc (join save kind)).abs, (loc (join save kind)).names.take k⟩
  | .camDir kind c => D (loc (join (join save kind) (paddedTo 3 c)))
  | .put p _ => F (loc p)

section
variable {D F : Loc → Prop} {save name : Str} {rep : Finish.Reports V G Pt K Img} {kp : KP}

theorem within_create {C : Type} {d d' : Disk C} {p : Str} (hp : ∀ k, D ⟨(loc p).abs, (loc p).names.take k⟩) (hs : Sound d)
    (h : createDirectories d p = .ok d') : Within D F d d' := by
  refine within_mkdirs ?_ hs h
  intro l hl
  obtain ⟨i, _, rfl⟩ := List.mem_map.1 hl
  exact hp _

theorem within_exec {d d' : Disk (Content V G Pt K Img KP)} {s : Step V G Pt K Img KP} (ha : Allowed save D F s) (hs : Sound d)
    (h : exec save d s = .ok d') : Within D F d d' := by
  cases s with
  | saveDir =>
    have h : makeSaveDir d save = .ok d' := h
    unfold makeSaveDir at h
    split at h
    · exact within_create ha hs h
    · cases h
      exact .refl hs
  | kindDir kind =>
    have h : Disk.kindDir save kind d = .ok d' := h
    unfold Disk.kindDir at h
    split at h
    · exact within_create ha hs h
    · cases h
      exact .refl hs
  | camDir kind c =>
    have h : Disk.camDir save kind c d = .ok d' := h
    unfold Disk.camDir at h
    split at h
    · exact within_mkdir ha hs h
    · cases h
      exact .refl hs
  | put p v =>
    cases h
    exact within_write ha hs v

theorem within_torn {d d' : Disk (Content V G Pt K Img KP)} {s : Step V G Pt K Img KP} (ha : Allowed save D F s) (hs : Sound d)
    (h : Torn save d s d') : Within D F d d' := by
  cases h with
  | saveDir n d' h =>
    refine within_mkdirs ?_ hs h
    intro l hl
    obtain ⟨i, _, rfl⟩ := List.mem_map.1 hl
    exact ha _
  | kindDir kind n d' h =>
    refine within_mkdirs ?_ hs h
    intro l hl
    obtain ⟨i, _, rfl⟩ := List.mem_map.1 hl
    exact ha _
  | put p v v' => exact within_write ha hs v'

theorem needed_kind {kind : Str} (hk : kind ∈ kinds) (h : Needed save rep (below save [kind])) (k : Nat) :
    Needed save rep ⟨(loc (join save kind)).abs, (loc (join save kind)).names.take k⟩ := by
  rw [loc_join_plain save (plain_kind hk)]
  rcases take_below (save := save) (kind := kind) k with ⟨k', e⟩ | e
  · rw [e]; exact .inl ⟨k', rfl⟩
  · rw [e]; exact h

theorem loc_cam (save : Str) {kind : Str} (hk : kind ∈ kinds) (c : Nat) :
    loc (join (join save kind) (paddedTo 3 c)) = below save [kind, paddedTo 3 c] := by
  rw [loc_join_plain _ (plain_cam c), below_join _ (plain_kind hk)]

theorem allowed_cams {kind : Str} (hk : kind ∈ kinds) (l : List (List (Images.Written Img)))
    (h1 : l ≠ [] → Needed save rep (below save [kind])) (h2 : ∀ c < l.length, Needed save rep (below save [kind, paddedTo 3 c]))
    (h3 : ∀ ws ∈ l, ws ∈ rep.detections ++ rep.reprojections) :
    ∀ s ∈ l.zipIdx.flatMap (camSteps kind), Allowed (V := V) (G := G) (Pt := Pt) (K := K) (KP := KP) save (Needed save rep) (Result save name rep) s := by
  intro s hs
  obtain ⟨⟨ws, c⟩, he, hs⟩ := List.mem_flatMap.1 hs
  have hc := List.mk_mem_zipIdx_iff_getElem?.1 he
  obtain ⟨hlt, hget⟩ := List.getElem?_eq_some_iff.1 hc
  unfold camSteps at hs
  rcases List.mem_cons.1 hs with rfl | hs
  · exact needed_kind hk (h1 (by rintro rfl; simp at hlt))
  rcases List.mem_cons.1 hs with rfl | hs
  · show Needed save rep (loc (join (join save kind) (paddedTo 3 c)))
    rw [loc_cam save hk]
    exact h2 c hlt
  · obtain ⟨w, hw, rfl⟩ := List.mem_map.1 hs
    exact .inr ⟨ws, h3 ws (hget ▸ List.getElem_mem hlt), w, hw, rfl⟩

theorem plain_camera (hname : name = [] ∨ Plain name) : Plain (cameraName name) := by
  unfold cameraName
  split
  · exact plain_default.1
  · next h => exact hname.resolve_left h

theorem allowed_steps (hname : name = [] ∨ Plain name) :
    ∀ s ∈ steps save name rep kp, Allowed save (Needed save rep) (Result save name rep) s := by
  intro s hs
  unfold steps at hs
  rw [List.cons_append, List.mem_cons, List.mem_append, List.mem_append] at hs
  rcases hs with rfl | (hs | hs) | hs
  · exact fun k => .inl ⟨k, rfl⟩
  · exact allowed_cams (by decide) rep.detections (fun h => .inr (.inl ⟨h, rfl⟩)) (fun c hc => .inr (.inr (.inr (.inl ⟨c, hc, rfl⟩))))
      (fun ws h => List.mem_append_left _ h) s hs
  · exact allowed_cams (by decide) rep.reprojections (fun h => .inr (.inr (.inl ⟨h, rfl⟩)))
      (fun c hc => .inr (.inr (.inr (.inr ⟨c, hc, rfl⟩)))) (fun ws h => List.mem_append_right _ h) s hs
  · have key : ∀ b ∈ cameraName name :: reportNames, Result save name rep (loc (join save b)) := by
      intro b hb
      have hp : Plain b := by
        rcases List.mem_cons.1 hb with rfl | hb
        · exact plain_camera hname
        · exact (plain_report hb).1
      exact .inl ⟨b, hb, loc_join_plain save hp⟩
    unfold fileSteps at hs
    simp only [List.mem_cons, List.not_mem_nil, or_false] at hs
    rcases hs with rfl | rfl | rfl | rfl | rfl
    · show Result save name rep (loc (cameraFile save name))
      rw [cameraFile_eq]
      exact key _ (by simp)
    · exact key _ (by simp [reportNames])
    · exact key _ (by simp [reportNames])
    · exact key _ (by simp [reportNames])
    · exact key _ (by simp [reportNames])

theorem left_of_within {d dk : Disk (Content V G Pt K Img KP)} (h : Within (Needed save rep) (Result save name rep) d dk) :
    Left save name rep d dk := ⟨h.sound, h.dirs, h.newDirs, h.others⟩

/-- C87: wherever a run is interrupted while it writes: nothing is gone, and nothing is new or changed but results and the
directories for them. -/
theorem C87_crash (hname : name = [] ∨ Plain name) {d dk : Disk (Content V G Pt K Img KP)} (hs : Sound d)
    (h : Crash save name rep kp d dk) : Left save name rep d dk := by
  obtain ⟨done, rest, dm, e, h1, h2⟩ := h
  have ha := allowed_steps (save := save) (rep := rep) (kp := kp) hname
  rw [e] at ha
  have hm : Within (Needed save rep) (Result save name rep) d dm :=
    Outcome.foldlM_inv (fun e => Within (Needed save rep) (Result save name rep) d e)
      (fun _ _ x hx hi hm => hi.trans (within_exec (ha x (List.mem_append_left _ hx)) hi.sound hm)) (.refl hs) h1
  rcases h2 with rfl | ⟨s, hs', ht⟩
  · exact left_of_within hm
  · exact left_of_within (hm.trans (within_torn (ha s (List.mem_append_right _ (List.mem_of_head? hs'))) hm.sound ht))

theorem left_saveAll (hname : name = [] ∨ Plain name) {d d' : Disk (Content V G Pt K Img KP)} (hs : Sound d)
    (h : saveAll save name rep kp d = .ok d') : Left save name rep d d' :=
  C87_crash (kp := kp) hname hs ⟨_, [], d', (List.append_nil _).symm, by rw [C87_steps]; exact h, .inl rfl⟩

/-- The images of a run have the names of frames. -/
structure Shapes (save : Str) (rep : Finish.Reports V G Pt K Img) : Prop where
  detections : ∀ (i : Nat) ws, rep.detections[i]? = some ws → Shaped save "Detection".toList i ws
  reprojections : ∀ (i : Nat) ws, rep.reprojections[i]? = some ws → Shaped save "Reprojection".toList i ws

theorem Shapes.place (h : Shapes save rep) : ∀ ws ∈ rep.detections ++ rep.reprojections, ∀ w ∈ ws, ImagePlace save (loc w.file) := by
  intro ws hws w hw
  rcases List.mem_append.1 hws with hws | hws
  · obtain ⟨i, hi⟩ := List.getElem?_of_mem hws
    obtain ⟨f, hf⟩ := (h.detections i ws hi).1 w hw
    exact ⟨"Detection".toList, by decide, i, f, by rw [hf, loc_image save (by decide)]⟩
  · obtain ⟨i, hi⟩ := List.getElem?_of_mem hws
    obtain ⟨f, hf⟩ := (h.reprojections i ws hi).1 w hw
    exact ⟨"Reprojection".toList, by decide, i, f, by rw [hf, loc_image save (by decide)]⟩

theorem made_of_needed {x : Loc} (h : Needed save rep x) : Made save x := by
  rcases h with h | ⟨_, h⟩ | ⟨_, h⟩ | ⟨c, _, h⟩ | ⟨c, _, h⟩
  · exact .inl h
  · exact .inr ⟨_, by decide, .inl h⟩
  · exact .inr ⟨_, by decide, .inl h⟩
  · exact .inr ⟨_, by decide, .inr ⟨c, h⟩⟩
  · exact .inr ⟨_, by decide, .inr ⟨c, h⟩⟩

theorem names_not_kinds (hname : name = [] ∨ Plain name ∧ name ∉ kinds ∧ name ∉ reportNames) :
    ∀ b ∈ cameraName name :: reportNames, b ∉ kinds := by
  intro b hb
  rcases List.mem_cons.1 hb with rfl | hb
  · unfold cameraName
    split
    · exact plain_default.2.1
    · next h => exact (hname.resolve_left h).2.1
  · exact (plain_report hb).2

/-- C87: after an interrupted run, nothing is in the way of the next, whatever its results. -/
theorem C87_ready {d dk : Disk (Content V G Pt K Img KP)} (hd : Ready save name d) (hsh : Shapes save rep)
    (h : Left save name rep d dk) : Ready save name dk where
  sound := h.sound
  clear := by
    refine ⟨fun x hx => ?_, fun x hx => ?_⟩
    · rw [h.others x, hd.clear.made x hx]
      rintro (⟨b, hb, rfl⟩ | ⟨ws, hws, w, hw, rfl⟩)
      · exact not_made (names_not_kinds hd.name b hb) hx
      · exact made_not_image hx (hsh.place ws hws w hw)
    · cases hh : dk.dir x with
      | false => rfl
      | true =>
        rcases h.newDirs x hh with h1 | h1
        · rw [hd.clear.image x hx] at h1; cases h1
        · exact absurd hx (made_not_image (made_of_needed h1))
  free := by
    intro b hb
    cases hh : dk.dir (below save [b]) with
    | false => rfl
    | true =>
      rcases h.newDirs _ hh with h1 | h1
      · rw [hd.free b hb] at h1; cases h1
      · exact absurd (made_of_needed h1) (not_made (names_not_kinds hd.name b hb))
  name := hd.name
  place := hd.place.imp_left (h.dirs _)

/-- All directories that results need exist after a complete run. -/
theorem needed_dir {d d' : Disk (Content V G Pt K Img KP)} (hs : Sound d') (w : Props.Disk.Written save name rep kp d d')
    {x : Loc} (h : Needed save rep x) : d'.dir x = true := by
  have up : ∀ kind c, d'.dir (below save [kind, paddedTo 3 c]) = true → d'.dir (below save [kind]) = true := by
    intro kind c h
    refine hs.dirIn (loc save).abs ((loc save).names ++ [kind]) (paddedTo 3 c) ?_
    rw [List.append_assoc]
    exact h
  rcases h with ⟨k, rfl⟩ | ⟨h, rfl⟩ | ⟨h, rfl⟩ | ⟨c, hc, rfl⟩ | ⟨c, hc, rfl⟩
  · exact dir_take hs w.place k
  · exact up _ 0 (w.detectionFolders 0 (List.length_pos_iff.2 h))
  · exact up _ 0 (w.reprojectionFolders 0 (List.length_pos_iff.2 h))
  · exact w.detectionFolders c hc
  · exact w.reprojectionFolders c hc

/-- C82, exactly: after a complete run, besides the results only the directories that they need are new, all other files
(also images of former runs) are as before. -/
theorem C82_exact (kp : KP) {d d' : Disk (Content V G Pt K Img KP)} (hd : Ready save name d) (hsh : Shapes save rep)
    (h : saveAll save name rep kp d = .ok d') :
    (∀ x, d'.dir x = true ↔ d.dir x = true ∨ Needed save rep x) ∧ ∀ x, ¬ Result save name rep x → d'.file x = d.file x := by
  have hl := left_saveAll (hd.name.imp_right And.left) hd.sound h
  obtain ⟨e, a1, a2⟩ := Props.Disk.C82_written (name := name) kp hd.sound hd.clear hsh.1 hsh.2 hd.free hd.name (hd.place.imp_right .inl)
  rw [h] at a1
  cases a1
  exact ⟨fun x => ⟨hl.newDirs x, fun hx => hx.elim (hl.dirs x) (needed_dir hl.sound a2)⟩, hl.others⟩

/-- C87: writing the results once more after an interruption leaves exactly what an uninterrupted run leaves. -/
theorem C87_recover (kp : KP) {d dk : Disk (Content V G Pt K Img KP)} (hd : Ready save name d) (hsh : Shapes save rep)
    (h : Left save name rep d dk) : ∃ d', saveAll save name rep kp d = .ok d' ∧ saveAll save name rep kp dk = .ok d' := by
  have hk := C87_ready hd hsh h
  have hpn := hd.name.imp_right And.left
  obtain ⟨d', a1, a2⟩ := Props.Disk.C82_written (name := name) kp hd.sound hd.clear hsh.1 hsh.2 hd.free hd.name (hd.place.imp_right .inl)
  obtain ⟨e', b1, b2⟩ := Props.Disk.C82_written (name := name) kp hk.sound hk.clear hsh.1 hsh.2 hk.free hk.name (hk.place.imp_right .inl)
  have la := left_saveAll hpn hd.sound a1
  have lb := left_saveAll hpn hk.sound b1
  refine ⟨d', a1, ?_⟩
  rw [b1]
  congr 1
  have hdir : e'.dir = d'.dir := by
    funext x
    rw [Bool.eq_iff_iff]
    constructor
    · intro hx
      rcases lb.newDirs x hx with hx | hx
      · rcases h.newDirs x hx with hx | hx
        · exact la.dirs x hx
        · exact needed_dir la.sound a2 hx
      · exact needed_dir la.sound a2 hx
    · intro hx
      rcases la.newDirs x hx with hx | hx
      · exact lb.dirs x (h.dirs x hx)
      · exact needed_dir lb.sound b2 hx
  have hfile : e'.file = d'.file := by
    funext x
    by_cases hx : Result save name rep x
    · rcases hx with ⟨b, hb, rfl⟩ | ⟨ws, hws, w, hw, rfl⟩
      · simp only [reportNames, List.mem_cons, List.not_mem_nil, or_false] at hb
        rcases hb with rfl | rfl | rfl | rfl | rfl
        · rw [a2.cameras, b2.cameras]
        · rw [a2.objects, b2.objects]
        · rw [a2.poses, b2.poses]
        · rw [a2.errors, b2.errors]
        · rw [a2.keypoints, b2.keypoints]
      · rw [a2.images ws hws w hw, b2.images ws hws w hw]
    · rw [lb.others x hx, h.others x hx, la.others x hx]
  cases e'
  cases d'
  simp only at hdir hfile
  rw [hdir, hfile]

/-- While the last file is written. -/
theorem crash_last {d : Disk (Content V G Pt K Img KP)} (hd : Ready save name d) (hsh : Shapes save rep) (kp : KP)
    (v : Content V G Pt K Img KP) : ∃ dk, Crash save name rep kp d dk ∧ dk.file (loc (keypointFile save)) = some v := by
  obtain ⟨d', a1, a2⟩ := Props.Disk.C82_written (name := name) kp hd.sound hd.clear hsh.1 hsh.2 hd.free hd.name (hd.place.imp_right .inl)
  obtain ⟨done, e⟩ : ∃ done, steps save name rep kp = done ++ [.put (keypointFile save) (.keypoints kp)] := by
    refine ⟨.saveDir :: (rep.detections.zipIdx.flatMap (camSteps "Detection".toList) ++
      rep.reprojections.zipIdx.flatMap (camSteps "Reprojection".toList)) ++
      [.put (cameraFile save name) (.cameras rep.cameras), .put (objectFile save) (.objects rep.objects),
      .put (poseFile save) (.poses rep.poses), .put (errorFile save) (.errors rep.errors)], ?_⟩
    unfold steps
    rw [List.append_assoc]
    rfl
  have a3 := a1
  rw [← C87_steps, e, Outcome.foldlM_append] at a3
  obtain ⟨dm, m1, m2⟩ := Outcome.bind_eq_ok.1 a3
  cases m2
  have hm : Crash save name rep kp d dm := ⟨_, _, dm, e, m1, .inl rfl⟩
  have hr := C87_ready hd hsh (C87_crash (hd.name.imp_right And.left) hd.sound hm)
  refine ⟨write dm (keypointFile save) v, ⟨_, _, dm, e, m1, .inr ⟨_, rfl, .put _ _ v⟩⟩, ?_⟩
  have hp : Plain "detected_keypoints_data.yml".toList := (plain_report (by simp [reportNames])).1
  have hloc : loc (keypointFile save) = below save ["detected_keypoints_data.yml".toList] := loc_join_plain _ hp
  have hpl : dm.dir (loc save) = true := by
    have := a2.place
    rwa [write_dir] at this
  have := Props.Disk.write_below (save := save) hp v (hr.free _ (by simp [reportNames])) hpl (loc (keypointFile save))
  rw [hloc, if_pos rfl] at this
  rw [hloc]
  exact this

/-! ### Whole runs -/

section
open Verif.Whole
variable {K' Q : Type} [Group G] [SMul G Pt] [Field K'] [LinearOrder K'] [Zero K] [One K] (u : Setup V G Pt K K' Q Img)

theorem conclude_eq (d : Files V G Pt K Img) (k : KStore (ℝ × ℝ) Str) :
    conclude u d k = results u k >>= fun q => saveAll u.en.save u.name q.1 q.2 d := by
  unfold conclude results
  simp only [Lemmas.WholeSame.bind_assoc']
  rfl

theorem shapes_results {l : List (Insertion (ℝ × ℝ) Str)} {d : Files V G Pt K Img} {k : KStore (ℝ × ℝ) Str}
    {q : Finish.Reports V G Pt K Img × KeyFile (ℝ × ℝ) Str} (hk : extract u l d = .ok k) (h : results u k = .ok q) :
    Shapes u.en.save q.1 := by
  obtain ⟨m, hm⟩ := WholeSame.extract_history u hk
  unfold results at h
  obtain ⟨x, -, h⟩ := Outcome.bind_eq_ok.1 h
  obtain ⟨r, -, h⟩ := Outcome.bind_eq_ok.1 h
  obtain ⟨rep, a3, h⟩ := Outcome.bind_eq_ok.1 h
  obtain ⟨kp, -, h⟩ := Outcome.bind_eq_ok.1 h
  cases h
  obtain ⟨s1, s2⟩ := Lemmas.ReportShaped.report_shaped
    (OMap.keys_nodup (Lemmas.Schedule.describes_of_run hm).1.frames_sorted) a3
  exact ⟨s1, s2⟩

omit [Group G] [SMul G Pt] [Field K'] [LinearOrder K'] [Zero K] [One K] in
theorem extract_left {rep : Finish.Reports V G Pt K Img} {d dk : Files V G Pt K Img} (h : Left u.en.save u.name rep d dk)
    (hkey : u.keypoints = [] ∨ u.keypoints = "None".toList ∨
      ¬ Result u.en.save u.name rep (loc u.keypoints) ∧ ¬ Needed u.en.save rep (loc u.keypoints))
    (l : List (Insertion (ℝ × ℝ) Str)) : extract u l dk = extract u l d := by
  unfold extract boardExtraction
  rcases hkey with hkey | hkey | ⟨h1, h2⟩
  · rw [if_neg (fun h => h.1 hkey), if_neg (fun h => h.1 hkey)]
  · rw [if_neg (fun h => h.2.1 hkey), if_neg (fun h => h.2.1 hkey)]
  · have hd : dk.dir (loc u.keypoints) = d.dir (loc u.keypoints) := by
      rw [Bool.eq_iff_iff]
      exact ⟨fun hx => (h.newDirs _ hx).resolve_right h2, h.dirs _⟩
    have hf := h.others _ h1
    have hh : dk.has u.keypoints = d.has u.keypoints := by
      unfold Disk.has
      rw [hd, hf]
    have hl : Whole.load u dk u.keypoints = Whole.load u d u.keypoints := by
      unfold Whole.load readKeypoints
      rw [hf]
    rw [hh, hl]

/-- C87: a run that is started again after it was interrupted leaves exactly the files that it would have left without
interruption, unless it is told to read its own keypoint file. -/
theorem C87_rerun (l : List (Insertion (ℝ × ℝ) Str)) {d dk : Files V G Pt K Img} (hd : Ready u.en.save u.name d)
    {k : KStore (ℝ × ℝ) Str} {q : Finish.Reports V G Pt K Img × KeyFile (ℝ × ℝ) Str} (hk : extract u l d = .ok k)
    (hq : results u k = .ok q) (hc : Crash u.en.save u.name q.1 q.2 d dk)
    (hkey : u.keypoints = [] ∨ u.keypoints = "None".toList ∨
      ¬ Result u.en.save u.name q.1 (loc u.keypoints) ∧ ¬ Needed u.en.save q.1 (loc u.keypoints)) :
    ∃ d', Verif.Whole.run u l d = .ok d' ∧ Verif.Whole.run u l dk = .ok d' := by
  have hl := C87_crash (hd.name.imp_right And.left) hd.sound hc
  obtain ⟨d', h1, h2⟩ := C87_recover q.2 hd (shapes_results u hk hq) hl
  refine ⟨d', ?_, ?_⟩
  · unfold Verif.Whole.run
    rw [hk, Outcome.bind_ok, conclude_eq, hq, Outcome.bind_ok]
    exact h1
  · unfold Verif.Whole.run
    rw [extract_left u hl hkey, hk, Outcome.bind_ok, conclude_eq, hq, Outcome.bind_ok]
    exact h2

/-- C87: the exception. A run that is told to read its own keypoint file, if there is one, can be interrupted so that the
next run takes the damaged file for its detections, and does not look at its images. -/
theorem C87_own_keypoints (hu : u.keypoints = keypointFile u.en.save) (l : List (Insertion (ℝ × ℝ) Str)) {d : Files V G Pt K Img}
    (hd : Ready u.en.save u.name d) {k : KStore (ℝ × ℝ) Str} {q : Finish.Reports V G Pt K Img × KeyFile (ℝ × ℝ) Str}
    (hk : extract u l d = .ok k) (hq : results u k = .ok q) (n : Nat) :
    ∃ dk, Crash u.en.save u.name q.1 q.2 d dk ∧ ∀ l', extract u l' dk = u.other (.other n) >>= fun file =>
      Keypoints.load u.debug u.nbCam u.geoms.length file := by
  obtain ⟨dk, h1, h2⟩ := crash_last hd (shapes_results u hk hq) q.2 (.other n)
  refine ⟨dk, h1, fun l' => ?_⟩
  have hp : Plain "detected_keypoints_data.yml".toList := (plain_report (by simp [reportNames])).1
  have hfn : filename (keypointFile u.en.save) = "detected_keypoints_data.yml".toList := filename_plain _ hp
  have hnil : keypointFile u.en.save ≠ [] := join_ne_nil _ hp
  have hkN : keypointFile u.en.save ≠ "None".toList := by
    intro h
    rw [h] at hfn
    exact absurd hfn (by decide)
  have hhas : dk.has (keypointFile u.en.save) = true := by
    unfold Disk.has
    rw [h2, hfn]
    simp [hnil]
  unfold extract boardExtraction
  rw [hu, if_pos ⟨hnil, hkN, hhas⟩]
  unfold Whole.load readKeypoints
  rw [h2]

/-- C87: the second run may use another schedule, if the numerical parts are reproducible as in C86. -/
theorem C87_rerun_schedules [Field Q] [LinearOrder Q] (hdo : DataOnly u.search) (hr : ∀ f ∈ u.refine, OrderFree f)
    (ts : List (List (List (Insertion (ℝ × ℝ) Str))))
    (hts : cameraTasks u.fitLine u.cfg u.geoms u.raw u.glob u.root u.pre u.nbCam = .ok ts)
    (l l' : List (Insertion (ℝ × ℝ) Str)) (hl : Detection.Schedule ts l) (hl' : Detection.Schedule ts l')
    {d dk : Files V G Pt K Img} (hd : Ready u.en.save u.name d)
    {k : KStore (ℝ × ℝ) Str} {q : Finish.Reports V G Pt K Img × KeyFile (ℝ × ℝ) Str} (hk : extract u l d = .ok k)
    (hq : results u k = .ok q) (hc : Crash u.en.save u.name q.1 q.2 d dk)
    (hkey : u.keypoints = [] ∨ u.keypoints = "None".toList ∨
      ¬ Result u.en.save u.name q.1 (loc u.keypoints) ∧ ¬ Needed u.en.save q.1 (loc u.keypoints)) :
    ∃ d', Verif.Whole.run u l d = .ok d' ∧ Verif.Whole.run u l' dk = .ok d' := by
  obtain ⟨d', h1, h2⟩ := C87_rerun u l hd hk hq hc hkey
  exact ⟨d', h1, (WholeSame.C86_schedules u hdo hr ts hts l l' hl hl' dk d').1 h2⟩

end

end

/-! ### A case -/
namespace Example
open Verif.Props.Disk.Example

theorem ready : Ready save [] d0 := ⟨sound, clear, by decide, .inl rfl, .inr (by decide)⟩

theorem shapes : Shapes save rep where
  detections i ws h := by
    obtain _ | i := i
    · simp only [rep, List.getElem?_cons_zero, Option.some.injEq] at h
      subst h
      exact ⟨by simp, by simp⟩
    · simp [rep] at h
  reprojections i ws h := by simp [rep] at h

/-- The run is interrupted when its last file is half-written; writing the results again repairs it. -/
example : ∃ dk d', Crash save [] rep 9 d0 dk ∧ dk.file (loc (keypointFile save)) = some (.other 13) ∧
    saveAll save [] rep 9 dk = .ok d' ∧ d'.file (loc (keypointFile save)) = some (.keypoints 9) ∧
    d'.file ⟨false, [data, truth]⟩ = some (.other 7) := by
  obtain ⟨dk, h1, h2⟩ := crash_last ready shapes 9 (.other 13)
  have hl := C87_crash (.inl rfl) sound h1
  obtain ⟨d', h3, h4⟩ := C87_recover 9 ready shapes hl
  obtain ⟨e, w1, w2⟩ := Props.Disk.C82_written (name := []) (kp := 9) sound clear shapes.1 shapes.2 ready.free ready.name (.inr (.inl (by decide)))
  rw [h3] at w1
  cases w1
  have hp : Plain "detected_keypoints_data.yml".toList := (plain_report (by simp [reportNames])).1
  refine ⟨dk, d', h1, h2, h4, ?_, ?_⟩
  · rw [show loc (keypointFile save) = below save ["detected_keypoints_data.yml".toList] from loc_join_plain _ hp]
    exact w2.keypoints
  · rw [w2.others ⟨false, [data, truth]⟩ (by decide)]
    · rfl
    · rintro ⟨kind, _, c, f, e⟩
      have := congrArg (fun x : Loc => x.names.length) e
      simp [below, loc_save] at this

/-- An interruption when nothing but the first of two directories has been made. -/
example : ∃ dk, Crash save [] rep 9 d0 dk ∧ dk.dir ⟨false, [data]⟩ = true ∧ dk.dir (loc save) = false :=
  ⟨d0, ⟨[], _, d0, rfl, rfl, .inr ⟨_, rfl, .saveDir 1 d0 rfl⟩⟩, rfl, by decide⟩

end Example

end Verif.Props.Crash
