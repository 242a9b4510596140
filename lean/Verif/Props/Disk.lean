import Verif.Lemmas.DiskSave
import Verif.Props.Finish

/-! C82: where the results are. -/
namespace Verif.Props.Disk
open Verif.Images (imageFile)
open Verif Verif.Folders Verif.Start Verif.Disk Verif.Spec.Disk Verif.Lemmas.Disk

variable {V G Pt K Img KP Path : Type}

theorem plain_report {b : Str} (h : b ∈ reportNames) : Plain b ∧ b ∉ kinds := by
  simp only [reportNames, List.mem_cons, List.not_mem_nil, or_false] at h
  rcases h with rfl | rfl | rfl | rfl <;> exact ⟨⟨by decide, by decide⟩, by decide⟩

theorem plain_default : Plain "calibrated_cameras_data.yml".toList ∧ "calibrated_cameras_data.yml".toList ∉ kinds ∧
    "calibrated_cameras_data.yml".toList ∉ reportNames := ⟨⟨by decide, by decide⟩, by decide, by decide⟩

theorem cameraFile_eq (save name : Str) : cameraFile save name = join save (cameraName name) := by
  unfold cameraFile cameraName
  by_cases h : name = [] <;> simp [h]

/-- A result is not in a place where directories or images may be made. -/
theorem not_made {save b : Str} (hb : b ∉ kinds) : ¬Made save (below save [b]) := by
  rintro (⟨k, h⟩ | ⟨kind, hk, h | ⟨c, h⟩⟩)
  · have := congrArg (fun x : Loc => x.names.length) h
    simp [below] at this
    omega
  · have := congrArg Loc.names h
    simp [below] at this
    exact hb (this ▸ hk)
  · have := congrArg (fun x : Loc => x.names.length) h
    simp [below] at this

theorem not_image {save b : Str} : ¬ImagePlace save (below save [b]) := by
  rintro ⟨kind, _, c, f, h⟩
  have := congrArg (fun x : Loc => x.names.length) h
  simp [below] at this

theorem below_inj {save b c : Str} (h : below save [b] = below save [c]) : b = c := by
  have := congrArg Loc.names h
  simpa [below] using this

section
variable (save name : Str) (rep : Finish.Reports V G Pt K Img) (kp : KP) (d : Disk (Content V G Pt K Img KP))

/-- What the directory holds after a run. -/
structure Written (d' : Disk (Content V G Pt K Img KP)) : Prop where
  cameras : d'.file (below save [cameraName name]) = some (.cameras rep.cameras)
  objects : d'.file (below save ["calibrated_objects_data.yml".toList]) = some (.objects rep.objects)
  poses : d'.file (below save ["calibrated_objects_pose_data.yml".toList]) = some (.poses rep.poses)
  errors : d'.file (below save ["reprojection_error_data.yml".toList]) = some (.errors rep.errors)
  keypoints : d'.file (below save ["detected_keypoints_data.yml".toList]) = some (.keypoints kp)
  images : ∀ ws ∈ rep.detections ++ rep.reprojections, ∀ w ∈ ws, d'.file (loc w.file) = some (.image w.image w.circles)
  /-- every camera has its folders, if images are saved -/
  detectionFolders : ∀ c < rep.detections.length, d'.dir (below save ["Detection".toList, Images.paddedTo 3 c]) = true
  reprojectionFolders : ∀ c < rep.reprojections.length, d'.dir (below save ["Reprojection".toList, Images.paddedTo 3 c]) = true
  /-- all other files are as before -/
  others : ∀ x, (∀ b ∈ cameraName name :: reportNames, x ≠ below save [b]) → ¬ImagePlace save x → d'.file x = d.file x
  /-- directories stay -/
  dirs : ∀ x, d.dir x = true → d'.dir x = true
  /-- the output directory exists -/
  place : d'.dir (loc save) = true
  /-- no other directories than those on the way to the results are new -/
  newDirs : ∀ x, d'.dir x = true → d.dir x = true ∨ Made save x

variable {save name rep d}

theorem write_below {d : Disk (Content V G Pt K Img KP)} {b : Str} (hb : Plain b) (v : Content V G Pt K Img KP)
    (h1 : d.dir (below save [b]) = false) (h2 : d.dir (loc save) = true) (x : Loc) :
    (write d (join save b) v).file x = if x = below save [b] then some v else d.file x := by
  have hl := loc_join_plain save hb
  rw [write_file _ _ (by rw [filename_plain save hb]; exact hb.1) (by rw [hl]; exact h1) (by
    rw [hl]
    have : (below save [b]).parent = loc save := by
      unfold Loc.parent below
      simp
    rw [this]; exact h2), hl]

theorem mkdir_file {C : Type} {d d' : Disk C} {l : Loc} (h : mkdir d l = .ok d') : d'.file = d.file := by
  unfold mkdir at h
  split at h
  · cases h; rfl
  · split at h
    · cases h
    · cases h; rfl

theorem create_file {C : Type} {d d' : Disk C} {p : Str} (h : createDirectories d p = .ok d') : d'.file = d.file :=
  Outcome.foldlM_inv (fun e => e.file = d.file) (fun _ _ _ _ hs h => (mkdir_file h).trans hs) rfl h

theorem make_file {C : Type} {d d' : Disk C} {p : Str} (h : makeSaveDir d p = .ok d') : d'.file = d.file := by
  unfold makeSaveDir at h
  split at h
  · exact create_file h
  · cases h; rfl

theorem kind_file {C : Type} {d d' : Disk C} {p k : Str} (h : kindDir p k d = .ok d') : d'.file = d.file := by
  unfold kindDir at h
  split at h
  · exact create_file h
  · cases h; rfl

theorem cam_file {C : Type} {d d' : Disk C} {p k : Str} {c : Nat} (h : camDir p k c d = .ok d') : d'.file = d.file := by
  unfold camDir at h
  split at h
  · exact mkdir_file h
  · cases h; rfl

/-- Saving images puts nothing but images in files. -/
def OnlyImages (d d' : Disk (Content V G Pt K Img KP)) : Prop :=
  ∀ x, d'.file x = d.file x ∨ ∃ im cs, d'.file x = some (.image im cs)

theorem only_writeImages (d : Disk (Content V G Pt K Img KP)) (ws : List (Images.Written Img)) :
    OnlyImages d (ws.foldl writeImage d) := by
  induction ws generalizing d with
  | nil => exact fun x => Or.inl rfl
  | cons w ws ih =>
    intro x
    rcases ih (writeImage d w) x with h | h
    · rw [List.foldl_cons, h]
      unfold writeImage write
      split
      · exact Or.inl rfl
      · by_cases hx : x = loc w.file
        · right; exact ⟨w.image, w.circles, by simp [hx]⟩
        · left; simp [hx]
    · exact Or.inr h

theorem only_trans {d d' d'' : Disk (Content V G Pt K Img KP)} (h : OnlyImages d d') (h' : OnlyImages d' d'') :
    OnlyImages d d'' := fun x => (h' x).elim (fun e => (h x).imp e.trans (fun ⟨a, b, q⟩ => ⟨a, b, e.trans q⟩)) Or.inr

theorem only_of_eq {d d' : Disk (Content V G Pt K Img KP)} (h : d'.file = d.file) : OnlyImages d d' :=
  fun x => Or.inl (by rw [h])

theorem only_saveImages {kind : Str} {d d' : Disk (Content V G Pt K Img KP)} {l : List (List (Images.Written Img))}
    (h : saveImages save kind d l = .ok d') : OnlyImages d d' := by
  refine Outcome.foldlM_inv (fun e => OnlyImages d e) (fun a b x _ hs h => only_trans hs ?_) (only_of_eq rfl) h
  unfold saveCam at h
  obtain ⟨d1, h1, h⟩ := Outcome.bind_eq_ok.1 h
  obtain ⟨d2, h2, h⟩ := Outcome.bind_eq_ok.1 h
  cases h
  exact only_trans (only_of_eq (kind_file h1)) (only_trans (only_of_eq (cam_file h2)) (only_writeImages _ _))

/-- The images are written, in directories that exist then. -/
theorem images_ok (hs : Sound d) (hc : Clear save d)
    (hdet : ∀ (i : Nat) ws, rep.detections[i]? = some ws → Shaped save "Detection".toList i ws)
    (hrep : ∀ (i : Nat) ws, rep.reprojections[i]? = some ws → Shaped save "Reprojection".toList i ws) :
    ∃ d1, saveAll save name rep kp d = .ok (saveFiles save name rep kp d1) ∧ Inv save d d1 ∧
      (d.dir (loc save) = true ∨ filename save ≠ [] ∨ rep.detections ≠ [] ∨ rep.reprojections ≠ [] → d1.dir (loc save) = true) ∧ OnlyImages d d1 ∧
      (∀ ws ∈ rep.detections ++ rep.reprojections, ∀ w ∈ ws, d1.file (loc w.file) = some (.image w.image w.circles)) ∧
      (∀ c < rep.detections.length, d1.dir (below save ["Detection".toList, Images.paddedTo 3 c]) = true) ∧
      ∀ c < rep.reprojections.length, d1.dir (below save ["Reprojection".toList, Images.paddedTo 3 c]) = true := by
  obtain ⟨d1, a1, a2, a3, a4, a5⟩ := makeSaveDir_ok (d0 := d) (d := d) ⟨hs, fun _ => id, fun _ => Or.inl, fun _ _ => rfl⟩ hc
  obtain ⟨d2, b1, b2, b3, b4, b5, b6, b7⟩ := saveImages_ok hc (kind := "Detection".toList) (by decide) rep.detections 0 d1 a2
    (fun i ws h => by simpa using hdet i ws h)
  obtain ⟨d3, c1, c2, c3, c4, c5, c6, c7⟩ := saveImages_ok hc (kind := "Reprojection".toList) (by decide) rep.reprojections 0 d2 b2
    (fun i ws h => by simpa using hrep i ws h)
  refine ⟨d3, ?_, c2, ?_, only_trans (only_of_eq (make_file a1)) (only_trans (only_saveImages b1) (only_saveImages c1)), ?_,
    fun c hc => c3 _ (by simpa using b7 c hc), fun c hc => by simpa using c7 c hc⟩
  · unfold saveAll saveImages
    rw [a1, Outcome.bind_ok, b1, Outcome.bind_ok, c1, Outcome.bind_ok]
    rfl
  · rintro (h | h | h | h)
    · exact c3 _ (b3 _ (a5 (Or.inl h)))
    · exact c3 _ (b3 _ (a5 (Or.inr h)))
    · exact c3 _ (b4 h)
    · exact c4 h
  · intro ws hws w hw
    rcases List.mem_append.1 hws with h | h
    · rw [c5 _ fun c f _ e => ?_]
      · exact b6 ws h w hw
      · obtain ⟨i, hi⟩ := List.getElem?_of_mem h
        obtain ⟨f', hf'⟩ := (hdet i ws hi).1 w hw
        rw [hf', loc_image save (by decide)] at e
        have := congrArg Loc.names e
        simp [below] at this
    · exact c6 ws h w hw

/-- The files after a run. -/
theorem after (hs : Sound d) (hc : Clear save d)
    (hdet : ∀ (i : Nat) ws, rep.detections[i]? = some ws → Shaped save "Detection".toList i ws)
    (hrep : ∀ (i : Nat) ws, rep.reprojections[i]? = some ws → Shaped save "Reprojection".toList i ws)
    (hfree : ∀ b ∈ cameraName name :: reportNames, d.dir (below save [b]) = false)
    (hname : name = [] ∨ Plain name ∧ name ∉ kinds)
    (hplace : d.dir (loc save) = true ∨ filename save ≠ [] ∨ rep.detections ≠ [] ∨ rep.reprojections ≠ []) :
    ∃ d1, saveAll save name rep kp d = .ok (saveFiles save name rep kp d1) ∧ Inv save d d1 ∧ d1.dir (loc save) = true ∧ OnlyImages d d1 ∧
      ((∀ ws ∈ rep.detections ++ rep.reprojections, ∀ w ∈ ws, d1.file (loc w.file) = some (.image w.image w.circles)) ∧
      (∀ c < rep.detections.length, d1.dir (below save ["Detection".toList, Images.paddedTo 3 c]) = true) ∧
      ∀ c < rep.reprojections.length, d1.dir (below save ["Reprojection".toList, Images.paddedTo 3 c]) = true) ∧
      ∀ x, (saveFiles save name rep kp d1).file x =
      if x = below save ["detected_keypoints_data.yml".toList] then some (.keypoints kp) else
      if x = below save ["reprojection_error_data.yml".toList] then some (.errors rep.errors) else
      if x = below save ["calibrated_objects_pose_data.yml".toList] then some (.poses rep.poses) else
      if x = below save ["calibrated_objects_data.yml".toList] then some (.objects rep.objects) else
      if x = below save [cameraName name] then some (.cameras rep.cameras) else d1.file x := by
  obtain ⟨d1, e1, e2, e3, e5, e4⟩ := images_ok (name := name) kp hs hc hdet hrep
  obtain ⟨n1, n2⟩ : Plain (cameraName name) ∧ cameraName name ∉ kinds := by
    unfold cameraName
    split
    · exact ⟨plain_default.1, plain_default.2.1⟩
    · next h => exact hname.resolve_left h
  have e3 := e3 hplace
  have hdir : ∀ b ∈ cameraName name :: reportNames, d1.dir (below save [b]) = false := by
    intro b hb
    cases hh : d1.dir (below save [b]) with
    | false => rfl
    | true =>
      rcases e2.made _ hh with h | h
      · rw [hfree b hb] at h; cases h
      · refine absurd h (not_made ?_)
        rcases List.mem_cons.1 hb with rfl | hb
        · exact n2
        · exact (plain_report hb).2
  have hdd : ∀ (d2 : Disk (Content V G Pt K Img KP)), d2.dir = d1.dir → ∀ b ∈ cameraName name :: reportNames,
      ∀ v x, (write d2 (join save b) v).file x = if x = below save [b] then some v else d2.file x := by
    intro d2 h b hb v x
    refine write_below ?_ v (by rw [h]; exact hdir b hb) (by rw [h]; exact e3) x
    rcases List.mem_cons.1 hb with rfl | hb
    · exact n1
    · exact (plain_report hb).1
  refine ⟨d1, e1, e2, e3, e5, e4, ?_⟩
  intro x
  unfold saveFiles keypointFile errorFile poseFile objectFile
  rw [cameraFile_eq]
  simp only []
  rw [hdd _ (by simp only [write_dir]) _ (by simp [reportNames]), hdd _ (by simp only [write_dir]) _ (by simp [reportNames]),
    hdd _ (by simp only [write_dir]) _ (by simp [reportNames]), hdd _ (by simp only [write_dir]) _ (by simp [reportNames]),
    hdd _ rfl _ (by simp)]

/-- C82: if nothing is in the way and the output directory exists, or has a path without final slash, or images are
saved, then after the run it holds all results, and nothing else has changed. -/
theorem C82_written (hs : Sound d) (hc : Clear save d)
    (hdet : ∀ (i : Nat) ws, rep.detections[i]? = some ws → Shaped save "Detection".toList i ws)
    (hrep : ∀ (i : Nat) ws, rep.reprojections[i]? = some ws → Shaped save "Reprojection".toList i ws)
    (hfree : ∀ b ∈ cameraName name :: reportNames, d.dir (below save [b]) = false)
    (hname : name = [] ∨ Plain name ∧ name ∉ kinds ∧ name ∉ reportNames)
    (hplace : d.dir (loc save) = true ∨ filename save ≠ [] ∨ rep.detections ≠ [] ∨ rep.reprojections ≠ []) :
    ∃ d', saveAll save name rep kp d = .ok d' ∧ Written save name rep kp d d' := by
  obtain ⟨d1, e1, e2, e3, e5, e4, hfile⟩ := after (name := name) kp hs hc hdet hrep hfree
    (hname.imp_right fun h => ⟨h.1, h.2.1⟩) hplace
  have n3 : cameraName name ∉ reportNames := by
    unfold cameraName
    split
    · exact plain_default.2.2
    · next h => exact (hname.resolve_left h).2.2
  have hne : ∀ b c : Str, b ≠ c → below save [b] ≠ below save [c] := fun b c h e => h (below_inj e)
  have hcn : ∀ b ∈ reportNames, below save [cameraName name] ≠ below save [b] := fun b hb => hne _ _ fun e => n3 (e ▸ hb)
  have hds : (saveFiles save name rep kp d1).dir = d1.dir := by
    unfold saveFiles
    simp only [write_dir]
  refine ⟨_, e1, ?_, ?_, ?_, ?_, ?_, ?_, fun c hc => by rw [hds]; exact e4.2.1 c hc, fun c hc => by rw [hds]; exact e4.2.2 c hc,
    ?_, fun x hx => by rw [hds]; exact e2.more x hx, by rw [hds]; exact e3,
    fun x hx => e2.made x (by rw [← hds]; exact hx)⟩
  · rw [hfile, if_neg (hcn _ (by simp [reportNames])), if_neg (hcn _ (by simp [reportNames])),
      if_neg (hcn _ (by simp [reportNames])), if_neg (hcn _ (by simp [reportNames])), if_pos rfl]
  · rw [hfile, if_neg (hne _ _ (by decide)), if_neg (hne _ _ (by decide)), if_neg (hne _ _ (by decide)), if_pos rfl]
  · rw [hfile, if_neg (hne _ _ (by decide)), if_neg (hne _ _ (by decide)), if_pos rfl]
  · rw [hfile, if_neg (hne _ _ (by decide)), if_pos rfl]
  · rw [hfile, if_pos rfl]
  · intro ws hws w hw
    have hi : ImagePlace save (loc w.file) := by
      rcases List.mem_append.1 hws with h | h
      · obtain ⟨i, hi⟩ := List.getElem?_of_mem h
        obtain ⟨f, hf⟩ := (hdet i ws hi).1 w hw
        exact ⟨"Detection".toList, by decide, i, f, by rw [hf, loc_image save (by decide)]⟩
      · obtain ⟨i, hi⟩ := List.getElem?_of_mem h
        obtain ⟨f, hf⟩ := (hrep i ws hi).1 w hw
        exact ⟨"Reprojection".toList, by decide, i, f, by rw [hf, loc_image save (by decide)]⟩
    have hx : ∀ b, loc w.file ≠ below save [b] := fun b e => not_image (e ▸ hi)
    rw [hfile, if_neg (hx _), if_neg (hx _), if_neg (hx _), if_neg (hx _), if_neg (hx _)]
    exact e4.1 ws hws w hw
  · intro x hx hxi
    rw [hfile, if_neg (hx _ (by simp [reportNames])), if_neg (hx _ (by simp [reportNames])),
      if_neg (hx _ (by simp [reportNames])), if_neg (hx _ (by simp [reportNames])), if_neg (hx _ (by simp))]
    exact e2.files x hxi

theorem write_same {C : Type} {d : Disk C} {p : Str} {v : C} (h : d.file (loc p) = some v) : write d p v = d := by
  unfold write
  split
  · rfl
  · have : (fun x => if x = loc p then some v else d.file x) = d.file := by
      funext x
      split
      · next e => rw [e, h]
      · rfl
    rw [this]

theorem saveCam_same {kind : Str} (hk : kind ∈ kinds) {d : Disk (Content V G Pt K Img KP)} (hs : Sound d) (c : Nat)
    (ws : List (Images.Written Img)) (h1 : d.dir (below save [kind, Images.paddedTo 3 c]) = true)
    (h2 : ∀ w ∈ ws, d.file (loc w.file) = some (.image w.image w.circles)) : saveCam save kind d (ws, c) = .ok d := by
  have hl : loc (join (join save kind) (Images.paddedTo 3 c)) = below save [kind, Images.paddedTo 3 c] := by
    rw [loc_join_plain _ (plain_cam c), below_join _ (plain_kind hk)]
  have h3 : d.dir (below save [kind]) = true := by
    refine hs.dirIn (loc save).abs ((loc save).names ++ [kind]) (Images.paddedTo 3 c) ?_
    rw [List.append_assoc]
    exact h1
  have k1 : kindDir save kind d = .ok d := by
    unfold kindDir
    have : d.has (join save kind) = true := by
      unfold Disk.has
      rw [loc_join_plain save (plain_kind hk), h3]
      simp [join_ne_nil save (plain_kind hk)]
    rw [this]
    rfl
  have k2 : camDir save kind c d = .ok d := by
    unfold camDir
    have : d.has (join (join save kind) (Images.paddedTo 3 c)) = true := by
      unfold Disk.has
      rw [hl, h1]
      simp [join_ne_nil _ (plain_cam c)]
    rw [this]
    rfl
  unfold saveCam
  rw [k1, Outcome.bind_ok, k2, Outcome.bind_ok]
  show Outcome.ok _ = _
  congr 1
  clear k1 k2
  induction ws with
  | nil => rfl
  | cons w ws ih =>
    rw [List.foldl_cons]
    have : writeImage d w = d := write_same (h2 w (by simp))
    rw [this]
    exact ih fun w hw => h2 w (by simp [hw])

theorem saveImages_same {kind : Str} (hk : kind ∈ kinds) {d : Disk (Content V G Pt K Img KP)} (hs : Sound d)
    (l : List (List (Images.Written Img))) (h1 : ∀ c < l.length, d.dir (below save [kind, Images.paddedTo 3 c]) = true)
    (h2 : ∀ ws ∈ l, ∀ w ∈ ws, d.file (loc w.file) = some (.image w.image w.circles)) : saveImages save kind d l = .ok d := by
  have : ∀ x ∈ l.zipIdx, ∀ d', d' = d → saveCam save kind d' x = .ok d := by
    rintro ⟨ws, c⟩ hx d' rfl
    have hm := List.mk_mem_zipIdx_iff_getElem?.1 hx
    exact saveCam_same hk hs c ws (h1 c (List.getElem?_eq_some_iff.1 hm).1) (h2 ws (List.mem_of_getElem? hm))
  unfold saveImages
  generalize l.zipIdx = xs at this
  induction xs with
  | nil => rfl
  | cons x xs ih =>
    rw [Outcome.foldlM_cons, this x (by simp) d rfl, Outcome.bind_ok]
    exact ih fun y hy => this y (by simp [hy])

/-- C82: writing the same results again changes nothing. -/
theorem C82_idempotent {d' : Disk (Content V G Pt K Img KP)} (hs : Sound d') (hname : name = [] ∨ Plain name)
    (h : Written save name rep kp d d') : saveAll save name rep kp d' = .ok d' := by
  have k1 : makeSaveDir d' save = .ok d' := by
    unfold makeSaveDir
    rw [if_neg]
    intro hc
    simp only [Bool.and_eq_true, Bool.not_eq_true', decide_eq_true_eq] at hc
    have hne : save ≠ [] := by
      rintro rfl
      exact hc.2 rfl
    have := hc.1
    unfold Disk.has at this
    rw [h.place] at this
    simp [hne] at this
  unfold saveAll
  rw [k1, Outcome.bind_ok, saveImages_same (by decide) hs _ h.detectionFolders fun ws hws => h.images ws (by simp [hws]),
    Outcome.bind_ok, saveImages_same (by decide) hs _ h.reprojectionFolders fun ws hws => h.images ws (by simp [hws]),
    Outcome.bind_ok]
  show Outcome.ok _ = _
  congr 1
  have hr : ∀ b ∈ reportNames, loc (join save b) = below save [b] := fun b hb => loc_join_plain save (plain_report hb).1
  unfold saveFiles keypointFile errorFile poseFile objectFile
  rw [cameraFile_eq]
  have n1 : Plain (cameraName name) := by
    unfold cameraName
    split
    · exact plain_default.1
    · next h => exact hname.resolve_left h
  simp only []
  have w1 : write d' (join save (cameraName name)) (.cameras rep.cameras) = d' :=
    write_same (by rw [loc_join_plain save n1]; exact h.cameras)
  have w2 : write d' (join save "calibrated_objects_data.yml".toList) (.objects rep.objects) = d' :=
    write_same (by rw [hr _ (by simp [reportNames])]; exact h.objects)
  have w3 : write d' (join save "calibrated_objects_pose_data.yml".toList) (.poses rep.poses) = d' :=
    write_same (by rw [hr _ (by simp [reportNames])]; exact h.poses)
  have w4 : write d' (join save "reprojection_error_data.yml".toList) (.errors rep.errors) = d' :=
    write_same (by rw [hr _ (by simp [reportNames])]; exact h.errors)
  have w5 : write d' (join save "detected_keypoints_data.yml".toList) (.keypoints kp) = d' :=
    write_same (by rw [hr _ (by simp [reportNames])]; exact h.keypoints)
  rw [w1, w2, w3, w4, w5]

/-- C82: a run leaves the directory ready for the next: nothing is in the way of writing everything again. -/
theorem C82_again (hs : Sound d) (hc : Clear save d)
    (hdet : ∀ (i : Nat) ws, rep.detections[i]? = some ws → Shaped save "Detection".toList i ws)
    (hrep : ∀ (i : Nat) ws, rep.reprojections[i]? = some ws → Shaped save "Reprojection".toList i ws)
    (hfree : ∀ b ∈ cameraName name :: reportNames, d.dir (below save [b]) = false)
    (hname : name = [] ∨ Plain name ∧ name ∉ kinds ∧ name ∉ reportNames)
    (hplace : d.dir (loc save) = true ∨ filename save ≠ [] ∨ rep.detections ≠ [] ∨ rep.reprojections ≠ []) :
    ∀ d', saveAll save name rep kp d = .ok d' → Sound d' ∧ Clear save d' ∧
      (∀ b ∈ cameraName name :: reportNames, d'.dir (below save [b]) = false) ∧ d'.dir (loc save) = true := by
  intro d' hd'
  obtain ⟨d1, e1, e2, e3, e5, e4, hfile⟩ := after (name := name) kp hs hc hdet hrep hfree
    (hname.imp_right fun h => ⟨h.1, h.2.1⟩) hplace
  rw [e1] at hd'
  cases hd'
  have n2 : cameraName name ∉ kinds := by
    unfold cameraName
    split
    · exact plain_default.2.1
    · next h => exact (hname.resolve_left h).2.1
  have hk : ∀ b ∈ cameraName name :: reportNames, b ∉ kinds := by
    intro b hb
    rcases List.mem_cons.1 hb with rfl | hb
    · exact n2
    · exact (plain_report hb).2
  have hds : (saveFiles save name rep kp d1).dir = d1.dir := by
    unfold saveFiles
    simp only [write_dir]
  refine ⟨?_, ⟨fun x hx => ?_, fun x hx => ?_⟩, fun b hb => ?_, by rw [hds]; exact e3⟩
  · unfold saveFiles
    exact sound_write (sound_write (sound_write (sound_write (sound_write e2.sound _ _) _ _) _ _) _ _) _ _
  · have hx' : ∀ b ∈ cameraName name :: reportNames, x ≠ below save [b] := fun b hb e => not_made (hk b hb) (e ▸ hx)
    rw [hfile, if_neg (hx' _ (by simp [reportNames])), if_neg (hx' _ (by simp [reportNames])),
      if_neg (hx' _ (by simp [reportNames])), if_neg (hx' _ (by simp [reportNames])), if_neg (hx' _ (by simp))]
    exact e2.none hc hx
  · rw [hds]
    exact e2.image hc hx
  · rw [hds]
    cases hh : d1.dir (below save [b]) with
    | false => rfl
    | true =>
      rcases e2.made _ hh with h | h
      · rw [hfree b hb] at h; cases h
      · exact absurd h (not_made (hk b hb))

/-- C82: a name of the parameter file that is the name of another report loses the camera parameters: no file holds them
that did not before, and no error is reported. -/
theorem C82_overwritten (hs : Sound d) (hc : Clear save d)
    (hdet : ∀ (i : Nat) ws, rep.detections[i]? = some ws → Shaped save "Detection".toList i ws)
    (hrep : ∀ (i : Nat) ws, rep.reprojections[i]? = some ws → Shaped save "Reprojection".toList i ws)
    (hfree : ∀ b ∈ cameraName name :: reportNames, d.dir (below save [b]) = false)
    (hname : name ∈ reportNames)
    (hplace : d.dir (loc save) = true ∨ filename save ≠ [] ∨ rep.detections ≠ [] ∨ rep.reprojections ≠ []) :
    ∃ d', saveAll save name rep kp d = .ok d' ∧ ∀ x cs, d'.file x = some (.cameras cs) → d.file x = some (.cameras cs) := by
  obtain ⟨d1, e1, e2, e3, e5, e4, hfile⟩ := after (name := name) kp hs hc hdet hrep hfree (Or.inr (plain_report hname)) hplace
  refine ⟨_, e1, fun x cs h => ?_⟩
  have hn : cameraName name = name := by
    unfold cameraName
    rw [if_neg (plain_report hname).1.1]
  rw [hfile, hn] at h
  have hmem : ∀ v : Content V G Pt K Img KP, v ≠ .cameras cs → some v ≠ some (.cameras cs) := fun v hv e => hv (Option.some.inj e)
  by_cases h1 : x = below save ["detected_keypoints_data.yml".toList]
  · rw [if_pos h1] at h; cases h
  by_cases h2 : x = below save ["reprojection_error_data.yml".toList]
  · rw [if_neg h1, if_pos h2] at h; cases h
  by_cases h3 : x = below save ["calibrated_objects_pose_data.yml".toList]
  · rw [if_neg h1, if_neg h2, if_pos h3] at h; cases h
  by_cases h4 : x = below save ["calibrated_objects_data.yml".toList]
  · rw [if_neg h1, if_neg h2, if_neg h3, if_pos h4] at h; cases h
  have h5 : x ≠ below save [name] := by
    rintro rfl
    simp only [reportNames, List.mem_cons, List.not_mem_nil, or_false] at hname
    rcases hname with rfl | rfl | rfl | rfl
    · exact h4 rfl
    · exact h3 rfl
    · exact h2 rfl
    · exact h1 rfl
  rw [if_neg h1, if_neg h2, if_neg h3, if_neg h4, if_neg h5] at h
  by_cases hi : ImagePlace save x
  · rcases e5 x with h6 | ⟨im, cc, h6⟩
    · rw [← h6]; exact h
    · rw [h6] at h; cases h
  · rw [← e2.files x hi]; exact h

theorem names_ne_nil {name : Str} (h0 : name ≠ []) (h : name.head? ≠ some '/') : (loc name).names ≠ [] := by
  cases name with
  | nil => exact absurd rfl h0
  | cons c s =>
    have hc : c ≠ '/' := by simpa using h
    unfold loc pieces
    rw [if_neg hc]
    cases pieces s <;> simp

/-- Without the output directory nothing is written. -/
theorem write_lost (hs : Sound d) (hd : d.dir (loc save) = false) {b : Str} (h0 : b ≠ []) (h : b.head? ≠ some '/')
    (v : Content V G Pt K Img KP) : write d (join save b) v = d := by
  unfold write
  rw [if_pos]
  suffices d.dir (loc (join save b)).parent = false by simp [this]
  cases hh : d.dir (loc (join save b)).parent with
  | false => rfl
  | true =>
    rw [loc_join save b h] at hh
    unfold Loc.parent below at hh
    simp only [] at hh
    rw [List.dropLast_append_of_ne_nil (names_ne_nil h0 h)] at hh
    have := dir_take hs hh (loc save).names.length
    rw [List.take_left] at this
    rw [show loc save = ⟨(loc save).abs, (loc save).names⟩ from rfl, this] at hd
    cases hd

/-- C82: if the output directory does not exist, its path ends with a slash and no images are saved, then nothing at all
is written, and no error is reported. -/
theorem C82_lost (hs : Sound d) (hd : d.dir (loc save) = false) (hslash : filename save = [])
    (hdet : rep.detections = []) (hrep : rep.reprojections = []) (hname : name.head? ≠ some '/') :
    saveAll save name rep kp d = .ok d := by
  unfold saveAll makeSaveDir saveImages
  rw [if_neg (by simp [hslash]), hdet, hrep]
  simp only [List.zipIdx_nil, Outcome.foldlM_nil, Outcome.bind_ok]
  unfold saveFiles objectFile poseFile errorFile keypointFile
  rw [cameraFile_eq]
  have hc : cameraName name ≠ [] ∧ (cameraName name).head? ≠ some '/' := by
    unfold cameraName
    split
    · exact ⟨by decide, by decide⟩
    · next h => exact ⟨h, hname⟩
  simp only []
  rw [write_lost hs hd hc.1 hc.2, write_lost hs hd (by decide) (by decide), write_lost hs hd (by decide) (by decide),
    write_lost hs hd (by decide) (by decide), write_lost hs hd (by decide) (by decide)]
  rfl

/-- C82: the analysis script finds what it needs after a run that uses the default name, if the ground truth is beside the
output directory. -/
theorem C82_analysis {d' : Disk (Content V G Pt K Img KP)} (hw : Written save [] rep kp d d')
    (hgt : d.hasLoc ⟨(loc save).abs, (loc save).parent.names ++ ["GroundTruth.yml".toList]⟩ = true) :
    analysisInputs d' save = .ok () := by
  have hx : ∀ b ∈ cameraName [] :: reportNames,
      (⟨(loc save).abs, (loc save).parent.names ++ ["GroundTruth.yml".toList]⟩ : Loc) ≠ below save [b] := by
    intro b hb e
    have h := congrArg Loc.names e
    simp only [below, Loc.parent] at h
    have h' := congrArg List.getLast? h
    rw [List.getLast?_concat, List.getLast?_concat] at h'
    have := Option.some.inj h'
    subst this
    revert hb
    decide
  have hi : ¬ImagePlace save ⟨(loc save).abs, (loc save).parent.names ++ ["GroundTruth.yml".toList]⟩ := by
    rintro ⟨kind, _, c, f, e⟩
    have h := congrArg (fun x : Loc => x.names.length) e
    simp [below, Loc.parent] at h
    omega
  have hgt' : d'.hasLoc ⟨(loc save).abs, (loc save).parent.names ++ ["GroundTruth.yml".toList]⟩ = true := by
    unfold Disk.hasLoc at hgt ⊢
    rw [hw.others _ hx hi]
    rw [Bool.or_eq_true] at hgt ⊢
    exact hgt.imp_left (hw.dirs _)
  have h1 : d'.hasLoc (loc save) = true := by unfold Disk.hasLoc; rw [hw.place]; rfl
  have hf : ∀ b v, d'.file (below save [b]) = some v → d'.hasLoc ⟨(loc save).abs, (loc save).names ++ [b]⟩ = true := by
    intro b v h
    unfold Disk.hasLoc
    rw [show (⟨(loc save).abs, (loc save).names ++ [b]⟩ : Loc) = below save [b] from rfl, h]
    simp
  unfold analysisInputs
  simp only []
  rw [if_pos]
  rw [h1, hgt', hf "calibrated_cameras_data.yml".toList _ hw.cameras, hf _ _ hw.objects, hf _ _ hw.errors]
  rfl

/-- C82: after a run with another name for the parameter file the analysis script stops, unless an older file with the
default name is there. -/
theorem C82_analysis_renamed {d' : Disk (Content V G Pt K Img KP)} (hw : Written save name rep kp d d')
    (hname : name ≠ [] ∧ name ≠ "calibrated_cameras_data.yml".toList)
    (hold : d.hasLoc (below save ["calibrated_cameras_data.yml".toList]) = false) : analysisInputs d' save = .throw := by
  unfold Disk.hasLoc at hold
  rw [Bool.or_eq_false_iff] at hold
  have h1 : d'.dir (below save ["calibrated_cameras_data.yml".toList]) = false := by
    cases hh : d'.dir (below save ["calibrated_cameras_data.yml".toList]) with
    | false => rfl
    | true =>
      rcases hw.newDirs _ hh with h | h
      · rw [hold.1] at h; cases h
      · exact absurd h (not_made plain_default.2.1)
  have h2 : d'.file (below save ["calibrated_cameras_data.yml".toList]) = none := by
    rw [hw.others _ ?_ not_image]
    · simpa using hold.2
    · intro b hb e
      have := below_inj e
      subst this
      rcases List.mem_cons.1 hb with h | h
      · unfold cameraName at h
        rw [if_neg hname.1] at h
        exact hname.2 h.symm
      · exact plain_default.2.2 h
  have h3 : d'.hasLoc ⟨(loc save).abs, (loc save).names ++ ["calibrated_cameras_data.yml".toList]⟩ = false := by
    unfold Disk.hasLoc
    rw [show (⟨(loc save).abs, (loc save).names ++ ["calibrated_cameras_data.yml".toList]⟩ : Loc) =
      below save ["calibrated_cameras_data.yml".toList] from rfl, h1, h2]
    rfl
  unfold analysisInputs
  simp only []
  rw [if_neg]
  rw [h3]
  simp

end

/-- The images of a camera have names of frames, each once. -/
theorem shaped_files (imread : Path → Option Img) (emptyPath : Path) (save kind : Str) (hk : kind ∈ kinds)
    (frames : OMap Nat (FrameRec Path)) (hf : (OMap.keys frames).Nodup) (c : Nat) (draw : Nat → List Images.Circle) :
    Shaped save kind c (Spec.Images.files imread emptyPath save kind frames c draw) := by
  constructor
  · intro w hw
    obtain ⟨e, _, he⟩ := List.mem_filterMap.1 hw
    obtain ⟨im, _, rfl⟩ := Option.map_eq_some_iff.1 he
    exact ⟨e.1, rfl⟩
  · unfold Spec.Images.files
    rw [List.map_filterMap]
    have hinj : ∀ f f', imageFile save kind c f = imageFile save kind c f' → f = f' := by
      intro f f' e
      have := congrArg loc e
      rw [loc_image save hk, loc_image save hk] at this
      exact imageName_inj (by simpa [below] using congrArg Loc.names this)
    rw [show OMap.keys frames = frames.map Prod.fst from rfl] at hf
    induction frames with
    | nil => simp
    | cons e frames ih =>
      rw [List.map_cons, List.nodup_cons] at hf
      rw [List.filterMap_cons]
      have ih := ih hf.2
      split
      · exact ih
      · next f he =>
        refine List.nodup_cons.2 ⟨fun hm => ?_, ih⟩
        obtain ⟨e', he', hh⟩ := List.mem_filterMap.1 hm
        simp only [Option.map_map, Option.map_eq_some_iff] at he hh
        obtain ⟨_, _, rfl⟩ := he
        obtain ⟨_, _, hq⟩ := hh
        exact hf.1 (List.mem_map.2 ⟨e', he', hinj _ _ hq⟩)

section
variable [Group G] [MulAction G Pt] [Zero K] [One K] {en : Finish.Env V G Pt K Path Img} {bpts : List (List Pt)}
    {frames : OMap Nat (FrameRec Path)} {r : Pipeline.State G Pt (ℝ × ℝ) × OMap (Nat × Nat) (OMap Nat V)}
    {rd : Spec.Report.Reading G Pt} {rep : Finish.Reports V G Pt K Img} (h : Finish.Correct en bpts frames r rd rep)
    (hf : (OMap.keys frames).Nodup)

include h hf in
/-- The images C76 describes. -/
theorem shaped_run : (∀ (i : Nat) ws, rep.detections[i]? = some ws → Shaped en.save "Detection".toList i ws) ∧
    ∀ (i : Nat) ws, rep.reprojections[i]? = some ws → Shaped en.save "Reprojection".toList i ws := by
  constructor
  · intro i ws hi
    rw [h.detections] at hi
    split at hi
    · rw [List.getElem?_map] at hi
      obtain ⟨c, hc, rfl⟩ := Option.map_eq_some_iff.1 hi
      have : c = i := by
        have := List.getElem?_eq_some_iff.1 hc
        obtain ⟨h1, h2⟩ := this
        simpa using h2.symm
      subst this
      exact shaped_files _ _ _ _ (by decide) _ hf _ _
    · simp at hi
  · intro i ws hi
    rw [h.reprojections] at hi
    split at hi
    · rw [List.getElem?_map] at hi
      obtain ⟨c, hc, rfl⟩ := Option.map_eq_some_iff.1 hi
      have : c = i := by
        have := List.getElem?_eq_some_iff.1 hc
        obtain ⟨h1, h2⟩ := this
        simpa using h2.symm
      subst this
      exact shaped_files _ _ _ _ (by decide) _ hf _ _
    · simp at hi

variable (name : Str) (kp : KP) (d : Disk (Content V G Pt K Img KP)) (hs : Sound d) (hc : Clear en.save d)
    (hfree : ∀ b ∈ cameraName name :: reportNames, d.dir (below en.save [b]) = false)
    (hname : name = [] ∨ Plain name ∧ name ∉ kinds ∧ name ∉ reportNames)
    (hplace : d.dir (loc en.save) = true ∨ filename en.save ≠ [])

include h hf hs hc hfree hname hplace in
/-- C82 for what C76 says of the reports: the files and images described there are in the output directory. -/
theorem C82_run : ∃ d', saveAll en.save name rep kp d = .ok d' ∧ Written en.save name rep kp d d' :=
  C82_written kp hs hc (shaped_run h hf).1 (shaped_run h hf).2 hfree hname (hplace.imp_right Or.inl)

include h hf hs hc hfree hname hplace in
/-- C82: and the next run may write to the same directory. -/
theorem C82_run_again (d' : Disk (Content V G Pt K Img KP)) (hd' : saveAll en.save name rep kp d = .ok d') :
    Sound d' ∧ Clear en.save d' ∧ (∀ b ∈ cameraName name :: reportNames, d'.dir (below en.save [b]) = false) ∧
      d'.dir (loc en.save) = true :=
  C82_again kp hs hc (shaped_run h hf).1 (shaped_run h hf).2 hfree hname (hplace.imp_right Or.inl) d' hd'

end

/-! ### A case -/
namespace Example

def data : Str := "data".toList
def truth : Str := "GroundTruth.yml".toList
def save : Str := "data/results".toList

theorem loc_save : loc save = ⟨false, [data, "results".toList]⟩ := by decide

/-- A folder `data` with a ground truth. -/
def d0 : Disk (Content Unit Unit Unit Unit Nat Nat) where
  dir x := x.names == [] || x == ⟨false, [data]⟩
  file x := if x = ⟨false, [data, truth]⟩ then some (.other 7) else none

theorem d0_dir (x : Loc) : d0.dir x = true ↔ x.names = [] ∨ x = ⟨false, [data]⟩ := by
  unfold d0
  simp only [Bool.or_eq_true, beq_iff_eq]

theorem d0_file (x : Loc) : d0.file x = if x = ⟨false, [data, truth]⟩ then some (.other 7) else none := rfl

theorem sound : Sound d0 := by
  refine ⟨fun a => rfl, fun a xs x h => ?_, fun a xs x h => ?_, fun l h => ?_⟩
  · rcases (d0_dir _).1 h with h | h
    · simp at h
    · have h := congrArg List.dropLast (Loc.mk.inj h).2
      rw [List.dropLast_concat] at h
      rw [d0_dir]; left; exact h
  · rw [d0_file] at h
    split at h
    · next hq =>
      obtain ⟨h1, h2⟩ := Loc.mk.inj hq
      have h2 := congrArg List.dropLast h2
      rw [List.dropLast_concat] at h2
      rw [d0_dir, h1]; right; rw [h2]; rfl
    · exact absurd rfl h
  · rw [d0_file, if_neg]
    rintro rfl
    rcases (d0_dir _).1 h with h | h
    · cases h
    · have := congrArg List.length (Loc.mk.inj h).2
      simp at this

theorem clear : Clear save d0 := by
  constructor
  · intro x hx
    rw [d0_file, if_neg]
    rintro rfl
    rcases hx with ⟨k, h⟩ | ⟨kind, _, h | ⟨c, h⟩⟩
    · rw [loc_save] at h
      have h := (Loc.mk.inj h).2
      obtain _ | _ | k := k
      · cases h
      · have := congrArg List.length h
        simp at this
      · have := congrArg (·[1]?) h
        revert this
        simp only [List.take_succ_cons, List.getElem?_cons_succ, List.getElem?_cons_zero]
        decide
    · have := congrArg (fun x : Loc => x.names.length) h
      simp [below, loc_save] at this
    · have := congrArg (fun x : Loc => x.names.length) h
      simp [below, loc_save] at this
  · rintro x ⟨kind, _, c, f, rfl⟩
    cases hh : d0.dir (below save [kind, Images.paddedTo 3 c, imageName f]) with
    | false => rfl
    | true =>
      rcases (d0_dir _).1 hh with h | h
      · simp [below] at h
      · have := congrArg (fun x : Loc => x.names.length) h
        simp [below, loc_save] at this

/-- One image of camera 0 in frame 3. -/
noncomputable def rep : Finish.Reports Unit Unit Unit Unit Nat where
  log := []
  detections := [[⟨imageFile save "Detection".toList 0 3, 5, []⟩]]
  reprojections := []
  cameras := [.nbCamera 1]
  objects := []
  poses := []
  errors := (0, [])
  average := none

/-- The results are written, and the analysis script finds them. -/
example : ∃ d', saveAll save [] rep 9 d0 = .ok d' ∧ Written save [] rep 9 d0 d' ∧
    analysisInputs d' save = .ok () := by
  obtain ⟨d', h1, h2⟩ := C82_written (name := []) (save := save) (rep := rep) (kp := 9) (d := d0) sound clear
    (fun i ws h => by
      obtain _ | i := i
      · simp only [rep, List.getElem?_cons_zero, Option.some.injEq] at h
        subst h
        exact ⟨by simp, by simp⟩
      · simp [rep] at h)
    (fun i ws h => by simp [rep] at h)
    (by decide) (Or.inl rfl) (Or.inr (Or.inl (by decide)))
  exact ⟨d', h1, h2, C82_analysis 9 h2 (by decide)⟩

/-- With a final slash and without images everything is lost. -/
example : saveAll "data/results/".toList [] { rep with detections := [] } 9 d0 = .ok d0 :=
  C82_lost 9 sound (by decide) (by decide) rfl rfl (by decide)

/-- The camera parameters overwritten by the objects. -/
example : ∃ d', saveAll save "calibrated_objects_data.yml".toList { rep with detections := [] } 9 d0 = .ok d' ∧
    ∀ x cs, d'.file x = some (.cameras cs) → d0.file x = some (.cameras cs) :=
  C82_overwritten 9 sound clear (fun i ws h => by simp at h) (fun i ws h => by simp [rep] at h) (by decide) (by decide)
    (Or.inr (Or.inl (by decide)))

/-- With another name the analysis script stops. -/
example : ∃ d', saveAll save "cams.yml".toList { rep with detections := [] } 9 d0 = .ok d' ∧
    analysisInputs d' save = .throw := by
  obtain ⟨d', h1, h2⟩ := C82_written (name := "cams.yml".toList) (save := save)
    (rep := { rep with detections := [] }) (kp := 9) (d := d0) sound clear (fun i ws h => by simp at h)
    (fun i ws h => by simp [rep] at h) (by decide) (Or.inr ⟨⟨by decide, by decide⟩, by decide, by decide⟩) (Or.inr (Or.inl (by decide)))
  exact ⟨d', h1, C82_analysis_renamed 9 h2 (by decide) (by decide)⟩

end Example

end Verif.Props.Disk
