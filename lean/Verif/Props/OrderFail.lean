import Verif.Props.Order

/-! C90: what a run leaves when it fails. -/
namespace Verif.Props.Order
open Verif Verif.Folders Verif.Start Verif.Disk Verif.Crash Verif.Order Verif.Order.Act Verif.Whole Verif.Spec.Disk Verif.Spec.Order
open Verif.Spec.Whole Verif.Spec.Crash
open Verif.Props.Crash Verif.Lemmas.Disk Verif.Lemmas.Order

variable {V G Pt K Img K' Q : Type} [Group G] [SMul G Pt] [Field K'] [LinearOrder K'] [Zero K] [One K]
    (u : Setup V G Pt K K' Q Img) (half : Str → Content V G Pt K Img (KeyFile (ℝ × ℝ) Str)) (l : List (Insertion (ℝ × ℝ) Str))

/-! ### However a run ends -/

section
variable {save name : Str}

theorem name_place {b : Str} (hb : b ∈ cameraName name :: reportNames) : ResultPlace save name (below save [b]) := .inl ⟨b, hb, rfl⟩

theorem camera_place (hname : name = [] ∨ Plain name) : loc (cameraFile save name) = below save [cameraName name] := by
  rw [Props.Disk.cameraFile_eq, loc_join_plain _ (plain_camera hname)]

theorem report_place {b : Str} (hb : b ∈ reportNames) : loc (join save b) = below save [b] :=
  loc_join_plain _ (Props.Disk.plain_report hb).1

/-- Places of results besides the keypoint file. -/
def NotLast (save name : Str) (x : Loc) : Prop := ResultPlace save name x ∧ x ≠ below save ["detected_keypoints_data.yml".toList]

end

theorem stays_images (k : KStore (ℝ × ℝ) Str) (s : Found V G Pt) :
    Stays (Made u.en.save) (ImagePlace u.en.save) (Order.saveImages u k s : Act (Files V G Pt K Img) Unit) :=
  Stays.bind (stays_detections (withSizes u.en k.sizes) _ _) fun _ => stays_reprojections (withSizes u.en k.sizes) _ _ _

theorem stays_reports {D F : Loc → Prop} (h0 : F (loc (cameraFile u.en.save u.name)))
    (h : ∀ b ∈ reportNames, b ≠ "detected_keypoints_data.yml".toList → F (loc (join u.en.save b))) (k : KStore (ℝ × ℝ) Str)
    (s : Found V G Pt) : Stays D F (saveReports u half k s : Act (Files V G Pt K Img) Unit) := by
  refine Stays.bind (Stays.saveFile h0) fun _ => Stays.bind (Stays.saveFile (h _ ?_ ?_)) fun _ =>
    Stays.bind (Stays.saveFile (h _ ?_ ?_)) fun _ => Stays.saveFile (h _ ?_ ?_)
  all_goals decide

theorem stays_last {D F : Loc → Prop} (h : F (loc (keypointFile u.en.save))) (k : KStore (ℝ × ℝ) Str) (s : Found V G Pt) :
    Stays D F (saveLast u half k s : Act (Files V G Pt K Img) Unit) :=
  Stays.bind (Stays.compute _) fun _ => Stays.saveFile h

theorem stays_workflow (hname : u.name = [] ∨ Plain u.name) :
    Stays (Made u.en.save) (ResultPlace u.en.save u.name) (workflow u half l : Act (Files V G Pt K Img) Unit) := by
  have h1 : ∀ b ∈ reportNames, ResultPlace u.en.save u.name (loc (join u.en.save b)) := fun b hb => by
    rw [report_place hb]
    exact name_place (List.mem_cons_of_mem _ hb)
  refine Stays.bind (Stays.mono (stays_save _) (fun x h => .inl h) (fun _ h => h.elim)) fun _ => Stays.bind (Stays.read _) fun k =>
    Stays.bind (Stays.compute _) fun s => Stays.bind (Stays.mono (stays_images u k s) (fun _ h => h) fun _ h => .inr h) fun _ =>
    Stays.bind (stays_reports u half ?_ (fun b hb _ => h1 b hb) k s) fun _ => stays_last u half (h1 _ (by decide)) k s
  rw [camera_place hname]
  exact name_place (List.mem_cons_self ..)

theorem remains_of_within {C : Type} {save name : Str} {d dk : Disk C} (h : Within (Made save) (ResultPlace save name) d dk) :
    Remains save name d dk := ⟨h.sound, h.dirs, h.newDirs, h.others⟩

/-- C90: however a run ends, nothing is gone, and nothing is new or changed but files at the places of results and
directories for them. -/
theorem C90_left (hname : u.name = [] ∨ Plain u.name) {d : Files V G Pt K Img} (hs : Sound d) :
    Remains u.en.save u.name d (workflow u half l d).1 := remains_of_within (stays_workflow u half l hname d hs)

/-- C90: a run that fails before its calibration is finished changes no file, and makes at most the output directory. -/
theorem C90_early (hkey : Apart u.en.save u.keypoints) {d : Files V G Pt K Img} (hs : Sound d)
    (hf : ∀ k s, extract u l d = .ok k → calibrate u k ≠ .ok s) :
    OnlySaveDir u.en.save d (workflow u half l d).1 ∧ (workflow u half l d).2 ≠ .ok () := by
  have h1 := stays_save u.en.save d hs
  have h2 := extract_ensure u l hkey hs
  have key : (workflow u half l d).1 = (ensure u.en.save d).1 ∧ (workflow u half l d).2 ≠ .ok () := by
    show (Act.bind _ _ d).1 = _ ∧ (Act.bind _ _ d).2 ≠ _
    unfold Act.bind
    split
    · show (Act.bind _ _ _).1 = _ ∧ (Act.bind _ _ _).2 ≠ _
      unfold Act.bind Act.read
      dsimp only
      rw [h2]
      split
      · next k hk =>
        show (Act.bind _ _ _).1 = _ ∧ (Act.bind _ _ _).2 ≠ _
        unfold Act.bind Act.compute
        dsimp only
        split
        · next s hs => exact absurd hs (hf k s hk)
        all_goals exact ⟨rfl, nofun⟩
      all_goals exact ⟨rfl, nofun⟩
    all_goals exact ⟨rfl, nofun⟩
  rw [key.1]
  exact ⟨⟨h1.dirs, h1.newDirs, funext fun x => h1.others x id⟩, key.2⟩

theorem bind_keeps {C α β : Type} {a : Act (Disk C) α} {f : α → Act (Disk C) β} {d : Disk C} {x : Loc}
    (ha : (a d).1.file x = d.file x)
    (hf : ∀ v, (a d).2 = .ok v → (f v (a d).1).1.file x = (a d).1.file x ∨ ∃ y, (f v (a d).1).2 = .ok y) :
    ((a >>= f) d).1.file x = d.file x ∨ ∃ y, ((a >>= f) d).2 = .ok y := by
  show (Act.bind a f d).1.file x = _ ∨ ∃ y, (Act.bind a f d).2 = _
  unfold Act.bind
  split
  · next v hv => exact (hf v hv).imp_left fun h => h.trans ha
  all_goals exact .inl ha

/-- C90: the keypoint file is written last: if it was changed, and images of all cameras were found, the run has succeeded. -/
theorem C90_last (hname : u.name = [] ∨ Plain u.name ∧ u.name ∉ kinds ∧ u.name ∉ reportNames) (hkey : Apart u.en.save u.keypoints)
    {d : Files V G Pt K Img} (hs : Sound d)
    (hsz : ∀ k, extract u l d = .ok k → ∀ c < k.store.cams.length, ∃ sz, k.sizes[c]? = some (some sz))
    (hch : (workflow u half l d).1.file (loc (keypointFile u.en.save)) ≠ d.file (loc (keypointFile u.en.save))) :
    (workflow u half l d).2 = .ok () := by
  have hlast : loc (keypointFile u.en.save) = below u.en.save ["detected_keypoints_data.yml".toList] := report_place (by decide)
  have hni : ¬ ImagePlace u.en.save (loc (keypointFile u.en.save)) := by rw [hlast]; exact Props.Disk.not_image
  have hne : ∀ b, b ∈ cameraName u.name :: reportNames → b ≠ "detected_keypoints_data.yml".toList →
      below u.en.save [b] ≠ loc (keypointFile u.en.save) := fun b _ h e => h (Props.Disk.below_inj (e.trans hlast))
  have key : (workflow u half l d).1.file (loc (keypointFile u.en.save)) = d.file (loc (keypointFile u.en.save)) ∨
      ∃ y, (workflow u half l d).2 = .ok y := by
    have w1 := stays_save u.en.save d hs
    refine bind_keeps (w1.others _ id) fun _ _ => ?_
    refine bind_keeps rfl fun k hk => ?_
    replace hk : extract u l (ensure u.en.save d).1 = .ok k := hk
    rw [extract_ensure u l hkey hs] at hk
    refine bind_keeps rfl fun s _ => ?_
    have w2 := stays_images u k s _ w1.sound
    refine bind_keeps (w2.others _ hni) fun _ _ => ?_
    have w3 := stays_reports (D := fun _ => False) (F := fun x => x ≠ loc (keypointFile u.en.save)) u half ?_ ?_ k s _ w2.sound
    · refine bind_keeps (w3.others _ fun h => h rfl) fun _ _ => ?_
      refine bind_keeps rfl fun _ _ => ?_
      right
      have hz : ∃ kp, keyFile k s.obs = .ok kp := by
        refine ⟨_, Keypoints.save_ok _ (fun c => ((k.sizes[c]?).join).getD (0, 0)) fun c hc => ?_⟩
        obtain ⟨sz, e⟩ := hsz k hk c hc
        show (k.sizes[c]?).join = _
        rw [e]
        rfl
      obtain ⟨kp, hkp⟩ := hz
      rw [hkp]
      exact ⟨(), rfl⟩
    · show loc (cameraFile u.en.save u.name) ≠ _
      rw [camera_place (hname.imp_right And.left)]
      refine hne _ (List.mem_cons_self ..) fun h => ?_
      unfold cameraName at h
      split at h
      · exact absurd h (by decide)
      · next h0 => exact (hname.resolve_left h0).2.2 (by rw [h]; decide)
    · intro b hb hb'
      show loc (join u.en.save b) ≠ _
      rw [report_place hb]
      exact hne _ (List.mem_cons_of_mem _ hb) hb'
  rcases key with h | ⟨_, h⟩
  · exact absurd h hch
  · exact h

/-! ### How a run ends, and the next run -/

/-- After a run, however it ended, nothing is in the way of the next. -/
theorem C90_ready {C : Type} {save name : Str} {d dk : Disk C} (hd : Ready save name d) (h : Remains save name d dk) :
    Ready save name dk where
  sound := h.sound
  clear := by
    refine ⟨fun x hx => ?_, fun x hx => ?_⟩
    · rw [h.others x, hd.clear.made x hx]
      rintro (⟨b, hb, rfl⟩ | hi)
      · exact Props.Disk.not_made (names_not_kinds hd.name b hb) hx
      · exact made_not_image hx hi
    · cases hh : dk.dir x with
      | false => rfl
      | true =>
        rcases h.newDirs x hh with h1 | h1
        · rw [hd.clear.image x hx] at h1; cases h1
        · exact absurd hx (made_not_image h1)
  free := by
    intro b hb
    cases hh : dk.dir (below save [b]) with
    | false => rfl
    | true =>
      rcases h.newDirs _ hh with h1 | h1
      · rw [hd.free b hb] at h1; cases h1
      · exact absurd h1 (Props.Disk.not_made (names_not_kinds hd.name b hb))
  name := hd.name
  place := hd.place.imp_left (h.dirs _)

/-- Where nothing is in the way, `a` ends like `o`. -/
def Does {C α : Type} (save name : Str) (a : Act (Disk C) α) (o : Outcome α) : Prop := ∀ d, Ready save name d → (a d).2 = o

section
variable {C α β : Type} {save name : Str}

theorem Does.bind {a : Act (Disk C) α} {f : α → Act (Disk C) β} {o : Outcome α} {o' : α → Outcome β}
    (hs : Stays (Made save) (ResultPlace save name) a) (ha : Does save name a o) (hf : ∀ x, Does save name (f x) (o' x)) :
    Does save name (a >>= f) (o >>= o') := by
  intro d hd
  have h1 := ha d hd
  have h2 := C90_ready hd (remains_of_within (hs d hd.sound))
  show (Act.bind a f d).2 = _
  unfold Act.bind
  subst h1
  split
  · next x hx => rw [hx, Outcome.bind_ok]; exact hf x _ h2
  · next hx => rw [hx]; rfl
  · next hx => rw [hx]; rfl
  · next hx => rw [hx]; rfl

theorem Does.compute (o : Outcome α) : Does save name (Act.compute o : Act (Disk C) α) o := fun _ _ => rfl

theorem Does.saveDir : Does save name (ensure save : Act (Disk C) Unit) (.ok ()) := by
  intro d hd
  obtain ⟨d1, h, -⟩ := makeSaveDir_ok (d0 := d) (d := d) ⟨hd.sound, fun _ => id, fun _ => Or.inl, fun _ _ => rfl⟩ hd.clear
  rw [ensure_save.2 h]

theorem Does.folders {kind : Str} (hk : kind ∈ kinds) (c : Nat) : Does save name (folders save kind c : Act (Disk C) Unit) (.ok ()) := by
  intro d hd
  obtain ⟨d1, h1, h2, -, -, h3⟩ := kindDir_ok (d0 := d) (d := d) ⟨hd.sound, fun _ => id, fun _ => Or.inl, fun _ _ => rfl⟩ hd.clear hk
  obtain ⟨d2, h4, -⟩ := camDir_ok h2 hd.clear hk c h3
  rw [folders_ok.2 (by rw [h1, Outcome.bind_ok]; exact h4)]

variable {V G Pt K Img KP : Type}

theorem stays_frame {kind : Str} (hk : kind ∈ kinds) {c : Nat} {o : Outcome (List (Images.Written Img))}
    (h : ∀ ws, o = .ok ws → ∀ w ∈ ws, ∃ f, w.file = Images.imageFile save kind c f) :
    Stays (Made save) (ResultPlace save name) (frame o : Act (Disk (Content V G Pt K Img KP)) Unit) := by
  refine Stays.frame fun ws hws w hw => .inr ?_
  obtain ⟨f, e⟩ := h ws hws w hw
  rw [e, loc_image _ hk]
  exact ⟨kind, hk, c, f, rfl⟩

theorem Does.frame (o : Outcome (List (Images.Written Img))) :
    Does save name (frame o : Act (Disk (Content V G Pt K Img KP)) Unit) (o >>= fun _ => .ok ()) := by
  intro d _
  cases o with
  | ok ws =>
    show (forEach put ws d).2 = _
    rw [puts]
    rfl
  | _ => rfl

theorem Does.frames {kind : Str} (hk : kind ∈ kinds) {c : Nat} {v : α → Outcome (List (Images.Written Img))}
    {step : List (Images.Written Img) → α → Outcome (List (Images.Written Img))}
    (hstep : ∀ out e, step out e = v e >>= fun ws => .ok (out ++ ws))
    (hv : ∀ e ws, v e = .ok ws → ∀ w ∈ ws, ∃ f, w.file = Images.imageFile save kind c f) (l : List α) (out : List (Images.Written Img)) :
    Does save name (forEach (fun e => Order.frame (v e)) l : Act (Disk (Content V G Pt K Img KP)) Unit)
      (Outcome.foldlM step out l >>= fun _ => .ok ()) := by
  induction l generalizing out with
  | nil => exact fun _ _ => rfl
  | cons e l ih =>
    rw [Outcome.foldlM_cons, hstep]
    intro d hd
    rw [show forEach (fun e => Order.frame (v e)) (e :: l) = (Order.frame (v e) >>= fun _ => forEach (fun e => Order.frame (v e)) l) from rfl]
    cases hve : v e with
    | ok ws =>
      rw [Outcome.bind_ok, Outcome.bind_ok]
      have := Does.bind (stays_frame hk (hv e)) (Does.frame (v e)) (fun _ => ih (out ++ ws)) d hd
      rw [hve] at this
      exact this
    | _ =>
      have := Does.bind (stays_frame hk (hv e)) (Does.frame (v e)) (fun _ => ih out) d hd
      rw [hve] at this
      exact this

theorem stays_cam {kind : Str} (hk : kind ∈ kinds) {c : Nat} {v : α → Outcome (List (Images.Written Img))}
    (hv : ∀ e ws, v e = .ok ws → ∀ w ∈ ws, ∃ f, w.file = Images.imageFile save kind c f) (l : List α) :
    Stays (Made save) (ResultPlace save name)
      (Order.folders save kind c >>= fun _ => forEach (fun e => Order.frame (v e)) l : Act (Disk (Content V G Pt K Img KP)) Unit) :=
  Stays.bind (folders_made hk c) fun _ => Stays.forEach fun e _ => stays_frame hk (hv e)

theorem Does.cams {kind : Str} (hk : kind ∈ kinds) {v : Nat → α → Outcome (List (Images.Written Img))}
    {step : Nat → List (Images.Written Img) → α → Outcome (List (Images.Written Img))}
    (hstep : ∀ c out e, step c out e = v c e >>= fun ws => .ok (out ++ ws))
    (hv : ∀ c e ws, v c e = .ok ws → ∀ w ∈ ws, ∃ f, w.file = Images.imageFile save kind c f) (l : List α)
    {f : List (List (Images.Written Img)) → Nat → Outcome (List (List (Images.Written Img)))}
    (hf : ∀ acc c, f acc c = Outcome.foldlM (step c) [] l >>= fun w => .ok (acc ++ [w])) (cs : List Nat) (acc) :
    Does save name (forEach (fun c => Order.folders save kind c >>= fun _ => forEach (fun e => Order.frame (v c e)) l) cs :
      Act (Disk (Content V G Pt K Img KP)) Unit) (Outcome.foldlM f acc cs >>= fun _ => .ok ()) := by
  induction cs generalizing acc with
  | nil => exact fun _ _ => rfl
  | cons c cs ih =>
    have h1 : Does save name (Order.folders save kind c >>= fun _ => forEach (fun e => Order.frame (v c e)) l :
        Act (Disk (Content V G Pt K Img KP)) Unit) (Outcome.foldlM (step c) [] l >>= fun _ => .ok ()) := by
      have := Does.bind (folders_made hk c) (Does.folders (C := Content V G Pt K Img KP) (name := name) hk c)
        fun _ => Does.frames hk (hstep c) (hv c) l []
      exact this
    rw [Outcome.foldlM_cons, hf]
    intro d hd
    cases hve : Outcome.foldlM (step c) [] l with
    | ok ws =>
      rw [Outcome.bind_ok, Outcome.bind_ok]
      have := Does.bind (stays_cam hk (hv c) l) h1 (fun _ => ih (acc ++ [ws])) d hd
      rw [hve] at this
      exact this
    | _ =>
      have := Does.bind (stays_cam hk (hv c) l) h1 (fun _ => ih acc) d hd
      rw [hve] at this
      exact this

theorem Does.detections (en : Finish.Env V G Pt K Str Img) (sc : Output.Scene V G Pt) (frames : OMap Nat (FrameRec Str)) :
    Does en.save name (allDetectionImages en sc frames : Act (Disk (Content V G Pt K Img KP)) Unit)
      (Finish.detectAll en sc frames >>= fun _ => .ok ()) := by
  unfold allDetectionImages Finish.detectAll
  split
  · exact Does.cams (by decide) (detection_step sc en.colour en.imread en.emptyPath en.save)
      (fun c e ws h w hw => ⟨e.1, detection_files h w hw⟩) frames (fun _ _ => rfl) _ []
  · exact Does.compute _

theorem Does.reprojections [Group G] (en : Finish.Env V G Pt K Str Img) (sc : Output.Scene V G Pt) (gp : Nat → V)
    (frames : OMap Nat (FrameRec Str)) :
    Does en.save name (allReprojectionImages en sc gp frames : Act (Disk (Content V G Pt K Img KP)) Unit)
      (Finish.reproAll en sc gp frames >>= fun _ => .ok ()) := by
  unfold allReprojectionImages Finish.reproAll
  split
  · exact Does.cams (by decide) (reprojection_step sc gp en.imread en.emptyPath en.save)
      (fun c e ws h w hw => ⟨e.1, reprojection_files h w hw⟩) frames (fun _ _ => rfl) _ []
  · exact Does.compute _

theorem Does.saveFile (half : Str → Content V G Pt K Img KP) (p : Str) (o : Outcome (Content V G Pt K Img KP)) :
    Does save name (saveFile half p o) (o >>= fun _ => .ok ()) := by
  intro d _
  unfold Order.saveFile
  cases o <;> rfl

end

theorem bind_unit {α β : Type} (o : Outcome α) (f : α → Outcome β) (g : β → Outcome Unit) :
    ((o >>= f) >>= g) = o >>= fun x => f x >>= g := Lemmas.WholeSame.bind_assoc' o f g

theorem does_images (name : Str) (k : KStore (ℝ × ℝ) Str) (s : Found V G Pt) :
    Does u.en.save name (Order.saveImages u k s : Act (Files V G Pt K Img) Unit) (do
      let _ ← Finish.detectAll (withSizes u.en k.sizes) (Finish.scene (withSizes u.en k.sizes) s.r) k.store.frames
      let _ ← Finish.reproAll (withSizes u.en k.sizes) (Finish.scene (withSizes u.en k.sizes) s.r) s.gp k.store.frames
      pure ()) := by
  have := Does.bind (name := name) (save := u.en.save)
    (Stays.mono (stays_detections (KP := KeyFile (ℝ × ℝ) Str) (withSizes u.en k.sizes) (Finish.scene (withSizes u.en k.sizes) s.r) k.store.frames)
      (fun _ h => h) fun _ h => .inr h)
    (Does.detections (withSizes u.en k.sizes) _ _) fun _ =>
      Does.reprojections (withSizes u.en k.sizes) (Finish.scene (withSizes u.en k.sizes) s.r) s.gp k.store.frames
  intro d hd
  rw [show (Order.saveImages u k s d).2 = _ from this d hd, bind_unit]
  rfl

theorem does_reports (name : Str) (hF : ∀ b ∈ cameraName u.name :: reportNames, ResultPlace u.en.save name (loc (join u.en.save b)))
    (k : KStore (ℝ × ℝ) Str) (s : Found V G Pt) :
    Does u.en.save name (saveReports u half k s : Act (Files V G Pt K Img) Unit) (do
      let _ ← Output.saveCamerasParams (withSizes u.en k.sizes).cams s.r.1.t.groups
      let _ ← Output.save3DObj u.bpts s.r.1.objs
      let _ ← Output.saveReprojectionError (Finish.scene (withSizes u.en k.sizes) s.r)
      pure ()) := by
  have h0 : ResultPlace u.en.save name (loc (cameraFile u.en.save u.name)) := by
    rw [Props.Disk.cameraFile_eq]
    exact hF _ (List.mem_cons_self ..)
  have := Does.bind (name := name) (save := u.en.save) (Stays.saveFile h0)
    (Does.saveFile half (cameraFile u.en.save u.name) (do
      let x ← Output.saveCamerasParams (withSizes u.en k.sizes).cams s.r.1.t.groups
      pure (.cameras x))) fun _ => Does.bind (Stays.saveFile (hF _ (by simp [reportNames])))
    (Does.saveFile half (objectFile u.en.save) (do
      let x ← Output.save3DObj u.bpts s.r.1.objs
      pure (.objects x))) fun _ => Does.bind (Stays.saveFile (hF _ (by simp [reportNames])))
    (Does.saveFile half (poseFile u.en.save) (pure (.poses (Output.save3DObjPose s.r.1.objs s.r.1.oo u.en.camPose)))) fun _ =>
    (Does.saveFile half (errorFile u.en.save) (do
      let x ← Output.saveReprojectionError (Finish.scene (withSizes u.en k.sizes) s.r)
      pure (.errors x)))
  intro d hd
  rw [show (saveReports u half k s d).2 = _ from this d hd]
  simp only [Lemmas.WholeSame.bind_assoc', Outcome.pure_eq, Outcome.bind_ok]

theorem does_last (name : Str) (k : KStore (ℝ × ℝ) Str) (s : Found V G Pt) :
    Does u.en.save name (saveLast u half k s : Act (Files V G Pt K Img) Unit) (do
      let _ ← Output.computeAvgReprojectionError (Finish.scene (withSizes u.en k.sizes) s.r)
      let _ ← keyFile k s.obs
      pure ()) := by
  have := Does.bind (name := name) (save := u.en.save) (Stays.compute _)
    (Does.compute (Output.computeAvgReprojectionError (Finish.scene (withSizes u.en k.sizes) s.r))) fun _ =>
    (Does.saveFile half (keypointFile u.en.save) (do
      let x ← keyFile k s.obs
      pure (.keypoints x)))
  intro d hd
  rw [show (saveLast u half k s d).2 = _ from this d hd]
  simp only [Lemmas.WholeSame.bind_assoc', Outcome.pure_eq, Outcome.bind_ok]

theorem results_seq (k : KStore (ℝ × ℝ) Str) : (results u k >>= fun _ => Outcome.ok ()) = (do
    let s ← calibrate u k
    let _ ← Finish.detectAll (withSizes u.en k.sizes) (Finish.scene (withSizes u.en k.sizes) s.r) k.store.frames
    let _ ← Finish.reproAll (withSizes u.en k.sizes) (Finish.scene (withSizes u.en k.sizes) s.r) s.gp k.store.frames
    let _ ← Output.saveCamerasParams (withSizes u.en k.sizes).cams s.r.1.t.groups
    let _ ← Output.save3DObj u.bpts s.r.1.objs
    let _ ← Output.saveReprojectionError (Finish.scene (withSizes u.en k.sizes) s.r)
    let _ ← Output.computeAvgReprojectionError (Finish.scene (withSizes u.en k.sizes) s.r)
    let _ ← keyFile k s.obs
    pure ()) := by
  unfold results calibrate Finish.report keyFile
  simp only [Lemmas.WholeSame.bind_assoc', Outcome.pure_eq, Outcome.bind_ok]
  rfl

/-- C90: where nothing is in the way of the results, a run ends as its computations end, in the order of the code. -/
theorem C90_outcome (hkey : Apart u.en.save u.keypoints) {d : Files V G Pt K Img} (hd : Ready u.en.save u.name d) :
    (workflow u half l d).2 = (do
      let k ← extract u l d
      let _ ← results u k
      pure ()) := by
  have hF : ∀ b ∈ cameraName u.name :: reportNames, ResultPlace u.en.save u.name (loc (join u.en.save b)) := by
    intro b hb
    rw [show loc (join u.en.save b) = below u.en.save [b] from ?_]
    · exact name_place hb
    · rcases List.mem_cons.1 hb with rfl | hb
      · exact loc_join_plain _ (plain_camera (hd.name.imp_right And.left))
      · exact report_place hb
  have h1 : ∀ k s, Does u.en.save u.name (Order.saveImages u k s >>= fun _ => saveReports u half k s >>= fun _ => saveLast u half k s) _ :=
    fun k s => Does.bind (Stays.mono (stays_images u k s) (fun _ h => h) fun _ h => .inr h) (does_images u u.name k s) fun _ =>
      Does.bind (stays_reports u half (by rw [Props.Disk.cameraFile_eq]; exact hF _ (List.mem_cons_self ..))
        (fun b hb _ => hF b (List.mem_cons_of_mem _ hb)) k s) (does_reports u half u.name hF k s) fun _ => does_last u half u.name k s
  have h2 : ∀ k, Does u.en.save u.name (compute (calibrate u k) >>= fun s => Order.saveImages u k s >>= fun _ =>
      saveReports u half k s >>= fun _ => saveLast u half k s) (results u k >>= fun _ => Outcome.ok ()) := by
    intro k e he
    rw [results_seq, show (_ : Outcome Unit) = _ from Does.bind (Stays.compute _) (Does.compute (calibrate u k)) (h1 k) e he]
    simp only [Lemmas.WholeSame.bind_assoc', Outcome.pure_eq, Outcome.bind_ok]
  have h3 := stays_save u.en.save d hd.sound
  have h4 := extract_ensure u l hkey hd.sound
  have h5 : Ready u.en.save u.name (ensure u.en.save d).1 :=
    C90_ready hd (remains_of_within (Within.mono h3 (fun x h => .inl h) fun _ h => h.elim))
  have h6 := Does.saveDir d hd
  show (Act.bind _ _ d).2 = _
  unfold Act.bind
  rw [h6]
  show (Act.bind _ _ _).2 = _
  unfold Act.bind Act.read
  dsimp only
  rw [h4]
  cases extract u l d with
  | ok k => exact h2 k _ h5
  | _ => rfl

theorem unit_eq {α : Type} {o : Outcome α} (h : (o >>= fun _ => Outcome.ok ()) = .ok ()) : ∃ x, o = .ok x := by
  obtain ⟨x, h, -⟩ := Outcome.bind_eq_ok.1 h
  exact ⟨x, h⟩

/-- C90: where nothing is in the way, a failed run fails again in the same way when it is repeated. -/
theorem C90_fails_again (half' : Str → Content V G Pt K Img (KeyFile (ℝ × ℝ) Str))
    (hkey : u.keypoints = [] ∨ u.keypoints = "None".toList ∨
      ¬ ResultPlace u.en.save u.name (loc u.keypoints) ∧ ¬ Made u.en.save (loc u.keypoints))
    {d : Files V G Pt K Img} (hd : Ready u.en.save u.name d) :
    (workflow u half' l (workflow u half l d).1).2 = (workflow u half l d).2 := by
  have hap : Apart u.en.save u.keypoints := by
    rcases hkey with h | h | ⟨-, h⟩
    · exact .inl h
    · exact .inr (.inl h)
    · exact .inr (.inr fun k hk => h (.inl ⟨k, hk⟩))
  have hw := stays_workflow u half l (hd.name.imp_right And.left) d hd.sound
  rw [C90_outcome u half' l hap (C90_ready hd (remains_of_within hw)), C90_outcome u half l hap hd, extract_within u l hw hkey]

/-- C90: after a run with the same output directory, however it ended, a run that would have succeeded without it
succeeds; its results are the same, and no other file is changed. -/
theorem C90_rerun (u' : Setup V G Pt K K' Q Img) (half' : Str → Content V G Pt K Img (KeyFile (ℝ × ℝ) Str))
    (l' : List (Insertion (ℝ × ℝ) Str)) (hsave : u'.en.save = u.en.save) (hname : u'.name = u.name)
    (hkey : u'.keypoints = [] ∨ u'.keypoints = "None".toList ∨
      ¬ ResultPlace u.en.save u.name (loc u'.keypoints) ∧ ¬ Made u.en.save (loc u'.keypoints))
    {d d' : Files V G Pt K Img} (hd : Ready u.en.save u.name d) (h : workflow u' half' l' d = (d', .ok ())) :
    ∃ e' k q, extract u' l' d = .ok k ∧ results u' k = .ok q ∧ workflow u' half' l' (workflow u half l d).1 = (e', .ok ()) ∧
      (∀ x, Result u.en.save u.name q.1 x → e'.file x = d'.file x) ∧
      ∀ x, ¬ Result u.en.save u.name q.1 x → e'.file x = (workflow u half l d).1.file x := by
  have hap : Apart u'.en.save u'.keypoints := by
    rw [hsave]
    rcases hkey with h | h | ⟨-, h⟩
    · exact .inl h
    · exact .inr (.inl h)
    · exact .inr (.inr fun k hk => h (.inl ⟨k, hk⟩))
  have hw := stays_workflow u half l (hd.name.imp_right And.left) d hd.sound
  have hk' := C90_ready hd (remains_of_within hw)
  have h0 := (C90_complete u' half' l' hap hd.sound).1 h
  obtain ⟨k, hk, h0⟩ := Outcome.bind_eq_ok.1 h0
  rw [conclude_eq] at h0
  obtain ⟨q, hq, h0⟩ := Outcome.bind_eq_ok.1 h0
  have hsh := shapes_results u' hk hq
  rw [hsave] at hsh
  rw [hsave, hname] at h0
  obtain ⟨_, a1, a2⟩ := Props.Disk.C82_written (name := u.name) q.2 hd.sound hd.clear hsh.1 hsh.2 hd.free hd.name (hd.place.imp_right .inl)
  rw [h0] at a1
  cases a1
  obtain ⟨e', b1, b2⟩ := Props.Disk.C82_written (name := u.name) q.2 hk'.sound hk'.clear hsh.1 hsh.2 hk'.free hk'.name (hk'.place.imp_right .inl)
  have lb := left_saveAll (hk'.name.imp_right And.left) hk'.sound b1
  refine ⟨e', k, q, hk, hq, (C90_complete u' half' l' hap hk'.sound).2 ?_, ?_, lb.others⟩
  · unfold Verif.Whole.run
    rw [extract_within u' l' hw hkey, hk, Outcome.bind_ok, conclude_eq, hq, Outcome.bind_ok, hsave, hname]
    exact b1
  · intro x hx
    rcases hx with ⟨b, hb, rfl⟩ | ⟨ws, hws, w, hw, rfl⟩
    · simp only [reportNames, List.mem_cons, List.not_mem_nil, or_false] at hb
      rcases hb with rfl | rfl | rfl | rfl | rfl
      · rw [a2.cameras, b2.cameras]
      · rw [a2.objects, b2.objects]
      · rw [a2.poses, b2.poses]
      · rw [a2.errors, b2.errors]
      · rw [a2.keypoints, b2.keypoints]
    · rw [a2.images ws hws w hw, b2.images ws hws w hw]

/-! ### The program -/

/-- C90: what the exit status says: -1, the argument is not an existing `.yml` file, and no file was touched; 0, the run
was complete; there is no other. -/
theorem C90_exit (setup : Content V G Pt K Img (KeyFile (ℝ × ℝ) Str) → Outcome (Setup V G Pt K K' Q Img)) (argv : List Str)
    (happ : ∀ c u, setup c = .ok u → Apart u.en.save u.keypoints) {d d' : Files V G Pt K Img} (hs : Sound d) {r : Int}
    (h : Order.main setup half l argv d = (d', .ok r)) :
    (r = -1 ∧ d' = d ∧ ∃ p, argv[1]? = some p ∧ available d.has p = false) ∨
    (r = 0 ∧ ∃ p c u, argv[1]? = some p ∧ available d.has p = true ∧ d.file (loc p) = some c ∧ setup c = .ok u ∧
      Verif.Whole.run u l d = .ok d') := by
  unfold Order.main at h
  split at h
  · cases h
  · next p hp =>
    split at h
    · next ha =>
      obtain ⟨d1, u, h1, h⟩ := bind_ok.1 h
      obtain ⟨d2, _, h2, h⟩ := bind_ok.1 h
      obtain ⟨h3, h4⟩ := compute_ok.1 h
      unfold Act.read at h1
      rw [Prod.mk.injEq] at h1
      dsimp only at h1
      cases hf : d.file (loc p) with
      | none => rw [hf] at h1; cases h1.2
      | some c =>
        rw [hf] at h1
        have hu : setup c = .ok u := h1.2
        refine .inr ⟨(Outcome.ok.inj h3).symm, p, c, u, hp, ha, hf, hu, ?_⟩
        rw [h4]
        rw [← h1.1] at h2
        exact (C90_complete u half l (happ c u hu) hs).1 h2
    · next ha =>
      rw [Prod.mk.injEq] at h
      exact .inl ⟨(Outcome.ok.inj h.2).symm, h.1.symm, p, hp, by simpa using ha⟩

/-- C90: and the program returns 0 for each complete run of a configuration. -/
theorem C90_exit_zero (setup : Content V G Pt K Img (KeyFile (ℝ × ℝ) Str) → Outcome (Setup V G Pt K K' Q Img)) (argv : List Str)
    {p : Str} {c} (hp : argv[1]? = some p) {d d' : Files V G Pt K Img} (hs : Sound d) (ha : available d.has p = true)
    (hc : d.file (loc p) = some c) (hu : setup c = .ok u) (happ : Apart u.en.save u.keypoints)
    (h : Verif.Whole.run u l d = .ok d') : Order.main setup half l argv d = (d', .ok 0) := by
  have h1 := (C90_complete u half l happ hs).2 h
  unfold Order.main
  rw [hp]
  dsimp only
  rw [if_pos ha]
  refine bind_ok.2 ⟨d, u, ?_, bind_ok.2 ⟨d', (), h1, rfl⟩⟩
  unfold Act.read
  dsimp only
  rw [hc]
  exact Prod.ext rfl hu

end Verif.Props.Order
