import Verif.Model.Order
import Verif.Spec.Order
import Verif.Props.Crash

/-! Lemmas about programs that work on files. -/
namespace Verif.Lemmas.Order
open Verif Verif.Folders Verif.Start Verif.Disk Verif.Order Verif.Order.Act Verif.Spec.Disk Verif.Spec.Order Verif.Spec.Whole
open Verif.Props.Crash Verif.Lemmas.Disk

variable {D α β : Type}

/-! ### Success -/

theorem bind_ok {a : Act D α} {f : α → Act D β} {d d' : D} {y : β} :
    (a >>= f) d = (d', .ok y) ↔ ∃ d1 x, a d = (d1, .ok x) ∧ f x d1 = (d', .ok y) := by
  show Act.bind a f d = _ ↔ _
  unfold Act.bind
  rcases h : a d with ⟨d1, o⟩
  cases o <;> simp

theorem bind_of {a : Act D α} {f : α → Act D β} {d d1 : D} {x : α} (h : a d = (d1, .ok x)) : (a >>= f) d = f x d1 := by
  show Act.bind a f d = _
  unfold Act.bind
  rw [h]

theorem compute_ok {o : Outcome α} {d d' : D} {x : α} : compute o d = (d', .ok x) ↔ o = .ok x ∧ d' = d := by
  unfold compute
  rw [Prod.mk.injEq, and_comm, eq_comm (a := d)]

theorem call_ok {f : D → Outcome D} {d d' : D} : call f d = (d', .ok ()) ↔ f d = .ok d' := by
  unfold call
  cases f d <;> simp

theorem forEach_call {f : α → D → Outcome D} {l : List α} {d d' : D} :
    forEach (fun x => call (f x)) l d = (d', .ok ()) ↔ Outcome.foldlM (fun d x => f x d) d l = .ok d' := by
  induction l generalizing d with
  | nil => simp [forEach]
  | cons x l ih =>
    rw [Outcome.foldlM_cons, Outcome.bind_eq_ok]
    show (call (f x) >>= fun _ => forEach (fun x => call (f x)) l) d = _ ↔ _
    rw [bind_ok]
    constructor
    · rintro ⟨d1, _, h1, h2⟩
      exact ⟨d1, call_ok.1 h1, ih.1 h2⟩
    · rintro ⟨d1, h1, h2⟩
      exact ⟨d1, (), call_ok.2 h1, ih.2 h2⟩

variable {C : Type}

theorem create_ok {p : Str} {d d' : Disk C} :
    Order.createDirectories p d = (d', .ok ()) ↔ Disk.createDirectories d p = .ok d' := forEach_call

theorem ensure_save {p : Str} {d d' : Disk C} : ensure p d = (d', .ok ()) ↔ makeSaveDir d p = .ok d' := by
  unfold ensure makeSaveDir
  split
  · exact create_ok
  · simp

theorem ensure_kind {save kind : Str} {d d' : Disk C} : ensure (join save kind) d = (d', .ok ()) ↔ Disk.kindDir save kind d = .ok d' :=
  ensure_save

theorem folders_ok {save kind : Str} {c : Nat} {d d' : Disk C} :
    folders save kind c d = (d', .ok ()) ↔ (Disk.kindDir save kind d >>= Disk.camDir save kind c) = .ok d' := by
  unfold folders
  rw [bind_ok, Outcome.bind_eq_ok]
  constructor
  · rintro ⟨d1, _, h1, h2⟩
    exact ⟨d1, ensure_kind.1 h1, call_ok.1 h2⟩
  · rintro ⟨d1, h1, h2⟩
    exact ⟨d1, (), ensure_kind.2 h1, call_ok.2 h2⟩

variable {V G Pt K Img KP : Type}

theorem puts (ws : List (Images.Written Img)) (d : Disk (Content V G Pt K Img KP)) :
    forEach put ws d = (ws.foldl writeImage d, .ok ()) := by
  induction ws generalizing d with
  | nil => rfl
  | cons w ws ih => exact ih (writeImage d w)

theorem frame_ok {o : Outcome (List (Images.Written Img))} {d d' : Disk (Content V G Pt K Img KP)} :
    frame o d = (d', .ok ()) ↔ ∃ ws, o = .ok ws ∧ d' = ws.foldl writeImage d := by
  unfold frame
  rw [bind_ok]
  constructor
  · rintro ⟨d1, ws, h1, h2⟩
    obtain ⟨h3, rfl⟩ := compute_ok.1 h1
    rw [puts, Prod.mk.injEq] at h2
    exact ⟨ws, h3, h2.1.symm⟩
  · rintro ⟨ws, h, rfl⟩
    exact ⟨d, ws, compute_ok.2 ⟨h, rfl⟩, puts ws d⟩

/-- A loop over frames that collects images. -/
theorem frames_ok {v : α → Outcome (List (Images.Written Img))}
    {step : List (Images.Written Img) → α → Outcome (List (Images.Written Img))}
    (hstep : ∀ out e, step out e = v e >>= fun ws => .ok (out ++ ws)) {l : List α} {d d' : Disk (Content V G Pt K Img KP)}
    (out : List (Images.Written Img)) :
    forEach (fun e => frame (v e)) l d = (d', .ok ()) ↔
      ∃ ws, Outcome.foldlM step out l = .ok (out ++ ws) ∧ d' = ws.foldl writeImage d := by
  induction l generalizing d out with
  | nil =>
    simp only [forEach, Outcome.foldlM_nil, Prod.mk.injEq, and_true, Outcome.ok.injEq, List.self_eq_append_right, exists_eq_left, List.foldl_nil]
    exact eq_comm
  | cons e l ih =>
    show (frame (v e) >>= fun _ => forEach (fun e => frame (v e)) l) d = _ ↔ _
    rw [bind_ok, Outcome.foldlM_cons, hstep]
    constructor
    · rintro ⟨d1, _, h1, h2⟩
      obtain ⟨ws, h3, rfl⟩ := frame_ok.1 h1
      obtain ⟨ws', h4, rfl⟩ := (ih (out ++ ws)).1 h2
      rw [h3, Outcome.bind_ok, Outcome.bind_ok]
      exact ⟨ws ++ ws', by rw [h4, List.append_assoc], by rw [List.foldl_append]⟩
    · rintro ⟨ws, h, rfl⟩
      obtain ⟨t, h1, h2⟩ := Outcome.bind_eq_ok.1 h
      obtain ⟨w, h3, h4⟩ := Outcome.bind_eq_ok.1 h1
      cases h4
      have : ∃ w', out ++ ws = out ++ w ++ w' := by
        have key : ∀ {l : List α} {s r : List (Images.Written Img)}, Outcome.foldlM step s l = .ok r → ∃ w', r = s ++ w' := by
          intro l
          induction l with
          | nil => intro s r h; cases h; exact ⟨[], by simp⟩
          | cons x l ih =>
            intro s r h
            rw [Outcome.foldlM_cons, hstep] at h
            obtain ⟨t, h1, h2⟩ := Outcome.bind_eq_ok.1 h
            obtain ⟨w, h3, h4⟩ := Outcome.bind_eq_ok.1 h1
            cases h4
            obtain ⟨w', rfl⟩ := ih h2
            exact ⟨w ++ w', by simp⟩
        exact key h2
      obtain ⟨w', e'⟩ := this
      rw [e'] at h2
      rw [List.append_assoc] at e'
      cases List.append_cancel_left e'
      exact ⟨_, (), frame_ok.2 ⟨w, h3, rfl⟩, (ih (out ++ w)).2 ⟨w', h2, by rw [List.foldl_append]⟩⟩

/-- A loop over cameras. -/
theorem cams_ok {save kind : Str} {v : Nat → α → Outcome (List (Images.Written Img))}
    {step : Nat → List (Images.Written Img) → α → Outcome (List (Images.Written Img))}
    (hstep : ∀ c out e, step c out e = v c e >>= fun ws => .ok (out ++ ws)) {l : List α} (n s : Nat)
    {d d' : Disk (Content V G Pt K Img KP)} :
    forEach (fun c => folders save kind c >>= fun _ => forEach (fun e => frame (v c e)) l) (List.range' s n) d = (d', .ok ()) ↔
      ∃ wss, List.Forall₂ (fun c ws => Outcome.foldlM (step c) [] l = .ok ws) (List.range' s n) wss ∧
        Outcome.foldlM (saveCam save kind) d (wss.zipIdx s) = .ok d' := by
  induction n generalizing s d with
  | zero => simp [forEach, eq_comm]
  | succ n ih =>
    rw [List.range'_succ]
    show ((folders save kind s >>= fun _ => forEach (fun e => frame (v s e)) l) >>= fun _ => forEach _ (List.range' (s + 1) n)) d = _ ↔ _
    constructor
    · intro h
      obtain ⟨d1, _, h1, h2⟩ := bind_ok.1 h
      obtain ⟨d2, _, h3, h4⟩ := bind_ok.1 h1
      obtain ⟨ws, h5, rfl⟩ := (frames_ok (hstep s) []).1 h4
      obtain ⟨wss, h6, h7⟩ := (ih (s + 1)).1 h2
      refine ⟨ws :: wss, .cons h5 h6, ?_⟩
      rw [List.zipIdx_cons, Outcome.foldlM_cons]
      refine Outcome.bind_eq_ok.2 ⟨_, ?_, h7⟩
      obtain ⟨d3, h8, h9⟩ := Outcome.bind_eq_ok.1 (folders_ok.1 h3)
      unfold saveCam
      rw [h8, Outcome.bind_ok, h9]
      rfl
    · rintro ⟨_, h1, h2⟩
      cases h1 with
      | @cons _ ws _ wss h5 h6 =>
      rw [List.zipIdx_cons, Outcome.foldlM_cons] at h2
      obtain ⟨d1, h3, h7⟩ := Outcome.bind_eq_ok.1 h2
      unfold saveCam at h3
      obtain ⟨d2, h8, h3⟩ := Outcome.bind_eq_ok.1 h3
      obtain ⟨d3, h9, h3⟩ := Outcome.bind_eq_ok.1 h3
      cases h3
      refine bind_ok.2 ⟨_, (), bind_ok.2 ⟨d3, (), folders_ok.2 ?_, (frames_ok (hstep s) []).2 ⟨ws, h5, rfl⟩⟩,
        (ih (s + 1)).2 ⟨wss, h6, h7⟩⟩
      rw [h8, Outcome.bind_ok]
      exact h9

theorem forall₂_foldlM {v : α → Outcome β} {f : List β → α → Outcome (List β)}
    (hf : ∀ acc x, f acc x = v x >>= fun y => .ok (acc ++ [y])) {l : List α} {ys : List β} :
    List.Forall₂ (fun x y => v x = .ok y) l ys ↔ Outcome.foldlM f [] l = .ok ys := by
  constructor
  · have key : ∀ {l : List α} {ys : List β}, List.Forall₂ (fun x y => v x = .ok y) l ys → ∀ acc,
        Outcome.foldlM f acc l = .ok (acc ++ ys) := by
      intro l ys h
      induction h with
      | nil => intro acc; simp
      | @cons x y l ys h1 _ ih =>
        intro acc
        rw [Outcome.foldlM_cons, hf, h1, Outcome.bind_ok, Outcome.bind_ok, ih]
        simp
    exact fun h => key h []
  · intro h
    obtain ⟨ys', rfl, h2⟩ := Lemmas.Collect.foldlM_append_inv hf h
    exact h2

theorem write_append (save kind : Str) (c f : Nat) (image : Option Img) (circles : List Images.Circle)
    (out : List (Images.Written Img)) :
    Images.write save kind c f image circles out = out ++ Images.write save kind c f image circles [] := by
  cases image <;> simp [Images.write]

theorem detection_step (sc : Output.Scene V G Pt) (colour : Nat → Int × Int × Int) (imread : Str → Option Img) (emptyPath save : Str)
    (c : Nat) (out : List (Images.Written Img)) (e : Nat × FrameRec Str) :
    Images.detectionFrame sc colour imread emptyPath save c out e =
      Images.detectionFrame sc colour imread emptyPath save c [] e >>= fun ws => .ok (out ++ ws) := by
  unfold Images.detectionFrame
  dsimp only
  rw [Lemmas.WholeSame.bind_assoc']
  congr 1
  funext cs
  exact congrArg Outcome.ok (write_append _ _ _ _ _ _ _)

theorem reprojection_step [Group G] (sc : Output.Scene V G Pt) (gp : Nat → V) (imread : Str → Option Img) (emptyPath save : Str)
    (c : Nat) (out : List (Images.Written Img)) (e : Nat × FrameRec Str) :
    Images.reprojectionFrame sc gp imread emptyPath save c out e =
      Images.reprojectionFrame sc gp imread emptyPath save c [] e >>= fun ws => .ok (out ++ ws) := by
  unfold Images.reprojectionFrame
  dsimp only
  rw [Lemmas.WholeSame.bind_assoc']
  congr 1
  funext cs
  exact congrArg Outcome.ok (write_append _ _ _ _ _ _ _)

theorem detections_ok (en : Finish.Env V G Pt K Str Img) (sc : Output.Scene V G Pt) (frames : OMap Nat (FrameRec Str))
    {d d' : Disk (Content V G Pt K Img KP)} : allDetectionImages en sc frames d = (d', .ok ()) ↔
      ∃ wss, Finish.detectAll en sc frames = .ok wss ∧ Disk.saveImages en.save "Detection".toList d wss = .ok d' := by
  unfold allDetectionImages Finish.detectAll Disk.saveImages
  split
  · have h := cams_ok (KP := KP) (V := V) (G := G) (Pt := Pt) (K := K) (save := en.save) (kind := "Detection".toList)
      (detection_step sc en.colour en.imread en.emptyPath en.save) (l := frames) en.cams.length 0 (d := d) (d' := d')
    rw [← List.range_eq_range'] at h
    rw [show forEach (detectionImages en sc frames) (List.range en.cams.length) d = (d', Outcome.ok ()) ↔ _ from h]
    refine exists_congr fun wss => and_congr_left fun _ => ?_
    exact forall₂_foldlM (fun acc c => rfl)
  · constructor
    · intro h
      obtain ⟨-, rfl⟩ := compute_ok.1 h
      exact ⟨[], rfl, rfl⟩
    · rintro ⟨_, h, h'⟩
      cases h
      cases h'
      rfl

theorem reprojections_ok [Group G] (en : Finish.Env V G Pt K Str Img) (sc : Output.Scene V G Pt) (gp : Nat → V)
    (frames : OMap Nat (FrameRec Str)) {d d' : Disk (Content V G Pt K Img KP)} :
    allReprojectionImages en sc gp frames d = (d', .ok ()) ↔
      ∃ wss, Finish.reproAll en sc gp frames = .ok wss ∧ Disk.saveImages en.save "Reprojection".toList d wss = .ok d' := by
  unfold allReprojectionImages Finish.reproAll Disk.saveImages
  split
  · have h := cams_ok (KP := KP) (V := V) (G := G) (Pt := Pt) (K := K) (save := en.save) (kind := "Reprojection".toList)
      (reprojection_step sc gp en.imread en.emptyPath en.save) (l := frames) en.cams.length 0 (d := d) (d' := d')
    rw [← List.range_eq_range'] at h
    rw [show forEach (reprojectionImages en sc gp frames) (List.range en.cams.length) d = (d', Outcome.ok ()) ↔ _ from h]
    refine exists_congr fun wss => and_congr_left fun _ => ?_
    exact forall₂_foldlM (fun acc c => rfl)
  · constructor
    · intro h
      obtain ⟨-, rfl⟩ := compute_ok.1 h
      exact ⟨[], rfl, rfl⟩
    · rintro ⟨_, h, h'⟩
      cases h
      cases h'
      rfl

theorem saveFile_ok {half : Str → Content V G Pt K Img KP} {p : Str} {o : Outcome (Content V G Pt K Img KP)}
    {d d' : Disk (Content V G Pt K Img KP)} : saveFile half p o d = (d', .ok ()) ↔ ∃ c, o = .ok c ∧ d' = write d p c := by
  unfold saveFile
  cases o <;> simp [eq_comm]

/-! ### What is left -/

/-- However `a` ends, only directories in `P` and files in `F` are new. -/
def Stays (P F : Loc → Prop) (a : Act (Disk C) α) : Prop := ∀ d, Sound d → Within P F d (a d).1

variable {P F : Loc → Prop}

theorem Stays.bind {a : Act (Disk C) α} {f : α → Act (Disk C) β} (ha : Stays P F a) (hf : ∀ x, Stays P F (f x)) :
    Stays P F (a >>= f) := by
  intro d hs
  have h1 := ha d hs
  show Within P F d (Act.bind a f d).1
  unfold Act.bind
  split
  · exact h1.trans (hf _ _ h1.sound)
  all_goals exact h1

theorem Stays.compute (o : Outcome α) : Stays P F (compute o : Act (Disk C) α) := fun _ hs => .refl hs

theorem Stays.read (o : Disk C → Outcome α) : Stays P F (read o) := fun _ hs => .refl hs

theorem Stays.compute_bind {o : Outcome α} {f : α → Act (Disk C) β} (hf : ∀ x, o = .ok x → Stays P F (f x)) :
    Stays P F (Act.compute o >>= f) := by
  intro d hs
  show Within P F d (Act.bind (Act.compute o) f d).1
  cases o with
  | ok x => exact hf x rfl d hs
  | _ => exact .refl hs

theorem Stays.forEach {f : α → Act (Disk C) Unit} {l : List α} (hf : ∀ x ∈ l, Stays P F (f x)) : Stays P F (forEach f l) := by
  induction l with
  | nil => exact fun _ hs => .refl hs
  | cons x l ih => exact Stays.bind (hf x (by simp)) fun _ => ih fun y hy => hf y (by simp [hy])

theorem Stays.call {f : Disk C → Outcome (Disk C)} (h : ∀ d d', Sound d → f d = .ok d' → Within P F d d') : Stays P F (call f) := by
  intro d hs
  unfold Act.call
  split
  · next h' => exact h d _ hs h'
  all_goals exact .refl hs

theorem Stays.ensure {p : Str} (hp : ∀ k, P ⟨(loc p).abs, (loc p).names.take k⟩) : Stays P F (ensure p : Act (Disk C) Unit) := by
  have hc : Stays P F (Order.createDirectories p : Act (Disk C) Unit) := by
    refine Stays.forEach fun l hl => Stays.call fun d d' hs h => within_mkdir ?_ hs h
    obtain ⟨i, _, rfl⟩ := List.mem_map.1 hl
    exact hp _
  intro d hs
  unfold Order.ensure
  split
  · exact hc d hs
  · exact .refl hs

theorem Stays.folders {save kind : Str} {c : Nat} (h1 : ∀ k, P ⟨(loc (join save kind)).abs, (loc (join save kind)).names.take k⟩)
    (h2 : P (loc (join (join save kind) (Images.paddedTo 3 c)))) : Stays P F (folders save kind c : Act (Disk C) Unit) := by
  refine Stays.bind (Stays.ensure h1) fun _ => Stays.call fun d d' hs h => ?_
  unfold Disk.camDir at h
  split at h
  · exact within_mkdir h2 hs h
  · cases h
    exact .refl hs

theorem Stays.frame {o : Outcome (List (Images.Written Img))} (h : ∀ ws, o = .ok ws → ∀ w ∈ ws, F (loc w.file)) :
    Stays P F (frame o : Act (Disk (Content V G Pt K Img KP)) Unit) :=
  Stays.compute_bind fun ws hws => Stays.forEach fun w hw _ hs => within_write (h ws hws w hw) hs _

theorem Stays.saveFile {half : Str → Content V G Pt K Img KP} {p : Str} {o : Outcome (Content V G Pt K Img KP)} (hp : F (loc p)) :
    Stays P F (saveFile half p o) := by
  intro d hs
  unfold Order.saveFile
  split <;> exact within_write hp hs _

theorem detection_files {sc : Output.Scene V G Pt} {colour : Nat → Int × Int × Int} {imread : Str → Option Img} {emptyPath save : Str}
    {c : Nat} {e : Nat × FrameRec Str} {ws : List (Images.Written Img)}
    (h : Images.detectionFrame sc colour imread emptyPath save c [] e = .ok ws) :
    ∀ w ∈ ws, w.file = Images.imageFile save "Detection".toList c e.1 := by
  obtain ⟨cs, -, h⟩ := Outcome.bind_eq_ok.1 h
  cases h
  intro w hw
  unfold Images.write at hw
  split at hw
  · cases hw
  · simp only [List.nil_append, List.mem_singleton] at hw
    rw [hw]

theorem reprojection_files [Group G] {sc : Output.Scene V G Pt} {gp : Nat → V} {imread : Str → Option Img} {emptyPath save : Str}
    {c : Nat} {e : Nat × FrameRec Str} {ws : List (Images.Written Img)}
    (h : Images.reprojectionFrame sc gp imread emptyPath save c [] e = .ok ws) :
    ∀ w ∈ ws, w.file = Images.imageFile save "Reprojection".toList c e.1 := by
  obtain ⟨cs, -, h⟩ := Outcome.bind_eq_ok.1 h
  cases h
  intro w hw
  unfold Images.write at hw
  split at hw
  · cases hw
  · simp only [List.nil_append, List.mem_singleton] at hw
    rw [hw]

theorem folders_made {save kind : Str} (hk : kind ∈ kinds) (c : Nat) : Stays (Made save) F (folders save kind c : Act (Disk C) Unit) := by
  refine Stays.folders (fun k => ?_) ?_
  · rw [loc_join_plain save (plain_kind hk)]
    exact made_take hk k
  · rw [loc_cam save hk c]
    exact .inr ⟨kind, hk, .inr ⟨c, rfl⟩⟩

theorem stays_detections (en : Finish.Env V G Pt K Str Img) (sc : Output.Scene V G Pt) (frames : OMap Nat (FrameRec Str)) :
    Stays (Made en.save) (ImagePlace en.save) (allDetectionImages en sc frames : Act (Disk (Content V G Pt K Img KP)) Unit) := by
  unfold allDetectionImages
  split
  · refine Stays.forEach fun c _ => Stays.bind (folders_made (by decide) c) fun _ => Stays.forEach fun e _ => Stays.frame ?_
    intro ws hws w hw
    rw [detection_files hws w hw, loc_image _ (by decide)]
    exact ⟨_, by decide, c, e.1, rfl⟩
  · exact Stays.compute _

theorem stays_reprojections [Group G] (en : Finish.Env V G Pt K Str Img) (sc : Output.Scene V G Pt) (gp : Nat → V)
    (frames : OMap Nat (FrameRec Str)) : Stays (Made en.save) (ImagePlace en.save)
      (allReprojectionImages en sc gp frames : Act (Disk (Content V G Pt K Img KP)) Unit) := by
  unfold allReprojectionImages
  split
  · refine Stays.forEach fun c _ => Stays.bind (folders_made (by decide) c) fun _ => Stays.forEach fun e _ => Stays.frame ?_
    intro ws hws w hw
    rw [reprojection_files hws w hw, loc_image _ (by decide)]
    exact ⟨_, by decide, c, e.1, rfl⟩
  · exact Stays.compute _

theorem Within.mono {P' F' : Loc → Prop} {d d' : Disk C} (h : Within P F d d') (hP : ∀ x, P x → P' x) (hF : ∀ x, F x → F' x) :
    Within P' F' d d' :=
  ⟨h.sound, h.dirs, fun x hx => (h.newDirs x hx).imp_right (hP x), fun x hx => h.others x fun hf => hx (hF x hf)⟩

theorem Stays.mono {P' F' : Loc → Prop} {a : Act (Disk C) α} (h : Stays P F a) (hP : ∀ x, P x → P' x) (hF : ∀ x, F x → F' x) :
    Stays P' F' a := fun d hs => Within.mono (h d hs) hP hF

end Verif.Lemmas.Order
