import Verif.Lemmas.ReportSame
import Verif.Lemmas.Reload
import Verif.Spec.Whole
import Verif.Model.Whole

/-! Two runs on the same detections, stored in different orders. -/
set_option linter.unusedSectionVars false
namespace Verif.Lemmas.WholeSame
open Verif Verif.Objects Verif.Pipeline Verif.Ransac Verif.Whole Verif.Program Verif.Store Verif.Spec.Store Verif.Keypoints
open Verif.Spec.Schedule Verif.Spec.Whole Verif.Lemmas.Schedule Verif.Lemmas.ProgramSame Verif.Lemmas.ReportSame

variable {V G Pt P K K' Q Img Path : Type}

section
variable {σ α β : Type}

theorem bind_assoc' {α β γ : Type} (x : Outcome α) (f : α → Outcome β) (g : β → Outcome γ) :
    ((x >>= f) >>= g) = x >>= fun a => f a >>= g := by cases x <;> rfl

theorem foldlM_ok_of {f : σ → α → Outcome σ} {v : α → Outcome β} {g : σ → α → β → σ}
    (hf : ∀ s x, f s x = v x >>= fun y => .ok (g s x y)) :
    ∀ {l : List α}, (∀ x ∈ l, ∃ y, v x = .ok y) → ∀ s, ∃ r, Outcome.foldlM f s l = .ok r
  | [], _, s => ⟨s, rfl⟩
  | x :: l, h, s => by
    obtain ⟨y, hy⟩ := h x (by simp)
    rw [Outcome.foldlM_cons, hf, hy]
    exact foldlM_ok_of hf (fun z hz => h z (by simp [hz])) _

theorem ok_of_foldlM {f : σ → α → Outcome σ} {v : α → Outcome β} {g : σ → α → β → σ}
    (hf : ∀ s x, f s x = v x >>= fun y => .ok (g s x y)) :
    ∀ {l : List α} {s r : σ}, Outcome.foldlM f s l = .ok r → ∀ x ∈ l, ∃ y, v x = .ok y
  | z :: l, s, r, h, x, hx => by
    rw [Outcome.foldlM_cons, hf] at h
    obtain ⟨s', h1, h2⟩ := Outcome.bind_eq_ok.1 h
    obtain ⟨y, h3, -⟩ := Outcome.bind_eq_ok.1 h1
    rcases List.mem_cons.1 hx with rfl | hx
    · exact ⟨y, h3⟩
    · exact ok_of_foldlM hf h2 x hx

end

/-- The estimation of one board. -/
def one (search : Search Pt P G) (garbage : G) (bpts : List (List Pt)) (bo : BoardObs P) : Outcome (Estimated P G) := do
  let model3d ← Outcome.idx bpts bo.board
  let v ← estimateBoard (search 0 bo.cam) model3d ⟨bo.pts, bo.ids, true, garbage⟩
  pure ⟨{ bo with pts := v.pts, ids := v.ids }, v.valid, v.pose⟩

theorem boardStep_eq {search : Search Pt P G} (hd : DataOnly search) (garbage : G) (bpts : List (List Pt))
    (acc : List (Estimated P G)) (bo : BoardObs P) :
    boardStep search garbage bpts acc bo = one search garbage bpts bo >>= fun y => .ok (acc ++ [y]) := by
  unfold boardStep one
  have : search acc.length bo.cam = search 0 bo.cam := by
    funext x y
    exact hd _ _ _ _ _
  rw [this]
  simp only [bind_assoc']
  rfl

theorem one_obs {search : Search Pt P G} {garbage : G} {bpts : List (List Pt)} {bo : BoardObs P} {y : Estimated P G}
    (h : one search garbage bpts bo = .ok y) : y.obs.cam = bo.cam ∧ y.obs.frame = bo.frame ∧ y.obs.board = bo.board := by
  unfold one at h
  obtain ⟨m, -, h⟩ := Outcome.bind_eq_ok.1 h
  obtain ⟨v, -, h⟩ := Outcome.bind_eq_ok.1 h
  cases h
  exact ⟨rfl, rfl, rfl⟩

theorem estimate_map {search : Search Pt P G} (hd : DataOnly search) {garbage : G} {bpts : List (List Pt)}
    {obs : List (BoardObs P)} {est : List (Estimated P G)} (h : estimateAllBoards search garbage bpts obs = .ok est) :
    ∃ E : BoardObs P → Estimated P G, (∀ o ∈ obs, one search garbage bpts o = .ok (E o)) ∧ est = obs.map E := by
  obtain ⟨ys, e1, e2⟩ := Lemmas.Collect.foldlM_append_inv (boardStep_eq hd garbage bpts) h
  rw [List.nil_append] at e1
  subst e1
  refine ⟨fun o => match one search garbage bpts o with | .ok y => y | _ => ⟨o, false, garbage⟩, ?_, ?_⟩
  · intro o ho
    obtain ⟨i, hi, rfl⟩ := List.getElem_of_mem ho
    have := e2.get hi (by rw [← e2.length_eq]; exact hi)
    simp only [List.get_eq_getElem] at this
    simp only [this]
  · clear h
    induction e2 with
    | nil => rfl
    | cons h1 h2 ih =>
      rw [List.map_cons, ← ih]
      congr 1
      simp only [h1]

/-- The first step on the same observations in another order. -/
theorem initIntrinsic_same [Field K'] [LinearOrder K'] {search : Search Pt P G} (hd : DataOnly search) {garbage : G}
    {bpts : List (List Pt)} {obs₁ obs₂ : List (BoardObs P)} (hp : obs₁.Perm obs₂)
    {refine : Option (List (Estimated P G) → Outcome (List (Estimated P G) × ReproErr.Projection P G Pt K'))}
    (hr : ∀ f ∈ refine, OrderFree f) {pr : ReproErr.Projection P G Pt K'} {x : List (Estimated P G) × List (ReproErr.Warning K')}
    (h : ReproErr.initIntrinsic search garbage bpts obs₁ refine pr = .ok x) :
    ∃ X : BoardObs P → Estimated P G, (∀ o ∈ obs₁, (X o).obs.cam = o.cam ∧ (X o).obs.frame = o.frame ∧ (X o).obs.board = o.board) ∧
      x.1 = obs₁.map X ∧ ∃ w, ReproErr.initIntrinsic search garbage bpts obs₂ refine pr = .ok (obs₂.map X, w) := by
  unfold ReproErr.initIntrinsic at h
  obtain ⟨est, h1, h⟩ := Outcome.bind_eq_ok.1 h
  obtain ⟨y, h2, h⟩ := Outcome.bind_eq_ok.1 h
  obtain ⟨w, h3, h⟩ := Outcome.bind_eq_ok.1 h
  cases h
  obtain ⟨E, e1, rfl⟩ := estimate_map hd h1
  have h1' : estimateAllBoards search garbage bpts obs₂ = .ok (obs₂.map E) := by
    unfold estimateAllBoards
    rw [Lemmas.Collect.foldlM_append_ok (v := E)]
    · rfl
    · intro acc o ho
      rw [boardStep_eq hd, e1 o (hp.mem_iff.2 ho)]
      rfl
  obtain ⟨f, f1, f2, f3⟩ : ∃ f : Estimated P G → Estimated P G, (∀ e, (f e).obs = e.obs) ∧ y.1 = (obs₁.map E).map f ∧
      ReproErr.refineStep refine (obs₂.map E) pr = .ok ((obs₂.map E).map f, y.2) := by
    unfold ReproErr.refineStep at h2 ⊢
    cases refine with
    | none =>
      cases h2
      exact ⟨id, fun _ => rfl, by simp, by simp⟩
    | some g =>
      obtain ⟨f, f1, f2, f3⟩ := hr g rfl _ _ h2
      exact ⟨f, f1, f2, f3 _ (hp.symm.map E)⟩
  have hstep : ∀ (acc : List (ReproErr.Warning K')) (e : Estimated P G), ReproErr.boardErrorStep y.2 bpts acc e =
      (Outcome.idx bpts e.obs.board >>= fun m => ReproErr.obsError y.2 m e.obs.cam e.pose e.obs.ids e.obs.pts) >>= fun r =>
        .ok (if 0 < r.1 ∧ 10 < r.2 / (r.1 : K') then acc ++ [⟨e.obs.frame, e.obs.board, r.2 / (r.1 : K'), r.1⟩] else acc) := by
    intro acc e
    unfold ReproErr.boardErrorStep
    rw [bind_assoc']
    rfl
  unfold ReproErr.computeReproErrAllBoard at h3
  rw [f2] at h3
  have hok := ok_of_foldlM hstep h3
  obtain ⟨w', hw'⟩ := foldlM_ok_of hstep (l := (obs₂.map E).map f) (fun e he => hok e (by
    rw [List.mem_map] at he ⊢
    obtain ⟨e', he', rfl⟩ := he
    rw [List.mem_map] at he'
    obtain ⟨o, ho, rfl⟩ := he'
    exact ⟨_, List.mem_map_of_mem (hp.mem_iff.2 ho), rfl⟩)) []
  refine ⟨f ∘ E, fun o ho => ?_, ?_, w', ?_⟩
  · have := one_obs (e1 o ho)
    simp only [Function.comp_apply, f1]
    exact this
  · rw [f2, List.map_map]
  · unfold ReproErr.initIntrinsic
    rw [h1', Outcome.bind_ok, f3, Outcome.bind_ok]
    unfold ReproErr.computeReproErrAllBoard
    simp only
    rw [hw', Outcome.bind_ok, List.map_map]
    rfl

section
variable {nCam nBoard : Nat} {l₁ l₂ : List (Insertion P Path)} {s₁ s₂ : Store P Path}

/-- The same detections in every frame, and images with the same paths. -/
structure Alike (l₁ l₂ : List (Insertion P Path)) : Prop where
  frames : SameFrames l₁ l₂
  paths : ∀ c f, lastPath l₁ c f = lastPath l₂ c f

theorem Alike.symm (h : Alike l₁ l₂) : Alike l₂ l₁ := ⟨fun f => (h.frames f).symm, fun c f => (h.paths c f).symm⟩

/-- The insertions with other contents. -/
def redo (out : BoardObs P → BoardObs P) (l : List (Insertion P Path)) : List (Insertion P Path) :=
  l.map fun a => { a with obs := out a.obs }

theorem redo_obs (out : BoardObs P → BoardObs P) (l : List (Insertion P Path)) :
    (redo out l).map (·.obs) = l.map (out ·.obs) := by
  unfold redo
  rw [List.map_map]
  rfl

def Keeps (out : BoardObs P → BoardObs P) (l : List (Insertion P Path)) : Prop :=
  ∀ a ∈ l, (out a.obs).cam = a.obs.cam ∧ (out a.obs).frame = a.obs.frame ∧ (out a.obs).board = a.obs.board

theorem redo_keys {out : BoardObs P → BoardObs P} {l : List (Insertion P Path)} (h : Keeps out l) :
    l.map Lemmas.Reload.keyOf = (redo out l).map Lemmas.Reload.keyOf := by
  unfold redo
  rw [List.map_map]
  refine List.map_congr_left fun a ha => ?_
  obtain ⟨h1, h2, h3⟩ := h a ha
  simp only [Lemmas.Reload.keyOf, Function.comp_apply, h1, h2, h3]

theorem filter_redo {out : BoardObs P → BoardObs P} {l : List (Insertion P Path)}
    (p : Insertion P Path → Bool) (h : ∀ a ∈ l, p { a with obs := out a.obs } = p a) :
    (redo out l).filter p = redo out (l.filter p) := by
  unfold redo
  rw [List.filter_map]
  congr 1
  exact List.filter_congr h

theorem Alike.redo {out : BoardObs P → BoardObs P} (h : Alike l₁ l₂) (h₁ : Keeps out l₁) (h₂ : Keeps out l₂) :
    Alike (redo out l₁) (redo out l₂) := by
  constructor
  · intro f
    have : ∀ {l : List (Insertion P Path)}, Keeps out l → ((WholeSame.redo out l).filter (byFrame f)).map (·.obs) =
        ((l.filter (byFrame f)).map (·.obs)).map out := by
      intro l hl
      rw [filter_redo _ fun a ha => by unfold byFrame; rw [(hl a ha).2.1], redo_obs, List.map_map]
      rfl
    rw [this h₁, this h₂, h.frames f]
  · intro c f
    have : ∀ {l : List (Insertion P Path)}, Keeps out l → lastPath (WholeSame.redo out l) c f = lastPath l c f := by
      intro l hl
      unfold lastPath
      rw [filter_redo _ fun a ha => by unfold byCamFrame; rw [(hl a ha).1, (hl a ha).2.1]]
      unfold WholeSame.redo
      rw [List.getLast?_map, Option.map_map]
      rfl
    rw [this h₁, this h₂, h.paths c f]

theorem Alike.sameSave (h : Alike l₁ l₂) : SameSave l₁ l₂ := by
  refine ⟨fun c f b => ?_, h.paths⟩
  have : ∀ l : List (Insertion P Path), (l.filter (byAll c f b)).map (·.obs) =
      ((l.filter (byFrame f)).map (·.obs)).filter fun o => o.cam == c && o.board == b := by
    intro l
    rw [List.filter_map, List.filter_filter]
    congr 1
    refine List.filter_congr fun a _ => ?_
    unfold byAll byFrame
    simp only [Function.comp_apply]
    cases a.obs.cam == c <;> cases a.obs.frame == f <;> cases a.obs.board == b <;> rfl
  rw [this, this, h.frames f]

theorem Alike.perm [Inhabited Path] (h : Alike l₁ l₂) : (l₁.map (·.obs)).Perm (l₂.map (·.obs)) := h.sameSave.perm

theorem frames_key (d : Describes nCam nBoard l₁ s₁) :
    s₁.frames.map ReportSame.key = (OMap.keys s₁.frames).map fun f => (f, fun c => lastPath l₁ c f) := by
  unfold OMap.keys
  rw [List.map_map]
  refine List.map_congr_left ?_
  rintro ⟨f, r⟩ he
  have hg := (OMap.get?_eq_some d.frames_sorted).2 he
  unfold ReportSame.key
  simp only [Function.comp_apply]
  congr 1
  funext c
  exact (d.frame_paths f r hg).2 c

theorem frames_same (d₁ : Describes nCam nBoard l₁ s₁) (d₂ : Describes nCam nBoard l₂ s₂) (h : Alike l₁ l₂) :
    s₁.frames.map ReportSame.key = s₂.frames.map ReportSame.key := by
  rw [frames_key d₁, frames_key d₂, keys_frames d₁ d₂ h.frames]
  refine List.map_congr_left fun f _ => ?_
  congr 1
  funext c
  exact h.paths c f

end

/-- The rest of a run is the same for detections that are alike. -/
theorem conclude_same [Zero K] [One K] [Group G] [SMul G Pt] [Field K'] [LinearOrder K'] (u : Setup V G Pt K K' Q Img)
    (hd : DataOnly u.search) (hr : ∀ f ∈ u.refine, OrderFree f) {nCam nBoard : Nat}
    {l₁ l₂ : List (Insertion (ℝ × ℝ) Folders.Str)} {s₁ s₂ : Store (ℝ × ℝ) Folders.Str} (d₁ : Describes nCam nBoard l₁ s₁)
    (d₂ : Describes nCam nBoard l₂ s₂) (h : Alike l₁ l₂) (sz : List (Option (Nat × Nat))) (d : Files V G Pt K Img)
    {d' : Files V G Pt K Img} (h1 : conclude u d ⟨s₁, sz⟩ = .ok d') : conclude u d ⟨s₂, sz⟩ = .ok d' := by
  unfold conclude at h1
  obtain ⟨x, a1, h1⟩ := Outcome.bind_eq_ok.1 h1
  obtain ⟨r, a2, h1⟩ := Outcome.bind_eq_ok.1 h1
  obtain ⟨rep, a3, h1⟩ := Outcome.bind_eq_ok.1 h1
  obtain ⟨kp, a4, h1⟩ := Outcome.bind_eq_ok.1 h1
  simp only at a1 a2 a3 a4
  have hp : s₁.obs.Perm s₂.obs := by
    rw [d₁.obs, d₂.obs]
    exact h.perm
  obtain ⟨X, b1, b2, w, b3⟩ := initIntrinsic_same hd hp hr a1
  have k₁ : Keeps (fun o => (X o).obs) l₁ := fun a ha => b1 a.obs (by rw [d₁.obs]; exact List.mem_map_of_mem ha)
  have k₂ : Keeps (fun o => (X o).obs) l₂ := fun a ha => b1 a.obs (by
    rw [hp.mem_iff, d₂.obs]; exact List.mem_map_of_mem ha)
  have o₁ : x.1.map (·.obs) = l₁.map fun a => (X a.obs).obs := by
    rw [b2, d₁.obs, List.map_map, List.map_map]
    rfl
  have o₂ : (s₂.obs.map X).map (·.obs) = l₂.map fun a => (X a.obs).obs := by
    rw [d₂.obs, List.map_map, List.map_map]
    rfl
  have hpose : ∀ {l : List (Insertion (ℝ × ℝ) Folders.Str)} {s : Store (ℝ × ℝ) Folders.Str}, Describes nCam nBoard l s →
      ∀ i a, l[i]? = some a → poseAt ((s.obs.map X).map (·.pose)) i = (X a.obs).pose := by
    intro l s D i a hi
    unfold poseAt
    rw [D.obs, List.map_map, List.map_map, List.getElem?_map, hi]
    rfl
  have key := run_same d₁ d₂ h.frames u.e u.n u.bpts (poseAt (x.1.map (·.pose))) (poseAt ((s₂.obs.map X).map (·.pose)))
    (fun o => (X o).pose) (fun o => (X o).obs) u.fix (by rw [b2]; exact hpose d₁) (hpose d₂)
  rw [← o₁, a2, ← o₂] at key
  obtain ⟨r', c1, c2⟩ : ∃ r', Program.run u.e { u.n with boardPose := poseAt ((s₂.obs.map X).map (·.pose)) } u.fix u.bpts s₂
      ((s₂.obs.map X).map (·.obs)) = .ok r' ∧ shownPoses r = shownPoses r' := by
    generalize Program.run u.e _ u.fix u.bpts s₂ _ = y at key
    cases y with
    | ok r' => exact ⟨r', rfl, Outcome.ok.inj key⟩
    | _ => cases key
  have e₁ := Lemmas.Reload.describes_congr (redo_keys k₁) d₁
  have e₂ := Lemmas.Reload.describes_congr (redo_keys k₂) d₂
  rw [redo_obs, ← o₁] at e₁
  rw [redo_obs, ← o₂] at e₂
  have c4 := save_congr e₁ e₂ (h.redo k₁ k₂).sameSave sz
  rw [a4] at c4
  have c3 := report_same (withSizes u.en sz) (frames_same d₁ d₂ h) u.bpts c2
  rw [a3] at c3
  unfold conclude
  simp only
  rw [b3, Outcome.bind_ok]
  simp only
  rw [c1, Outcome.bind_ok, ← c3, Outcome.bind_ok, ← c4, Outcome.bind_ok]
  exact h1

end Verif.Lemmas.WholeSame
