import Verif.Lemmas.Reload
import Verif.Props.Detection
import Verif.Props.Pipeline
import Verif.Props.Outliers

/-!
Property theorems C60 (the calibration does not depend on the schedule of the detection) and C61
(calibrating again from the saved keypoint file).
-/
set_option linter.unusedSectionVars false
namespace Verif.Props.Schedule
open Verif Verif.Store Verif.Spec.Store Verif.Detection Verif.Keypoints Verif.Pipeline
open Verif.Spec.Schedule Verif.Props.Detection
open Verif.Lemmas.Schedule (workflow_same)

variable {K V G Pt P Path : Type} [Field K] [LinearOrder K] [Inhabited Path] [Group G] [SMul G Pt]

/-- Two stores whose frames hold the same detections in the same order are calibrated alike. -/
theorem C60_same_frames (nCam nBoard : Nat) {l₁ l₂ : List (Insertion P Path)} {s₁ s₂ : Store P Path}
    (d₁ : Describes nCam nBoard l₁ s₁) (d₂ : Describes nCam nBoard l₂ s₂) (h : SameFrames l₁ l₂)
    (n : Numerics V G) (q : BoardObs P → G) (out : BoardObs P → BoardObs P) (bpts : List (List Pt)) :
    calibration n q out bpts s₁ = calibration n q out bpts s₂ := by
  have hp : ∀ {l : List (Insertion P Path)} {s : Store P Path}, Describes nCam nBoard l s →
      ∀ i a, l[i]? = some a → posesOf s q i = q a.obs := by
    intro l s d i a hi
    unfold posesOf
    rw [d.obs, List.getElem?_map, hi]
    rfl
  have hobs : ∀ {l : List (Insertion P Path)} {s : Store P Path}, Describes nCam nBoard l s →
      s.obs.map out = l.map (out ·.obs) := by
    intro l s d
    rw [d.obs, List.map_map]
    rfl
  unfold calibration
  rw [Lemmas.Schedule.result_eq, Lemmas.Schedule.result_eq, hobs d₁, hobs d₂]
  exact workflow_same d₁ d₂ h n bpts _ _ q out (hp d₁) (hp d₂)

/-- C60: the detection tasks run in any two schedules; from then on the whole calibration gives the
same objects, object observations, camera groups, poses and group observations, or fails in the same
way, if poses, outlier removal and the other numerical results are functions of the data. -/
theorem C60_schedule_independent (fitLine : List (K × K) → K × K × K × K) (cfg : Cfg)
    (geoms : List (Geom K)) (nCam : Nat) (nFrames : Nat → Nat) (path : Nat → Nat → Path)
    (raw : Nat → Nat → Option (Nat → Raw P)) (det : Nat → Nat → List (Insertion P Path))
    (hdet : ∀ c f, c < nCam → f < nFrames c →
      detectImage fitLine cfg geoms c f (path c f) (raw c f) = .ok (det c f))
    (l₁ l₂ : List (Insertion P Path)) (h₁ : Schedule (tasks nCam nFrames det) l₁)
    (h₂ : Schedule (tasks nCam nFrames det) l₂)
    (n : Numerics V G) (q : BoardObs P → G) (out : BoardObs P → BoardObs P) (bpts : List (List Pt)) :
    ∃ s₁ s₂, run nCam geoms.length l₁ = .ok s₁ ∧ run nCam geoms.length l₂ = .ok s₂ ∧
      calibration n q out bpts s₁ = calibration n q out bpts s₂ := by
  obtain ⟨s₁, s₂, r₁, r₂, -, hf, -⟩ := C07_schedule_independent fitLine cfg geoms nCam nFrames path raw
    det hdet l₁ l₂ h₁ h₂ []
  have d₁ := (Lemmas.Schedule.describes_of_run r₁).1
  have d₂ := (Lemmas.Schedule.describes_of_run r₂).1
  refine ⟨s₁, s₂, r₁, r₂, C60_same_frames nCam geoms.length d₁ d₂ ?_ n q out bpts⟩
  intro f
  have := hf f
  rw [d₁.obs, d₂.obs, List.filter_map, List.filter_map] at this
  exact this

/-! ### C61 -/

/-- C61: in whatever schedule the detections were made, within every frame they are stored by camera,
then by board. -/
theorem C61_detected_sorted (fitLine : List (K × K) → K × K × K × K) (cfg : Cfg)
    (geoms : List (Geom K)) (nCam : Nat) (nFrames : Nat → Nat) (path : Nat → Nat → Path)
    (raw : Nat → Nat → Option (Nat → Raw P)) (det : Nat → Nat → List (Insertion P Path))
    (hdet : ∀ c f, c < nCam → f < nFrames c →
      detectImage fitLine cfg geoms c f (path c f) (raw c f) = .ok (det c f))
    (l : List (Insertion P Path)) (h : Schedule (tasks nCam nFrames det) l) : FrameSorted l := by
  intro f
  rw [Lemmas.Reload.schedule_frame fitLine cfg geoms nCam nFrames path raw det hdet l h f]
  have hpw : ∀ m, m ≤ nCam → ((List.range m).flatMap fun c => if f < nFrames c then det c f else []).Pairwise
      fun a b => a.obs.cam < b.obs.cam ∨ a.obs.cam = b.obs.cam ∧ a.obs.board ≤ b.obs.board := by
    intro m hm
    induction m with
    | zero => exact List.Pairwise.nil
    | succ m ih =>
      rw [List.range_succ, List.flatMap_append, List.pairwise_append]
      refine ⟨ih (by omega), ?_, ?_⟩
      · simp only [List.flatMap_cons, List.flatMap_nil, List.append_nil]
        split
        case isTrue hf =>
          refine (Lemmas.Reload.detectImage_sorted (hdet m f (by omega) hf)).imp_of_mem ?_
          intro a b ha hb hab
          have h1 := (detectImage_mem (hdet m f (by omega) hf) a ha).1
          have h2 := (detectImage_mem (hdet m f (by omega) hf) b hb).1
          omega
        case isFalse => exact List.Pairwise.nil
      · intro a ha b hb
        simp only [List.flatMap_cons, List.flatMap_nil, List.append_nil] at hb
        obtain ⟨c, hc, ha⟩ := List.mem_flatMap.1 ha
        have hc := List.mem_range.1 hc
        split at ha
        case isTrue hf =>
          split at hb
          case isTrue hf' =>
            have h1 := (detectImage_mem (hdet c f (by omega) hf) a ha).1
            have h2 := (detectImage_mem (hdet m f (by omega) hf') b hb).1
            omega
          case isFalse => cases hb
        case isFalse => cases ha
  exact hpw nCam (Nat.le_refl _)

/-- C61: at the end of a run the keypoint file is written from the observations without outliers
(`obs'`).  It can be loaded; the loaded observations are those of `obs'`, and a second calibration
started from this file proceeds exactly as one on those filtered observations: same objects, groups,
observations, or the same failure. -/
theorem C61_rerun (asserts : Bool) (nCam nBoard : Nat) (l : List (Insertion P Path))
    (hl : FrameSorted l) (s : Store P Path) (hs : run nCam nBoard l = .ok s)
    (obs' : List (BoardObs P)) (hobs : Spec.Objects.SameViews s.obs obs')
    (sz : List (Nat × Nat)) (hsz : sz.length = nCam)
    (hne : asserts = true → ∀ c < nCam, ∃ o ∈ s.obs, o.cam = c) :
    ∃ file s', save ⟨{ s with obs := obs' }, sz.map some⟩ = .ok file ∧
      load asserts nCam nBoard file = .ok ⟨s', sz.map some⟩ ∧
      s'.obs.Perm obs' ∧
      ∀ (n : Numerics V G) (q : BoardObs P → G) (out : BoardObs P → BoardObs P) (bpts : List (List Pt)),
        calibration n q out bpts s' = calibration n q out bpts { s with obs := obs' } := by
  obtain ⟨d, hmem⟩ := Lemmas.Schedule.describes_of_run hs
  have hkeys := hobs.keys
  rw [d.obs, List.map_map] at hkeys
  obtain ⟨l', hk, rfl⟩ := Lemmas.Reload.replaced hkeys
  have d' := Lemmas.Reload.describes_congr hk d
  have hmem' : ∀ a ∈ l', a.obs.cam < nCam ∧ a.obs.board < nBoard := by
    intro a ha
    obtain ⟨b, hb, e⟩ := Lemmas.Reload.mem_keys hk.symm ha
    simp only [Lemmas.Reload.keyOf, Prod.mk.injEq] at e
    have := hmem b hb
    rw [← e.1.1, ← e.1.2.2]
    exact this
  have hne1 : asserts = true → ∀ c < nCam, ∃ o ∈ ({ s with obs := l'.map (·.obs) } : Store P Path).obs,
      o.cam = c := by
    intro ha c hc
    obtain ⟨o, ho, hoc⟩ := hne ha c hc
    rw [d.obs] at ho
    obtain ⟨b, hb, rfl⟩ := List.mem_map.1 ho
    obtain ⟨b', hb', e⟩ := Lemmas.Reload.mem_keys hk hb
    simp only [Lemmas.Reload.keyOf, Prod.mk.injEq] at e
    exact ⟨b'.obs, List.mem_map.2 ⟨b', hb', rfl⟩, by rw [e.1.1, hoc]⟩
  obtain ⟨file, s', h1, h2, h3⟩ := Lemmas.Reload.reload_run asserts nCam nBoard d' sz hsz hne1 hmem'
  have d2 := (Lemmas.Schedule.describes_of_run h3).1
  refine ⟨file, s', h1, h2, ?_, ?_⟩
  · have hS := sameSave_rows hmem' d'
    rw [d2.obs]
    exact hS.perm.symm
  · intro n q out bpts
    exact C60_same_frames nCam nBoard d2 d'
      (Lemmas.Reload.reload_sameFrames d' hmem' (Lemmas.Reload.sorted_congr hk hl)) n q out bpts

section
open Verif.Ransac Verif.Props.Outliers
variable {P3 Pose : Type}

/-- An observation the pose estimation can read. -/
def Legible (bpts : List (List P3)) (bo : BoardObs P) : Prop :=
  bo.pts.length = bo.ids.length ∧ ∃ m, bpts[bo.board]? = some m ∧ ∀ i ∈ bo.ids, i < m.length

/-- C61: the board poses of a list of observations can be estimated iff each has at least four points;
otherwise the estimation reads out of range. -/
theorem C61_boards (search : Search P3 P Pose) (hS : Sound search) (hF : Fails search) (garbage : Pose)
    (bpts : List (List P3)) (obs : List (BoardObs P)) (hobs : ∀ bo ∈ obs, Legible bpts bo) :
    ((∀ bo ∈ obs, 4 ≤ bo.pts.length) → ∃ r, estimateAllBoards search garbage bpts obs = .ok r) ∧
    ((∃ bo ∈ obs, bo.pts.length < 4) → estimateAllBoards search garbage bpts obs = .ub) := by
  constructor
  · intro h4
    obtain ⟨r, hr, -⟩ := C30_all search hS garbage bpts obs fun bo hbo =>
      ⟨(hobs bo hbo).1, h4 bo hbo, (hobs bo hbo).2⟩
    exact ⟨r, hr⟩
  · rintro ⟨bo, hbo, hlt⟩
    obtain ⟨pre, bo, post, rfl, hpre, hlt⟩ : ∃ pre b post, obs = pre ++ b :: post ∧
        (∀ x ∈ pre, 4 ≤ x.pts.length) ∧ b.pts.length < 4 := by
      induction obs with
      | nil => cases hbo
      | cons x xs ih =>
        by_cases hx : x.pts.length < 4
        · exact ⟨[], x, xs, rfl, by simp, hx⟩
        · have hm : bo ∈ xs := by
            rcases List.mem_cons.1 hbo with rfl | h
            · exact absurd hlt hx
            · exact h
          obtain ⟨pre, b, post, e, h1, h2⟩ := ih (fun b hb => hobs b (List.mem_cons_of_mem _ hb)) hm
          refine ⟨x :: pre, b, post, by rw [e]; rfl, ?_, h2⟩
          intro y hy
          rcases List.mem_cons.1 hy with rfl | hy
          · omega
          · exact h1 y hy
    obtain ⟨r, hr, -⟩ := C30_all search hS garbage bpts pre fun bo hbo =>
      ⟨(hobs bo (by simp [hbo])).1, hpre bo hbo, (hobs bo (by simp [hbo])).2⟩
    obtain ⟨-, m, hm, hid⟩ := hobs bo (by simp)
    unfold estimateAllBoards at hr ⊢
    rw [Outcome.foldlM_append, hr, Outcome.bind_ok, Outcome.foldlM_cons]
    have : boardStep search garbage bpts r bo = .ub := by
      unfold boardStep estimateBoard
      rw [Outcome.idx_of_getElem? hm, Outcome.bind_ok]
      have hsc : scenePoints m bo.ids = .ok (select m bo.ids) := by
        unfold scenePoints
        rw [scenePoints_ok m bo.ids [] hid, List.nil_append]
      rw [hsc, Outcome.bind_ok, hF _ _ _ _ hlt]
      rfl
    rw [this]
    rfl

/-- C61: a run whose keypoint file is used by a second run.  The first run estimates the board poses
(`est`); its file then holds what is left of the observations.  The second run fails in the estimation of
the board poses (reads out of range) iff the first one marked some board observation invalid. -/
theorem C61_second_run (asserts : Bool) (nCam nBoard : Nat) (l : List (Insertion P Path))
    (hl : FrameSorted l) (s : Store P Path) (hs : run nCam nBoard l = .ok s)
    (bpts : List (List P3)) (hobs : ∀ bo ∈ s.obs, Legible bpts bo ∧ 4 ≤ bo.pts.length)
    (search search' : Search P3 P Pose) (hS : Sound search) (hS' : Sound search') (hF' : Fails search')
    (garbage garbage' : Pose) (est : List (Estimated P Pose))
    (hest : estimateAllBoards search garbage bpts s.obs = .ok est)
    (sz : List (Nat × Nat)) (hsz : sz.length = nCam)
    (hne : asserts = true → ∀ c < nCam, ∃ o ∈ s.obs, o.cam = c) :
    ∃ file s', save ⟨{ s with obs := est.map (·.obs) }, sz.map some⟩ = .ok file ∧
      load asserts nCam nBoard file = .ok ⟨s', sz.map some⟩ ∧
      ((∃ e ∈ est, e.valid = false) → estimateAllBoards search' garbage' bpts s'.obs = .ub) ∧
      ((∀ e ∈ est, e.valid = true) → ∃ r, estimateAllBoards search' garbage' bpts s'.obs = .ok r) := by
  obtain ⟨r, hr, hfil⟩ := C30_all search hS garbage bpts s.obs fun bo hbo =>
    ⟨(hobs bo hbo).1.1, (hobs bo hbo).2, (hobs bo hbo).1.2⟩
  rw [hest] at hr
  cases hr
  obtain ⟨file, s', h1, h2, h3, -⟩ := C61_rerun (V := Unit) (G := Equiv.Perm Unit) (Pt := Unit) asserts nCam nBoard
    l hl s hs _ (C30_same_views _ _ hfil) sz hsz hne
  have hleg : ∀ e ∈ est, Legible bpts e.obs ∧ (e.valid = true ↔ 4 ≤ e.obs.pts.length) := by
    intro e he
    obtain ⟨i, hi, rfl⟩ := List.getElem_of_mem he
    have hi' : i < s.obs.length := by rw [hfil.length_eq]; exact hi
    have hf := hfil.get hi' hi
    simp only [List.get_eq_getElem] at hf
    have hb := hobs _ (List.getElem_mem hi')
    refine ⟨⟨hf.aligned, ?_⟩, hf.valid⟩
    obtain ⟨⟨h5, m, h6, h7⟩, -⟩ := hb
    refine ⟨m, by rw [hf.same.2.2]; exact h6, ?_⟩
    intro k hk
    obtain ⟨j, hj, rfl⟩ := List.getElem_of_mem hk
    have hz : (est[i].obs.pts[j]'(by rw [hf.aligned]; exact hj), est[i].obs.ids[j]) ∈
        est[i].obs.pts.zip est[i].obs.ids := by
      rw [List.mem_iff_getElem]
      exact ⟨j, by simp [hf.aligned, hj], by simp⟩
    exact h7 _ (List.of_mem_zip (hf.sub.subset hz)).2
  have hleg' : ∀ bo ∈ s'.obs, Legible bpts bo := by
    intro bo hbo
    obtain ⟨e, he, rfl⟩ := List.mem_map.1 (h3.mem_iff.1 hbo)
    exact (hleg e he).1
  obtain ⟨ha, hb⟩ := C61_boards search' hS' hF' garbage' bpts s'.obs hleg'
  refine ⟨file, s', h1, h2, ?_, ?_⟩
  · rintro ⟨e, he, hv⟩
    refine hb ⟨e.obs, h3.mem_iff.2 (List.mem_map.2 ⟨e, he, rfl⟩), ?_⟩
    have := (hleg e he).2
    rw [hv] at this
    simpa using this
  · intro hv
    apply ha
    intro bo hbo
    obtain ⟨e, he, rfl⟩ := List.mem_map.1 (h3.mem_iff.1 hbo)
    exact (hleg e he).2.1 (hv e he)

/-- C61, concretely (data of `Props/Outliers`): a run in which one view kept three of its five points
succeeds up to the saving of the keypoints, and the run from this file fails. -/
theorem C61_three_left :
    (match run 1 1 [Outliers.seen 0 [0, 1, 2, 3, 4], Outliers.seen 1 [0, 1, 2, 55, 66]] with
      | .ok s => (match estimateAllBoards Outliers.search 1 [[0, 1, 2, 3, 4]] s.obs with
        | .ok est => (match save ⟨{ s with obs := est.map (·.obs) }, [some (640, 480)]⟩ with
          | .ok file => (match load true 1 1 file with
            | .ok k => (match estimateAllBoards Outliers.search 1 [[0, 1, 2, 3, 4]] k.store.obs with
              | .ub => true
              | _ => false)
            | _ => false)
          | _ => false)
        | _ => false)
      | _ => false) = true := by
  decide +kernel

end

/-! Non-vacuity.  The schedule `demoSched` (images alternating) of `Props/Detection`, whose detections
and schedule property are shown there, differs from the sequential one; the calibration succeeds on both
and finds one object of two boards and one camera group.  The numbers of the board observations in the
object observations do differ, so they are rightly left out of the comparison. -/

def demoStore (l : List (Insertion Nat String)) : Store Nat String :=
  match run 1 2 l with
  | .ok s => s
  | _ => Store.init 1 2

/-- Keep the first four corners. -/
def demoOut (o : BoardObs Nat) : BoardObs Nat := { o with pts := o.pts.take 4, ids := o.ids.take 4 }

def demoPts : List (List (Fin 3)) := [[0, 1, 2, 0, 1, 2], [0, 1, 2, 0, 1, 2]]

example : run 1 2 demoSched = .ok (demoStore demoSched) ∧
    run 1 2 (demoDet 0 0 ++ demoDet 0 1) = .ok (demoStore (demoDet 0 0 ++ demoDet 0 1)) ∧
    (match calibration Props.Pipeline.num (fun _ => 1) demoOut demoPts (demoStore demoSched) with
      | .ok st => (st.objs.map fun e => OMap.keys e.2.boards, st.t.groups.map fun e => OMap.keys e.2.cameras,
          st.oo.map fun o => (o.frame, o.pts))
      | _ => ([], [], [])) =
      ([[0, 1]], [[0]], [(0, [0, 1, 2, 3, 10, 1, 2, 3]), (1, [100, 1, 2, 3, 110, 1, 2, 3])]) ∧
    (match workflow Props.Pipeline.num demoPts (demoStore demoSched) (demoStore demoSched).obs,
        workflow Props.Pipeline.num demoPts (demoStore (demoDet 0 0 ++ demoDet 0 1))
          (demoStore (demoDet 0 0 ++ demoDet 0 1)).obs with
      | .ok a, .ok b => (a.oo.map (·.boards), b.oo.map (·.boards))
      | _, _ => ([], [])) = ([[1, 2], [0, 3]], [[0, 1], [2, 3]]) := by
  decide +kernel

example : Spec.Objects.SameViews (demoStore demoSched).obs ((demoStore demoSched).obs.map demoOut) :=
  ⟨by decide +kernel, by decide +kernel⟩

example : FrameSorted demoSched := by
  refine C61_detected_sorted (fun _ => ((1 : ℚ), 0, 0, 1 / 2)) ⟨false, 1 / 2⟩ demoGeoms 1 (fun _ => 2)
    (fun _ _ => "img") demoRaw demoDet ?_ demoSched ?_
  · intro c f hc hf
    obtain rfl : c = 0 := by omega
    rcases (by omega : f = 0 ∨ f = 1) with rfl | rfl <;> decide +kernel
  · refine ⟨[demoSched], .cons ?_ .nil, by simp⟩
    refine .step (i := 1) (t := (demoDet 0 1).tail) rfl ?_
    refine .step (i := 0) (t := (demoDet 0 0).tail) rfl ?_
    refine .step (i := 0) (t := []) rfl ?_
    refine .step (i := 1) (t := []) rfl ?_
    exact .nil (by decide)

end Verif.Props.Schedule
