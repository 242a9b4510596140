import Verif.Props.Disk

/-! The images of any report have the names that C82 needs, each once. -/
namespace Verif.Lemmas.ReportShaped
open Verif Verif.Folders Verif.Start Verif.Disk Verif.Spec.Disk Verif.Lemmas.Disk
open Verif.Images (imageFile)

variable {V G Pt K Img Path : Type}

theorem files_sublist {step : List (Images.Written Img) → Nat × FrameRec Path → Outcome (List (Images.Written Img))}
    {save kind : Str} {c : Nat} (hstep : ∀ out e t, step out e = .ok t → ∃ image circles,
      t = Images.write save kind c e.1 image circles out) :
    ∀ {frames : OMap Nat (FrameRec Path)} {out ws : List (Images.Written Img)}, Outcome.foldlM step out frames = .ok ws →
      ∃ new, ws = out ++ new ∧ (new.map (·.file)).Sublist ((OMap.keys frames).map (imageFile save kind c))
  | [], out, ws, h => by
    cases h
    exact ⟨[], by simp, by simp⟩
  | e :: frames, out, ws, h => by
    rw [Outcome.foldlM_cons] at h
    obtain ⟨t, h1, h2⟩ := Outcome.bind_eq_ok.1 h
    obtain ⟨image, circles, rfl⟩ := hstep _ _ _ h1
    obtain ⟨new, rfl, hn⟩ := files_sublist hstep h2
    cases image with
    | none => exact ⟨new, rfl, hn.cons _⟩
    | some im =>
      refine ⟨⟨imageFile save kind c e.1, im, circles⟩ :: new, ?_, ?_⟩
      · simp [Images.write]
      · exact hn.cons_cons _

theorem shaped {step : List (Images.Written Img) → Nat × FrameRec Path → Outcome (List (Images.Written Img))}
    {save kind : Str} {c : Nat} (hk : kind ∈ kinds) (hstep : ∀ out e t, step out e = .ok t → ∃ image circles,
      t = Images.write save kind c e.1 image circles out) {frames : OMap Nat (FrameRec Path)}
    (hf : (OMap.keys frames).Nodup) {ws : List (Images.Written Img)} (h : Outcome.foldlM step [] frames = .ok ws) :
    Shaped save kind c ws := by
  obtain ⟨new, rfl, hn⟩ := files_sublist hstep h
  constructor
  · intro w hw
    obtain ⟨f, _, e⟩ := List.mem_map.1 (hn.subset (List.mem_map_of_mem hw))
    exact ⟨f, e.symm⟩
  · refine hn.nodup (hf.map ?_)
    intro f f' e
    have := congrArg loc e
    rw [loc_image save hk, loc_image save hk] at this
    exact imageName_inj (by simpa [below] using congrArg Loc.names this)

variable [Group G] [SMul G Pt] [Zero K] [One K] {en : Finish.Env V G Pt K Path Img} {bpts : List (List Pt)}
    {frames : OMap Nat (FrameRec Path)} {r : Pipeline.State G Pt (ℝ × ℝ) × OMap (Nat × Nat) (OMap Nat V)}
    {rep : Finish.Reports V G Pt K Img}

theorem collect {n : Nat} {v : Nat → Outcome (List (Images.Written Img))}
    {f : List (List (Images.Written Img)) → Nat → Outcome (List (List (Images.Written Img)))}
    (hf : ∀ acc x, f acc x = v x >>= fun y => .ok (acc ++ [y])) {r : List (List (Images.Written Img))}
    (h : Outcome.foldlM f [] (List.range n) = .ok r) (i : Nat) {ws : List (Images.Written Img)} (hi : r[i]? = some ws) :
    v i = .ok ws := by
  obtain ⟨ys, e1, e2⟩ := Lemmas.Collect.foldlM_append_inv hf h
  rw [List.nil_append] at e1
  subst e1
  obtain ⟨hlt, rfl⟩ := List.getElem?_eq_some_iff.1 hi
  have h1 := e2.get (by rw [List.length_range]; rw [← e2.length_eq, List.length_range] at hlt; exact hlt) hlt
  simpa only [List.get_eq_getElem, List.getElem_range] using h1

/-- The images of a report. -/
theorem report_shaped (hf : (OMap.keys frames).Nodup) (h : Finish.report en bpts frames r = .ok rep) :
    (∀ (i : Nat) ws, rep.detections[i]? = some ws → Shaped en.save "Detection".toList i ws) ∧
    ∀ (i : Nat) ws, rep.reprojections[i]? = some ws → Shaped en.save "Reprojection".toList i ws := by
  unfold Finish.report at h
  obtain ⟨gp, -, h⟩ := Outcome.bind_eq_ok.1 h
  obtain ⟨log, -, h⟩ := Outcome.bind_eq_ok.1 h
  obtain ⟨det, h1, h⟩ := Outcome.bind_eq_ok.1 h
  obtain ⟨re, h2, h⟩ := Outcome.bind_eq_ok.1 h
  obtain ⟨cams, -, h⟩ := Outcome.bind_eq_ok.1 h
  obtain ⟨objs, -, h⟩ := Outcome.bind_eq_ok.1 h
  obtain ⟨errs, -, h⟩ := Outcome.bind_eq_ok.1 h
  obtain ⟨avg, -, h⟩ := Outcome.bind_eq_ok.1 h
  cases h
  constructor
  · intro i ws hi
    simp only at hi
    unfold Finish.detectAll at h1
    split at h1
    · have := collect (v := fun c => Images.saveDetectionImages (Finish.scene en r) en.colour en.imread en.emptyPath en.save frames c)
        (fun acc x => rfl) h1 i hi
      refine shaped (by decide) ?_ hf this
      intro out e t ht
      unfold Images.detectionFrame at ht
      obtain ⟨circles, _, ht⟩ := Outcome.bind_eq_ok.1 ht
      cases ht
      exact ⟨_, _, rfl⟩
    · cases h1
      simp at hi
  · intro i ws hi
    simp only at hi
    unfold Finish.reproAll at h2
    split at h2
    · have := collect (v := fun c => Images.saveReprojectionImages (Finish.scene en r) gp en.imread en.emptyPath en.save frames c)
        (fun acc x => rfl) h2 i hi
      refine shaped (by decide) ?_ hf this
      intro out e t ht
      unfold Images.reprojectionFrame at ht
      obtain ⟨circles, _, ht⟩ := Outcome.bind_eq_ok.1 ht
      cases ht
      exact ⟨_, _, rfl⟩
    · cases h2
      simp at hi

end Verif.Lemmas.ReportShaped
