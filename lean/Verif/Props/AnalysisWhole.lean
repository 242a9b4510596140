import Verif.Props.Analysis
import Verif.Props.Agree
import Verif.Props.RealExample

/-! C107 for whole runs of the program, and a run whose results the analysis script works on. -/
namespace Verif.Props.AnalysisWhole
open Verif Verif.Structure Verif.Objects Verif.Groups Verif.Pipeline Verif.Folders Verif.Disk Verif.Scripts Verif.Output
open Verif.Analysis Verif.Rigid Verif.Spec.Groups Verif.Spec.Disk Verif.Spec.Objects Verif.Spec.Whole Verif.Spec.Agree Verif.Whole
open Verif.Props.Agree Verif.Lemmas.Agree Verif.Keypoints

variable {V Pt K' Q Img : Type} [MulAction (Pose ℝ) Pt] [Inhabited Pt] [Field K'] [LinearOrder K']
  (u : Setup V (Pose ℝ) Pt ℝ K' Q Img) (pix : Nat → Pt → ℝ × ℝ)

/-- C107: after any run of the program that ends, with the default names, the analysis script works to the end on its
results exactly if the error file has one group and the parameter file has all cameras. -/
theorem C107_whole (hu : Parts u pix) (l : List (Insertion (ℝ × ℝ) Str)) (d d' : Files V (Pose ℝ) Pt ℝ Img)
    (hready : Ready u.en.save u.name d)
    (hdet : ∀ k, extract u l d = .ok k → ∀ o ∈ k.store.obs, Usable u.bpts o)
    (hrun : Verif.Whole.run u l d = .ok d') (hname : u.name = []) (hne : u.nbCam ≠ 0) (h100 : u.nbCam ≤ 100)
    (hgt : d.hasLoc ⟨(loc u.en.save).abs, (loc u.en.save).parent.names ++ ["GroundTruth.yml".toList]⟩ = true)
    (ofVec : V → Pose ℝ)
    (truthOf : Option (Stored V Pt Img (KeyFile (ℝ × ℝ) Str)) → Outcome (List (Mat4 ℝ × Mat3 ℝ)))
    (truth : List (Pose ℝ × Mat3 ℝ)) (hlenT : truth.length = u.nbCam)
    (htruth : truthOf (d'.file ⟨(loc u.en.save).abs, (loc u.en.save).parent.names ++ ["GroundTruth.yml".toList]⟩) =
      .ok (truth.map fun t => (t.1.1, t.2))) :
    ∃ rep kp, Props.Disk.Written u.en.save [] rep kp d d' ∧
      ((rep.errors.1 = 1 ∧ ∀ c < u.nbCam, (lookup rep.cameras c).isSome = true) ↔
        ∃ a, analyse ofVec truthOf d' u.en.save = .ok a) := by
  unfold Verif.Whole.run at hrun
  obtain ⟨k, h1, h⟩ := Outcome.bind_eq_ok.1 hrun
  obtain ⟨m, hm⟩ := Verif.Props.WholeSame.extract_history u h1
  have D := (Lemmas.Schedule.describes_of_run hm).1
  have hl := (Props.Store.C06_run_ok_iff u.nbCam u.geoms.length m).1 ⟨_, hm⟩
  obtain ⟨x, r, rep, kp, a1, a2, a3, a4, w, -⟩ := Verif.Props.WholeSame.conclude_written u D hready h
  have hm4 : ∀ a ∈ m, a.obs.pts.length = a.obs.ids.length ∧ 4 ≤ a.obs.pts.length ∧
      ∀ k ∈ a.obs.ids, k < cornerCount u.bpts a.obs.board := by
    intro a ha
    have hU := hdet k h1 a.obs (by rw [D.obs]; exact List.mem_map.2 ⟨a, ha, rfl⟩)
    refine ⟨hU.aligned, hU.four, fun j hj => ?_⟩
    obtain ⟨b, b1, b2⟩ := hU.corners j hj
    unfold cornerCount
    rw [b1]
    exact b2
  obtain ⟨est, e1, e2⟩ := first_obs u hu.refine a1
  obtain ⟨est', f1, f2, f3⟩ := Program.filtered u.nbCam u.geoms.length m hl k.store hm u.bpts hu.boards hm4 u.search hu.search u.e
  rw [e1] at f1
  cases f1
  rw [e2] at a2 a4
  have hS := fun k => (hu.searches k).1
  have hF := fun k => (hu.searches k).2
  by_cases hT : Spec.Program.Thin m (est.map (·.obs))
  · rw [Program.C83_thin u.nbCam u.geoms.length m hl k.store hm _ f2 u.bpts hu.boards f3 u.e hS hF _ hT] at a2
    cases a2
  obtain ⟨poses, -, p1⟩ := Program.C83_run u.nbCam u.geoms.length m hl k.store hm _ f2 u.bpts hu.boards f3 u.e hS hF
    { u.n with boardPose := Program.poseAt (x.1.map (·.pose)) } hT u.fix
  rw [p1] at a2
  obtain ⟨sz, s1, -⟩ := save_inv a4
  have s2 : ∀ c < u.nbCam, (k.sizes[c]?).join = some (sz c) := by
    intro c hc
    exact s1 c (by show c < k.store.cams.length; rw [D.cams_length]; exact hc)
  have hsz : ∀ c < u.nbCam, k.sizes[c]? = some (some (sz c)) := by
    intro c hc
    have := s2 c hc
    cases hx : k.sizes[c]? with
    | none => rw [hx] at this; cases this
    | some y => rw [hx] at this; exact congrArg some this
  have hget : ∀ c < u.nbCam, ∃ cam, (withSizes u.en k.sizes).cams[c]? = some cam ∧ cam.size = some (sz c) := by
    intro c hc
    have h1 : c < u.en.cams.length := by rw [hu.cams]; exact hc
    refine ⟨{ u.en.cams[c] with size := some (sz c) }, ?_, rfl⟩
    show (List.zipWith _ _ _)[c]? = _
    rw [List.getElem?_zipWith, List.getElem?_eq_getElem h1, hsz c hc]
  have hlen : (withSizes u.en k.sizes).cams.length = u.nbCam := by
    show (List.zipWith _ _ _).length = _
    rw [List.length_zipWith, hu.cams, min_eq_left]
    by_contra hlt
    push Not at hlt
    have := hsz k.sizes.length hlt
    rw [List.getElem?_eq_none (Nat.le_refl _)] at this
    cases this
  rw [hname] at w
  have hm' : ∀ c < u.nbCam, (withSizes u.en k.sizes).model c = 0 ∨ (withSizes u.en k.sizes).model c = 1 := hu.models
  have hcams : ∀ c ∈ observingCams u.nbCam m, ∃ cam sz', (withSizes u.en k.sizes).cams[c]? = some cam ∧ cam.size = some sz' := by
    intro c hc
    obtain ⟨cam, c1, c2⟩ := hget c (List.mem_range.1 (List.mem_filter.1 hc).1)
    exact ⟨cam, _, c1, c2⟩
  have hT := Finish.C76_tables u.nbCam u.geoms.length m hl k.store hm _ f2 u.bpts hu.boards _ u.fix r a2
  obtain ⟨hE, _⟩ := Finish.ends u.nbCam u.geoms.length m hl k.store hm _ f2 u.bpts hu.boards _ u.fix r a2
  obtain ⟨g1, -, -, g4⟩ := Analysis.report_files a3
  have hknown : Output.CamsKnown (withSizes u.en k.sizes).cams r.1.t.groups := fun i g hg c hc => hcams c (hE.known i g hg c hc)
  have hcount : rep.errors.1 = r.1.t.groups.length := by
    unfold saveReprojectionError at g4
    obtain ⟨x, -, e⟩ := Outcome.bind_eq_ok.1 g4
    simp only [Outcome.pure_eq, Outcome.ok.injEq] at e
    rw [← e]
    rfl
  have hfound := fun c => Verif.Props.Output.C39_found_iff (withSizes u.en k.sizes).cams r.1.t.groups hT.consistent.groups hknown rep.cameras g1 c
  have hone : r.1.t.groups.length = 1 → ∃ g, r.1.t.groups = [(0, g)] ∧ OMap.get? r.1.t.groups 0 = some g ∧
      ∀ c, (∃ n, lookup rep.cameras c = some n) ↔ c ∈ OMap.keys g.cameras := by
    intro h
    obtain ⟨⟨i, g⟩, hg⟩ := List.length_eq_one_iff.1 h
    have hi : i = 0 := by
      obtain ⟨n, hn⟩ := hT.numbered
      rw [hg] at hn
      have : (OMap.keys ([(i, g)] : OMap Nat (CamGroup (Pose ℝ))))[0]? = some i := rfl
      rw [hn] at this
      obtain ⟨_, h0⟩ := List.getElem?_eq_some_iff.1 this
      simpa using h0.symm
    subst hi
    have hget0 : OMap.get? r.1.t.groups 0 = some g :=
      (OMap.get?_eq_some hT.consistent.groups.sorted).2 (by rw [hg]; exact List.mem_singleton.2 rfl)
    refine ⟨g, hg, hget0, fun c => (hfound c).trans ⟨?_, fun hc => ⟨0, g, hget0, fun j _ => Nat.zero_le j, hc⟩⟩⟩
    rintro ⟨i, g', h1, h2, h3⟩
    have := h2 0 (OMap.mem_keys.2 ⟨g, hget0⟩)
    have hi : i = 0 := by omega
    subst hi
    rw [hget0] at h1
    cases h1
    exact h3
  refine ⟨rep, kp, w, ?_, ?_⟩
  · rintro ⟨h1, h2⟩
    rw [hcount] at h1
    obtain ⟨g, hg, -, hc⟩ := hone h1
    obtain ⟨a, ha, -⟩ := Analysis.C107_complete u.nbCam u.geoms.length m hl k.store hm _ f2 u.bpts hu.boards _ u.fix r a2 f3
      (withSizes u.en k.sizes) hm' pix hu.brown hu.kannala hcams rep a3 0 g hg
      (fun c hlt => (hc c).1 (Option.isSome_iff_exists.1 (h2 c (hlen ▸ hlt))))
      (fun h => hne (by rw [← hlen, h]; rfl)) (by rw [hlen]; exact h100) u.en.save kp d d' w hgt ofVec truthOf truth
      (by rw [hlen, hlenT]) htruth
    exact ⟨a, ha⟩
  · rintro ⟨a, ha⟩
    have h1 : r.1.t.groups.length = 1 := by
      by_contra hg
      exact Analysis.C107_groups u.nbCam u.geoms.length m hl k.store hm _ f2 u.bpts hu.boards _ u.fix r a2 f3
        (withSizes u.en k.sizes) hm' pix hu.brown hu.kannala rep a3 hg u.en.save [] kp d d' w ofVec truthOf a ha
    obtain ⟨g, -, hg, hc⟩ := hone h1
    refine ⟨by rw [hcount, h1], fun c hlt => ?_⟩
    by_contra hno
    exact Analysis.C107_missing u.nbCam u.geoms.length m hl k.store hm _ f2 u.bpts hu.boards _ u.fix r a2
      (withSizes u.en k.sizes) hcams rep a3 g hg c (by rw [hlen]; exact hlt)
      (fun h => hno (Option.isSome_iff_exists.2 ((hc c).2 h))) u.en.save kp d d' w ofVec truthOf a ha

omit [MulAction (Pose ℝ) Pt] [Inhabited Pt] [Field K'] [LinearOrder K'] in
/-- Detections in images are usable. -/
theorem detected_usable [Field Q] [LinearOrder Q] (hsame : ∀ (b : Nat) g, u.geoms[b]? = some g → ∃ m, u.bpts[b]? = some m ∧ m.length = g.pts.length)
    (hraw : ∀ p w, u.raw p = some w → ∀ b < u.geoms.length, (w b).corners.length = (w b).ids.length)
    (ts : List (List (List (Insertion (ℝ × ℝ) Str))))
    (hts : Start.cameraTasks u.fitLine u.cfg u.geoms u.raw u.glob u.root u.pre u.nbCam = .ok ts)
    (l : List (Insertion (ℝ × ℝ) Str)) (hl : Detection.Schedule ts l) (d : Files V (Pose ℝ) Pt ℝ Img)
    (hnokey : u.keypoints = [] ∨ u.keypoints = "None".toList ∨ d.has u.keypoints = false) :
    ∀ k, extract u l d = .ok k → ∀ o ∈ k.store.obs, Usable u.bpts o := by
  intro k hk o ho
  have hex : detect u l = .ok k := by
    rw [← hk]
    unfold extract Start.boardExtraction
    rw [if_neg]
    rintro ⟨h1, h2, h3⟩
    rcases hnokey with h | h | h
    · exact h1 h
    · exact h2 h
    · rw [h] at h3; cases h3
  unfold detect at hex
  obtain ⟨sz, -, h1⟩ := Outcome.bind_eq_ok.1 hex
  obtain ⟨s, h3, h1⟩ := Outcome.bind_eq_ok.1 h1
  cases h1
  simp only at ho
  rw [(Lemmas.Schedule.describes_of_run h3).1.obs] at ho
  obtain ⟨a, ha, rfl⟩ := List.mem_map.1 ho
  obtain ⟨c, f, p, t, -, -, ht, hat⟩ :=
    (Start.C67_detected u.fitLine u.cfg u.geoms u.raw u.glob u.root u.pre u.nbCam ts hts l hl a).1.1 ha
  exact image_usable (hraw p) ht u.bpts hsame a hat

section
open Verif.Props.RealExample Verif.Spec.Exact Verif.Spec.Pixels Verif.Props.Pixels Verif.Props.Whole

/-- A working directory with one file, which the reader of the example does not look at. -/
def withFile (n : Str) : Files (Pose ℝ) (Pose ℝ) (Vec3 ℝ) ℝ Str :=
  ⟨fun x => x.names == [], fun x => if x = ⟨false, [n]⟩ then some (.other 0) else none⟩

theorem withFile_none (n : Str) (x : Loc) (h : x.names ≠ [n]) : (withFile n).file x = none :=
  if_neg fun e => h (congrArg Loc.names e)

theorem save_loc : loc RealExample.u.en.save = ⟨false, ["out".toList]⟩ := by decide +kernel

theorem made_ne (n : Str) (hn : "out".toList ≠ n) (x : Loc) (hx : Made RealExample.u.en.save x) : x.names ≠ [n] := by
  intro e
  rcases hx with ⟨k, rfl⟩ | ⟨kind, _, rfl | ⟨c, rfl⟩⟩
  · rw [save_loc] at e
    match k, e with
    | 0, e => cases e
    | 1, e => exact hn (List.cons.inj e).1
    | _ + 2, e => exact hn (List.cons.inj e).1
  · unfold below at e
    rw [save_loc] at e
    have := congrArg List.length e
    simp at this
  · unfold below at e
    rw [save_loc] at e
    have := congrArg List.length e
    simp at this

theorem ready_with (n : Str) (hn : "out".toList ≠ n) : Ready RealExample.u.en.save RealExample.u.name (withFile n) where
  sound := ⟨fun _ => rfl, fun a xs x h => by
      have h : xs ++ [x] = [] := beq_iff_eq.1 h
      exact absurd h (by simp), fun a xs x h => by
      by_contra hd
      refine h (withFile_none n _ fun e => hd ?_)
      have hx : xs = [] := by
        have := congrArg List.length e
        simpa using this
      subst hx
      rfl, fun x hx => withFile_none n x fun e => by
      have hx : x.names = [] := beq_iff_eq.1 hx
      rw [e] at hx
      cases hx⟩
  clear := ⟨fun x hx => withFile_none n x (made_ne n hn x hx), by
    rintro x ⟨kind, _, c, f, rfl⟩
    unfold below
    rw [save_loc]
    rfl⟩
  free b _ := by
    unfold below
    rw [save_loc]
    rfl
  name := .inl rfl
  place := .inr (by decide)

/-- For every schedule, the script works to the end on the results of the run of `RealExample`. -/
example (l' : List (Insertion (ℝ × ℝ) Str)) (h : Detection.Schedule ts l') :
    ∃ d' a, Verif.Whole.run RealExample.u l' (withFile "GroundTruth.yml".toList) = .ok d' ∧
      analyse id (fun _ => .ok (truth.map fun t => (t.1.1, t.2))) d' env.save = .ok a := by
  have hs := same h
  have hdet : ∀ a ∈ l', ExactDetection w RealExample.pix RealExample.u.bpts a.obs := fun a ha => by
    obtain ⟨b, hb, e⟩ := (hs a.obs).2 ⟨a, ha, rfl⟩
    exact e ▸ detected b hb
  have hready := ready_with "GroundTruth.yml".toList (by decide +kernel)
  obtain ⟨rep, kp, d', s, sz, h1, h2, -, h4, -⟩ := C85_directory RealExample.u w RealExample.pix 0 0 exactParts ts tasks l' h
    hdet (hs.connected connected) himg _ hready (.inr (.inl rfl))
  obtain ⟨rep', kp', w', hiff⟩ := C107_whole RealExample.u RealExample.pix
    ⟨exactParts.search.1, fun k => ⟨(exactParts.searches k).1, (exactParts.searches k).2.1⟩, (fun f hf => nomatch hf),
      exactParts.reportModels, exactParts.brown, exactParts.kannala, exactParts.cams, exactParts.boards⟩
    l' _ d' hready (detected_usable RealExample.u (by
      intro b g hg
      match b, hg with
      | 0, hg => cases hg; exact ⟨_, rfl, rfl⟩
      | 1, hg => cases hg; exact ⟨_, rfl, rfl⟩) (by
      intro p w hw b hb
      have hw : RealExample.raw p = some w := hw
      unfold RealExample.raw at hw
      have : ∃ c f, w = RealExample.rawOf c f := by
        split_ifs at hw
        all_goals exact ⟨_, _, (Option.some.inj hw).symm⟩
      obtain ⟨c, f, rfl⟩ := this
      match b, hb with
      | 0, _ => rfl
      | 1, _ => rfl) ts tasks l' h _ (.inr (.inl rfl))) h1 rfl (by decide) (by decide) (by
      rw [save_loc]
      decide +kernel) id (fun _ => .ok (truth.map fun t => (t.1.1, t.2))) truth rfl rfl
  have e1 : rep.errors = rep'.errors := by
    have := h2.errors.symm.trans w'.errors
    simpa using this
  have e2 : rep.cameras = rep'.cameras := by
    have := h2.cameras.symm.trans w'.cameras
    simpa using this
  obtain ⟨a, ha⟩ := hiff.1 ⟨by
      obtain ⟨node, hn, -⟩ := h4.group
      rw [← e1, hn], fun c hc => by
      rw [← e2, Option.isSome_iff_exists, h4.cameras c, observingCams, List.mem_filter, List.mem_range]
      refine ⟨hc, ?_⟩
      obtain ⟨a, ha, e⟩ := (hs.exists fun o => o.cam = c).1 ⟨det c 0 0, det_mem c 0 0 hc (by decide) (by decide), rfl⟩
      exact List.any_eq_true.2 ⟨a, ha, by simpa using e⟩⟩
  exact ⟨d', a, h1, ha⟩
end

end Verif.Props.AnalysisWhole
