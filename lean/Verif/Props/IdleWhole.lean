import Verif.Lemmas.IdleWhole
import Verif.Props.IdleReport
import Verif.Props.Agree

/-! C102 for whole runs: cameras and boards that are never seen. -/
namespace Verif.Props.IdleWhole
open Verif Verif.Structure Verif.Objects Verif.Groups Verif.Pipeline Verif.Folders Verif.Disk Verif.Output Verif.Program
open Verif.Spec.Groups Verif.Spec.Disk Verif.Spec.Objects Verif.Spec.Whole Verif.Spec.Agree Verif.Whole Verif.Spec.Idle
open Verif.Props.Agree Verif.Lemmas.Agree Verif.Keypoints Verif.Lemmas.IdleWhole Verif.Start

variable {V G Pt K K' Q Img : Type} [Group G] [MulAction G Pt] [Inhabited Pt] [Zero K] [One K] [Field K'] [LinearOrder K']
  (u : Setup V G Pt K K' Q Img) (pix : Nat → Pt → ℝ × ℝ)

/-- The configuration with further cameras (their parameters) and further boards (their geometry and points). -/
def larger (cams : List (CamData K)) (geoms : List (Detection.Geom Q)) (pts : List (List Pt)) : Setup V G Pt K K' Q Img :=
  { u with nbCam := u.nbCam + cams.length, geoms := u.geoms ++ geoms, bpts := u.bpts ++ pts
           en := { u.en with cams := u.en.cams ++ cams } }

/-- The results with further cameras for which there is nothing. -/
def withIdle (rep : Finish.Reports V G Pt K Img) (m : Nat) (nbCam : Nat) (det rp : Int) : Finish.Reports V G Pt K Img :=
  { rep with
    cameras := rep.cameras.map (recount nbCam)
    detections := rep.detections ++ if det = 1 then List.replicate m [] else []
    reprojections := rep.reprojections ++ if rp = 1 then List.replicate m [] else [] }

/-- C102: a run from images, in a configuration with further cameras whose images show no board and further boards that no image
shows (so the detections `l` are the same): if the run without them ends, so does the run with them; it leaves the same files of
objects, object poses and errors and the same images; the file of cameras has another number of cameras, and the keypoint file
has an entry without detections for each further camera. -/
theorem C102_whole (hu : Parts u pix) (l : List (Insertion (ℝ × ℝ) Str)) (d d' : Files V G Pt K Img)
    (hready : Ready u.en.save u.name d)
    (hdet : ∀ k, extract u l d = .ok k → ∀ o ∈ k.store.obs, Usable u.bpts o)
    (hnokey : u.keypoints = [] ∨ u.keypoints = "None".toList ∨ d.has u.keypoints = false)
    (hrun : Verif.Whole.run u l d = .ok d') (hempty : u.en.imread u.en.emptyPath = none)
    (cams : List (CamData K)) (geoms : List (Detection.Geom Q)) (pts : List (List Pt)) (hgp : pts.length = geoms.length)
    (himg : ∀ c < u.nbCam + cams.length, ∃ p, (images u.glob u.root u.pre c).head? = some p ∧ (u.sizeOf p).isSome = true) :
    ∃ rep kp d'', ∃ sz : List (Nat × Nat), sz.length = cams.length ∧
      Props.Disk.Written u.en.save u.name rep kp d d' ∧
      Verif.Whole.run (larger u cams geoms pts) l d = .ok d'' ∧
      Props.Disk.Written u.en.save u.name (withIdle rep cams.length (u.nbCam + cams.length) u.en.saveDetect u.en.saveRepro)
        ⟨kp.nbCamera + cams.length, kp.cams ++ emptyEntries u.nbCam sz⟩ d d'' := by
  unfold Verif.Whole.run at hrun
  obtain ⟨k, h1, h⟩ := Outcome.bind_eq_ok.1 hrun
  have hex : ∀ v : Setup V G Pt K K' Q Img, v.keypoints = u.keypoints → extract v l d = detect v l := by
    intro v hv
    unfold extract boardExtraction
    rw [if_neg]
    rw [hv]
    rintro ⟨h1, h2, h3⟩
    rcases hnokey with h | h | h
    · exact h1 h
    · exact h2 h
    · rw [h] at h3; cases h3
  have hk := h1
  rw [hex u rfl] at hk
  unfold detect at hk
  obtain ⟨szs, hszs, hk⟩ := Outcome.bind_eq_ok.1 hk
  obtain ⟨s, hm, hk⟩ := Outcome.bind_eq_ok.1 hk
  simp only [Outcome.pure_eq, Outcome.ok.injEq] at hk
  subst hk
  have D := (Lemmas.Schedule.describes_of_run hm).1
  have hl := (Props.Store.C06_run_ok_iff u.nbCam u.geoms.length l).1 ⟨_, hm⟩
  obtain ⟨x, r, rep, kp, a1, a2, a3, a4, w, -⟩ := Verif.Props.WholeSame.conclude_written u D hready h
  have hm4 : ∀ a ∈ l, a.obs.pts.length = a.obs.ids.length ∧ 4 ≤ a.obs.pts.length ∧
      ∀ k ∈ a.obs.ids, k < cornerCount u.bpts a.obs.board := by
    intro a ha
    have hU := hdet _ h1 a.obs (by rw [D.obs]; exact List.mem_map.2 ⟨a, ha, rfl⟩)
    refine ⟨hU.aligned, hU.four, fun j hj => ?_⟩
    obtain ⟨b, b1, b2⟩ := hU.corners j hj
    unfold cornerCount
    rw [b1]
    exact b2
  obtain ⟨est, e1, e2⟩ := first_obs u hu.refine a1
  obtain ⟨est', f1, f2, f3⟩ := Program.filtered u.nbCam u.geoms.length l hl s hm u.bpts hu.boards hm4 u.search hu.search u.e
  rw [e1] at f1
  cases f1
  rw [e2] at a2 a4
  have hS := fun k => (hu.searches k).1
  have hF := fun k => (hu.searches k).2
  by_cases hT : Spec.Program.Thin l (est.map (·.obs))
  · rw [Program.C83_thin u.nbCam u.geoms.length l hl s hm _ f2 u.bpts hu.boards f3 u.e hS hF _ hT] at a2
    cases a2
  obtain ⟨poses, -, p1⟩ := Program.C83_run u.nbCam u.geoms.length l hl s hm _ f2 u.bpts hu.boards f3 u.e hS hF
    { u.n with boardPose := Program.poseAt (x.1.map (·.pose)) } hT u.fix
  have a2' := a2
  rw [p1] at a2
  obtain ⟨sz, s1, -⟩ := save_inv a4
  have s2 : ∀ c < u.nbCam, (szs[c]?).join = some (sz c) := by
    intro c hc
    exact s1 c (by show c < s.cams.length; rw [D.cams_length]; exact hc)
  have hsz : ∀ c < u.nbCam, szs[c]? = some (some (sz c)) := by
    intro c hc
    have := s2 c hc
    cases hx : szs[c]? with
    | none => rw [hx] at this; cases this
    | some y => rw [hx] at this; exact congrArg some this
  have hget : ∀ c < u.nbCam, ∃ cam, (withSizes u.en szs).cams[c]? = some cam ∧ cam.size = some (sz c) := by
    intro c hc
    have h1 : c < u.en.cams.length := by rw [hu.cams]; exact hc
    refine ⟨{ u.en.cams[c] with size := some (sz c) }, ?_, rfl⟩
    show (List.zipWith _ _ _)[c]? = _
    rw [List.getElem?_zipWith, List.getElem?_eq_getElem h1, hsz c hc]
  have hlen : (withSizes u.en szs).cams.length = u.nbCam := by
    show (List.zipWith _ _ _).length = _
    rw [List.length_zipWith, hu.cams, min_eq_left]
    by_contra hlt
    push Not at hlt
    have := hsz szs.length hlt
    rw [List.getElem?_eq_none (Nat.le_refl _)] at this
    cases this  -- the sizes of the images
  generalize hF' : (fun c => ((images u.glob u.root u.pre c).head?).map fun p => (u.sizeOf p).getD (0, 0)) = F
  have hFs : ∀ c < u.nbCam + cams.length, F c = some ((F c).getD (0, 0)) := by
    intro c hc
    obtain ⟨p, hp, _⟩ := himg c hc
    rw [← hF']
    simp only
    rw [hp]
    rfl
  have hsz1 : szs = (List.range u.nbCam).map F := by
    have := (Start.C67_sizes u.debug u.sizeOf u.glob u.root u.pre u.nbCam).1 fun c hc p hp => by
      obtain ⟨q, hq, h⟩ := himg c (by omega)
      rw [hp] at hq
      cases hq
      exact .inl h
    rw [hszs, hF'] at this
    exact Outcome.ok.inj this
  generalize hsz : (List.range cams.length).map (fun j => (F (u.nbCam + j)).getD (0, 0)) = sz
  have hszl : sz.length = cams.length := by rw [← hsz, List.length_map, List.length_range]
  have hsz2 : imageSizes u.debug u.sizeOf u.glob u.root u.pre (u.nbCam + cams.length) = .ok (szs ++ sz.map some) := by
    have := (Start.C67_sizes u.debug u.sizeOf u.glob u.root u.pre (u.nbCam + cams.length)).1 fun c hc p hp => by
      obtain ⟨q, hq, h⟩ := himg c hc
      rw [hp] at hq
      cases hq
      exact .inl h
    rw [this, hF', List.range_add, List.map_append, ← hsz1, ← hsz, List.map_map, List.map_map]
    congr 2
    refine List.map_congr_left fun j hj => ?_
    exact hFs (u.nbCam + j) (by have := List.mem_range.1 hj; omega)
  have hszsl : szs.length = u.nbCam := by rw [hsz1, List.length_map, List.length_range]
  -- the reports
  obtain ⟨s', hs', -, hrep'⟩ := IdleReport.C102_report u.nbCam u.geoms.length l hl s hm cams.length geoms.length _ f2 u.bpts pts
    hu.boards hgp _ u.fix r a2 f3 (withSizes u.en szs) hlen hu.models pix hu.brown hu.kannala hempty
    (cams.zipWith (fun c x => { c with size := x }) (sz.map some)) (by
      rw [List.length_zipWith, List.length_map, hszl, Nat.min_self]) rep a3
  have hsame := Lemmas.Idle.sameReads (Nat.le_add_right _ _) (Nat.le_add_right _ _) hl hm hs'
  have D' := (Lemmas.Schedule.describes_of_run hs').1
  have hen : withSizes (larger u cams geoms pts).en (szs ++ sz.map some) = { withSizes u.en szs with
      cams := (withSizes u.en szs).cams ++ cams.zipWith (fun c x => { c with size := x }) (sz.map some) } := by
    unfold withSizes larger
    simp only
    rw [List.zipWith_append (by rw [hu.cams, hszsl])]
  rw [← hen] at hrep'
  have hfirst := (first_ext u.search u.e.garbage u.bpts pts s.obs u.refine u.pr).eq_ok a1
  have hprog := Lemmas.Idle.Ext.eq_ok (program_ext hsame u.bpts pts u.e _ u.fix _) a2'
  rw [← e2] at hprog a4 f2
  have hkey := save_more (s := { s with obs := x.1.map (·.obs) }) (s' := { s' with obs := x.1.map (·.obs) }) hsame.frames rfl
    (mB := geoms.length) (by
      show s'.boards.length = s.boards.length + _
      rw [D'.boards_length, D.boards_length]) szs (by
      show _ = s.cams.length
      rw [hszsl, D.cams_length]) sz (by
      show s'.cams.length = s.cams.length + _
      rw [D'.cams_length, D.cams_length, hszl]) (fun o ho => by
      have := known u.nbCam u.geoms.length l hl s hm _ f2 o ho
      exact ⟨this.1, this.2.1⟩) a4
  have hcl : s.cams.length = u.nbCam := D.cams_length
  simp only [hcl, hszl] at hkey
  have hnd : (OMap.keys s'.frames).Nodup := OMap.keys_nodup D'.frames_sorted
  obtain ⟨q1, q2⟩ := Lemmas.ReportShaped.report_shaped hnd hrep'
  obtain ⟨d'', e3, e4⟩ := Props.Disk.C82_written (name := u.name) (⟨kp.nbCamera + cams.length, kp.cams ++ emptyEntries u.nbCam sz⟩ :
    KeyFile (ℝ × ℝ) Str) hready.sound hready.clear q1 q2 hready.free hready.name (hready.place.imp_right Or.inl)
  refine ⟨rep, kp, d'', sz, hszl, w, ?_, e4⟩
  have hlarge : detect (larger u cams geoms pts) l = .ok ⟨s', szs ++ sz.map some⟩ := by
    unfold detect
    show (imageSizes u.debug u.sizeOf u.glob u.root u.pre (u.nbCam + cams.length)).bind _ = _
    rw [hsz2]
    show (Store.run (u.nbCam + cams.length) (u.geoms ++ geoms).length l).bind _ = _
    rw [List.length_append, hs']
    rfl
  unfold Verif.Whole.run
  rw [hex (larger u cams geoms pts) rfl, hlarge, Outcome.bind_ok]
  unfold conclude
  show (ReproErr.initIntrinsic u.search u.e.garbage (u.bpts ++ pts) s'.obs u.refine u.pr).bind _ = _
  rw [hsame.obs, hfirst]
  show (Program.run u.e { u.n with boardPose := poseAt (x.1.map (·.pose)) } u.fix (u.bpts ++ pts) s' (x.1.map (·.obs))).bind _ = _
  rw [hprog]
  show (Finish.report (withSizes (larger u cams geoms pts).en (szs ++ sz.map some)) (u.bpts ++ pts) s'.frames r).bind _ = _
  rw [hrep']
  show (save ⟨{ s' with obs := x.1.map (·.obs) }, szs ++ sz.map some⟩).bind _ = _
  rw [hkey]
  exact e3

end Verif.Props.IdleWhole
