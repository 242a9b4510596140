import Verif.Model.Output
import Verif.Lemmas.Collect
import Verif.Props.Camera
import Verif.Spec.Pipeline
import Verif.Props.Pipeline

/-!
C39: the camera parameter file.
-/
namespace Verif.Props.Output
open Verif Verif.Output Verif.Groups Rigid

variable {K G : Type} [Zero K] [One K] [Group G]

/-- What the parameter file must say about camera `c` of group `i`: its pinhole matrix and distortion
coefficients, its model and image size, its group, and the inverse of its pose in the group. -/
structure NodeOf (cams : List (CamData K)) (i : Nat) (g : CamGroup G) (c : Nat) (n : CamNode K G) : Prop where
  group : n.group = i
  camera : ∃ cam, cams[c]? = some cam ∧ n.model = cam.model ∧
    n.matrix = !![cam.intr 0, 0, cam.intr 2; 0, cam.intr 1, cam.intr 3; 0, 0, 1] ∧
    (cam.model = 0 → n.distortion = [cam.intr 4, cam.intr 5, cam.intr 6, cam.intr 7, cam.intr 8]) ∧
    (cam.model = 1 → n.distortion = [cam.intr 4, cam.intr 5, cam.intr 6, cam.intr 7]) ∧
    cam.size = some (n.width, n.height)
  pose : ∃ x, OMap.get? g.poses c = some x ∧ n.pose * x = 1

/-- The cameras of the groups exist and an image was read for each of them. -/
def CamsKnown (cams : List (CamData K)) (gs : OMap Nat (CamGroup G)) : Prop :=
  ∀ i g, OMap.get? gs i = some g → ∀ c ∈ OMap.keys g.cameras,
    ∃ cam sz, cams[c]? = some cam ∧ cam.size = some sz

private theorem closed_camera (cams : List (CamData K)) (i : Nat) (g : CamGroup G)
    (fs : Storage (CamEntry K G)) (h : fs.isOpen = false) (l : OMap Nat Unit) :
    Outcome.foldlM (saveCamera cams i g) fs l = .ok fs := by
  induction l with
  | nil => rfl
  | cons e l ih =>
    rw [Outcome.foldlM_cons]
    have : saveCamera cams i g fs e = .ok fs := by
      unfold saveCamera
      split
      · rfl
      · simp [h]
    rw [this, Outcome.bind_ok, ih]

private theorem closed_groups (cams : List (CamData K)) (fs : Storage (CamEntry K G))
    (h : fs.isOpen = false) (l : OMap Nat (CamGroup G)) :
    Outcome.foldlM (saveGroup cams) fs l = .ok fs := by
  induction l with
  | nil => rfl
  | cons e l ih =>
    rw [Outcome.foldlM_cons]
    have h1 : fs.put (.nbCamera cams.length) = fs := by simp [Storage.put, h]
    have : saveGroup cams fs e = .ok fs := by
      unfold saveGroup
      rw [h1, closed_camera cams e.1 e.2 fs h, Outcome.bind_ok]
      cases fs
      simp_all [Storage.release]
    rw [this, Outcome.bind_ok, ih]

private theorem open_cameras (cams : List (CamData K)) (i : Nat) (g : CamGroup G) (l : OMap Nat Unit)
    (hpose : ∀ c ∈ OMap.keys l, ∃ x, OMap.get? g.poses c = some x)
    (hcam : ∀ c ∈ OMap.keys l, ∃ cam sz, cams[c]? = some cam ∧ cam.size = some sz)
    (fs : Storage (CamEntry K G)) (h : fs.isOpen = true) :
    ∃ node : Nat → CamNode K G, Outcome.foldlM (saveCamera cams i g) fs l =
        .ok { isOpen := true, out := fs.out ++ (OMap.keys l).map fun c => .camera c (node c) } ∧
      ∀ c ∈ OMap.keys l, NodeOf cams i g c (node c) := by
  refine ⟨fun c => match cams[c]? with
    | some cam =>
      { matrix := (Camera.getIntrinsics cam.model cam.intr).1
        distortion := (Camera.getIntrinsics cam.model cam.intr).2, model := cam.model, group := i
        width := (cam.size.getD (0, 0)).1, height := (cam.size.getD (0, 0)).2
        pose := ((OMap.get? g.poses c).getD 1)⁻¹ }
    | none => { matrix := 0, distortion := [], model := 0, group := 0, width := 0, height := 0, pose := 1 },
    ?_, ?_⟩
  · clear hpose
    induction l generalizing fs with
    | nil =>
      cases fs
      simp_all [OMap.keys]
    | cons e l ih =>
      obtain ⟨cam, sz, h1, h2⟩ := hcam e.1 (by simp [OMap.keys])
      rw [Outcome.foldlM_cons]
      unfold saveCamera
      simp only [h1, h, if_true, h2, Outcome.bind_ok]
      have := ih (fun c hc => hcam c (by simp only [OMap.keys, List.map_cons, List.mem_cons]; exact .inr hc))
        (fs.put (.camera e.1
          { matrix := (Camera.getIntrinsics cam.model cam.intr).1
            distortion := (Camera.getIntrinsics cam.model cam.intr).2, model := cam.model, group := i
            width := sz.1, height := sz.2, pose := ((OMap.get? g.poses e.1).getD 1)⁻¹ }))
        (by simp [Storage.put, h])
      unfold saveCamera at this
      rw [this]
      simp [Storage.put, h, OMap.keys, h1, h2]
  · intro c hc
    obtain ⟨cam, sz, h1, h2⟩ := hcam c hc
    obtain ⟨x, hx⟩ := hpose c hc
    simp only [h1]
    refine ⟨rfl, ⟨cam, h1, rfl, rfl, ?_, ?_, by simp [h2]⟩, x, hx, by simp [hx]⟩
    · intro hm; simp [Camera.getIntrinsics, Camera.getDistortionVector, hm]
    · intro hm; simp [Camera.getIntrinsics, Camera.getDistortionVector, hm]

/-- C39: the file lists exactly the cameras of the first group, in ascending order, each once and with its
parameters and the inverse of its pose in the group; whatever the other groups are. -/
theorem C39_first_group (cams : List (CamData K)) (i : Nat) (g : CamGroup G) (rest : OMap Nat (CamGroup G))
    (hC : Spec.Groups.Collection ((i, g) :: rest : OMap Nat (CamGroup G)))
    (hcam : CamsKnown cams ((i, g) :: rest : OMap Nat (CamGroup G))) :
    ∃ node : Nat → CamNode K G, saveCamerasParams cams ((i, g) :: rest : OMap Nat (CamGroup G)) =
        .ok (.nbCamera cams.length :: (OMap.keys g.cameras).map fun c => .camera c (node c)) ∧
      ∀ c ∈ OMap.keys g.cameras, NodeOf cams i g c (node c) := by
  have hg : OMap.get? ((i, g) :: rest : OMap Nat (CamGroup G)) i = some g :=
    (OMap.get?_eq_some hC.sorted).2 (by simp)
  obtain ⟨node, h1, h2⟩ := open_cameras cams i g g.cameras
    (fun c hc => OMap.mem_keys.1 ((hC.poses i g hg) ▸ hc)) (hcam i g hg)
    { isOpen := true, out := [.nbCamera cams.length] } rfl
  refine ⟨node, ?_, h2⟩
  unfold saveCamerasParams
  have hs : saveGroup cams ({} : Storage (CamEntry K G)) (i, g) = .ok
      { isOpen := false
        out := [.nbCamera cams.length] ++ (OMap.keys g.cameras).map fun c => .camera c (node c) } := by
    unfold saveGroup
    have : ({} : Storage (CamEntry K G)).put (.nbCamera cams.length) =
      { isOpen := true, out := [.nbCamera cams.length] } := rfl
    rw [this, h1]; rfl
  rw [Outcome.foldlM_cons, hs, Outcome.bind_ok, closed_groups _ _ rfl]
  rfl

/-- C39: without any group the file is empty. -/
theorem C39_no_group (cams : List (CamData K)) :
    saveCamerasParams cams ([] : OMap Nat (CamGroup G)) = .ok [] := rfl

theorem lookup_cams (node : Nat → CamNode K G) (n : Nat) (l : List Nat) (c : Nat) :
    lookup (.nbCamera n :: l.map fun c => .camera c (node c)) c = if c ∈ l then some (node c) else none := by
  unfold lookup
  rw [List.findSome?_cons]
  simp only
  induction l with
  | nil => rfl
  | cons a l ih =>
    rw [List.map_cons, List.findSome?_cons]
    by_cases h : a = c
    · subst h; simp
    · simp only [h, if_false]
      rw [ih]
      simp [Ne.symm h]

/-- C39: a camera is found in the file if and only if it belongs to the first group, that of the least
number; so no camera of another group is. -/
theorem C39_found_iff (cams : List (CamData K)) (gs : OMap Nat (CamGroup G))
    (hC : Spec.Groups.Collection gs) (hcam : CamsKnown cams gs) (file : List (CamEntry K G))
    (h : saveCamerasParams cams gs = .ok file) (c : Nat) :
    (∃ n, lookup file c = some n) ↔
      ∃ i g, OMap.get? gs i = some g ∧ (∀ j ∈ OMap.keys gs, i ≤ j) ∧ c ∈ OMap.keys g.cameras := by
  match gs, hC, hcam, h with
  | [], _, _, h =>
    simp only [C39_no_group, Outcome.ok.injEq] at h
    subst h
    simp [lookup]
  | (i, g) :: rest, hC, hcam, h =>
    have hg : OMap.get? ((i, g) :: rest : OMap Nat (CamGroup G)) i = some g :=
      (OMap.get?_eq_some hC.sorted).2 (by simp)
    have hle : ∀ j ∈ OMap.keys ((i, g) :: rest : OMap Nat (CamGroup G)), i ≤ j := by
      intro j hj
      simp only [OMap.keys, List.map_cons, List.mem_cons] at hj
      rcases hj with rfl | hj
      · rfl
      · obtain ⟨e, he, rfl⟩ := List.mem_map.1 hj
        have := (List.pairwise_cons.1 hC.sorted).1 e he
        have : decide (i < e.1) = true := this
        exact Nat.le_of_lt (of_decide_eq_true this)
    obtain ⟨node, h1, h2⟩ := C39_first_group cams i g rest hC hcam
    rw [h1] at h
    simp only [Outcome.ok.injEq] at h
    subst h
    rw [lookup_cams]
    constructor
    · rintro ⟨n, hn⟩
      refine ⟨i, g, hg, hle, ?_⟩
      by_contra hc
      simp [hc] at hn
    · rintro ⟨j, g', hj, hj', hc⟩
      have : j = i := le_antisymm (hj' i (by simp [OMap.keys])) (hle j (OMap.mem_keys.2 ⟨g', hj⟩))
      subst this
      rw [hg] at hj
      simp only [Option.some.injEq] at hj
      subst hj
      exact ⟨node c, by simp [hc]⟩

/-- C39, what holds: if there is one group, each of its cameras is found in the file, with its
parameters. -/
theorem C39_one_group (cams : List (CamData K)) (i : Nat) (g : CamGroup G)
    (hC : Spec.Groups.Collection ([(i, g)] : OMap Nat (CamGroup G)))
    (hcam : CamsKnown cams ([(i, g)] : OMap Nat (CamGroup G))) :
    ∃ file, saveCamerasParams cams ([(i, g)] : OMap Nat (CamGroup G)) = .ok file ∧
      ∀ c ∈ OMap.keys g.cameras, ∃ n, lookup file c = some n ∧ NodeOf cams i g c n := by
  obtain ⟨node, h1, h2⟩ := C39_first_group cams i g [] hC hcam
  refine ⟨_, h1, fun c hc => ⟨node c, ?_, h2 c hc⟩⟩
  rw [lookup_cams]
  simp [hc]

/-- C39, failure: a camera of any but the first group is not found in the file. -/
theorem C39_other_group (cams : List (CamData K)) (i : Nat) (g : CamGroup G) (rest : OMap Nat (CamGroup G))
    (hC : Spec.Groups.Collection ((i, g) :: rest : OMap Nat (CamGroup G)))
    (hcam : CamsKnown cams ((i, g) :: rest : OMap Nat (CamGroup G)))
    (j : Nat) (g' : CamGroup G) (hj : (j, g') ∈ rest) (c : Nat) (hc : c ∈ OMap.keys g'.cameras) :
    ∃ file, saveCamerasParams cams ((i, g) :: rest : OMap Nat (CamGroup G)) = .ok file ∧
      lookup file c = none := by
  obtain ⟨node, h1, h2⟩ := C39_first_group cams i g rest hC hcam
  refine ⟨_, h1, ?_⟩
  rw [lookup_cams, if_neg]
  intro hc'
  have hg : OMap.get? ((i, g) :: rest : OMap Nat (CamGroup G)) i = some g :=
    (OMap.get?_eq_some hC.sorted).2 (by simp)
  have hg' : OMap.get? ((i, g) :: rest : OMap Nat (CamGroup G)) j = some g' :=
    (OMap.get?_eq_some hC.sorted).2 (by simp [hj])
  have := hC.disjoint i j g g' hg hg' c hc' hc
  subst this
  have := (List.pairwise_cons.1 hC.sorted).1 _ hj
  have : decide (i < i) = true := this
  simp at this

private theorem load_step (file : List (CamEntry K G)) (acc : List (CamData K)) (e : CamData K × Nat) :
    loadStep file acc e = loadCamera file e.2 e.1 >>= fun y => .ok (acc ++ [y]) := rfl

private theorem load_one (cams : List (CamData K)) (i : Nat) (g : CamGroup G) (c : Nat) (n : CamNode K G)
    (hn : NodeOf cams i g c n) (file : List (CamEntry K G)) (hf : lookup file c = some n)
    (cam cam' : CamData K) (hc : cams[c]? = some cam) (hm : cam'.model = cam.model)
    (hsup : cam.model = 0 ∨ cam.model = 1) :
    ∃ r, loadCamera file c cam' = .ok r ∧ r.model = cam'.model ∧ r.size = cam'.size ∧
      Camera.getIntrinsics r.model r.intr = Camera.getIntrinsics cam.model cam.intr := by
  obtain ⟨cam2, h1, h2, h3, h4, h5, h6⟩ := hn.camera
  rw [hc] at h1
  simp only [Option.some.injEq] at h1
  subst h1
  have key : ∀ N, Props.Camera.nbCoeffs cam.model = some N → n.distortion.length = N →
      n.distortion = Camera.getDistortionVector cam.model cam.intr →
      ∃ r, loadCamera file c cam' = .ok r ∧ r.model = cam'.model ∧ r.size = cam'.size ∧
        Camera.getIntrinsics r.model r.intr = Camera.getIntrinsics cam.model cam.intr := by
    intro N hN hlen hd
    obtain ⟨I', k1, k2⟩ := Props.Camera.C37_intrinsics cam.model N hN cam'.intr (cam.intr 0) (cam.intr 1)
      (cam.intr 2) (cam.intr 3) n.distortion hlen
    refine ⟨{ cam' with intr := I' }, ?_, rfl, rfl, ?_⟩
    · unfold loadCamera
      rw [hf]
      simp only
      have : n.matrix = Props.Camera.pinhole (cam.intr 0) (cam.intr 1) (cam.intr 2) (cam.intr 3) := h3
      rw [this, hm, k1]
      rfl
    · simp only [hm, k2, hd]
      rfl
  rcases hsup with h | h
  · exact key 5 (by rw [h]; rfl) (by rw [h4 h]; rfl) (by rw [h4 h, h]; rfl)
  · exact key 4 (by rw [h]; rfl) (by rw [h5 h]; rfl) (by rw [h5 h, h]; rfl)

/-- C39, reading the file in a later run: if all cameras are in one group and have a supported model, a
run over the same cameras (of any parameters) reads back the intrinsic parameters that were saved. -/
theorem C39_reread (cams cams' : List (CamData K)) (i : Nat) (g : CamGroup G)
    (hC : Spec.Groups.Collection ([(i, g)] : OMap Nat (CamGroup G)))
    (hcam : CamsKnown cams ([(i, g)] : OMap Nat (CamGroup G)))
    (hall : ∀ c < cams.length, c ∈ OMap.keys g.cameras)
    (hsup : ∀ cam ∈ cams, cam.model = 0 ∨ cam.model = 1)
    (hm : cams'.map (·.model) = cams.map (·.model)) :
    ∃ file r, saveCamerasParams cams ([(i, g)] : OMap Nat (CamGroup G)) = .ok file ∧
      loadCamerasParams file cams' = .ok r ∧
      r.map (fun c => Camera.getIntrinsics c.model c.intr) =
        cams.map (fun c => Camera.getIntrinsics c.model c.intr) := by
  obtain ⟨file, h1, h2⟩ := C39_one_group cams i g hC hcam
  have hlen : cams'.length = cams.length := by simpa using congrArg List.length hm
  have hone : ∀ e ∈ cams'.zipIdx, ∃ r cam, cams[e.2]? = some cam ∧ loadCamera file e.2 e.1 = .ok r ∧
      Camera.getIntrinsics r.model r.intr = Camera.getIntrinsics cam.model cam.intr := by
    rintro ⟨cam', c⟩ he
    have hget : cams'[c]? = some cam' := by
      have := List.mem_zipIdx_iff_getElem?.1 he
      exact this
    have hlt : c < cams.length := by
      rw [← hlen]; exact (List.getElem?_eq_some_iff.1 hget).1
    obtain ⟨n, hn, hn'⟩ := h2 c (hall c hlt)
    have hmod : cam'.model = cams[c].model := by
      have := congrArg (fun l => l[c]?) hm
      simp only [List.getElem?_map, hget, List.getElem?_eq_getElem hlt, Option.map_some,
        Option.some.injEq] at this
      exact this
    obtain ⟨r, k1, _, _, k2⟩ := load_one cams i g c n hn' file hn cams[c] cam'
      (List.getElem?_eq_getElem hlt) hmod (hsup _ (List.getElem_mem hlt))
    exact ⟨r, cams[c], List.getElem?_eq_getElem hlt, k1, k2⟩
  have hload : ∃ r, loadCamerasParams file cams' = .ok r := by
    unfold loadCamerasParams
    have : ∀ (l : List (CamData K × Nat)) acc, (∀ e ∈ l, ∃ y, loadCamera file e.2 e.1 = .ok y) →
        ∃ r, Outcome.foldlM (loadStep file) acc l = .ok r := by
      intro l
      induction l with
      | nil => intro acc _; exact ⟨acc, rfl⟩
      | cons e l ih =>
        intro acc h
        obtain ⟨y, hy⟩ := h e (by simp)
        rw [Outcome.foldlM_cons, load_step, hy, Outcome.bind_ok, Outcome.bind_ok]
        exact ih _ fun e he => h e (by simp [he])
    exact this _ _ fun e he => by obtain ⟨r, _, _, h, _⟩ := hone e he; exact ⟨r, h⟩
  obtain ⟨r, hr⟩ := hload
  refine ⟨file, r, h1, hr, ?_⟩
  obtain ⟨ys, e1, e2⟩ := Lemmas.Collect.foldlM_append_inv (load_step file) hr
  simp only [List.nil_append] at e1
  subst e1
  have hl : r.length = cams.length := by rw [← e2.length_eq]; simp [hlen]
  apply List.ext_getElem?
  intro c
  by_cases hc : c < cams.length
  · have hcr : c < r.length := by omega
    have hcz : c < cams'.zipIdx.length := by simp; omega
    have h3 := List.forall₂_iff_get.1 e2 |>.2 c hcz hcr
    obtain ⟨y, cam, k1, k2, k3⟩ := hone (cams'.zipIdx.get ⟨c, hcz⟩) (List.get_mem _ _)
    rw [h3] at k2
    simp only [Outcome.ok.injEq] at k2
    have : (cams'.zipIdx.get ⟨c, hcz⟩).2 = c := by simp
    rw [this] at k1
    simp only [List.getElem?_map, k1, List.getElem?_eq_getElem hcr, Option.map_some, Option.some.injEq]
    rw [← k3, ← k2]
    rfl
  · have hcr : r.length ≤ c := by omega
    simp only [List.getElem?_map, List.getElem?_eq_none hcr, List.getElem?_eq_none (Nat.le_of_not_lt hc),
      Option.map_none]

/-- C39, reading the file in a later run: if some camera of that run is not in the first group of the
run that wrote the file, its missing matrix is read: undefined behaviour. -/
theorem C39_reread_missing (cams cams' : List (CamData K)) (gs : OMap Nat (CamGroup G))
    (hC : Spec.Groups.Collection gs) (hcam : CamsKnown cams gs) (file : List (CamEntry K G))
    (h : saveCamerasParams cams gs = .ok file)
    (hsup : ∀ cam ∈ cams, cam.model = 0 ∨ cam.model = 1)
    (hm : ∀ (c : Nat) cam cam', cams[c]? = some cam → cams'[c]? = some cam' → cam'.model = cam.model)
    (c : Nat) (hc : c < cams'.length)
    (hno : ∀ i g, OMap.get? gs i = some g → (∀ j ∈ OMap.keys gs, i ≤ j) → c ∉ OMap.keys g.cameras) :
    loadCamerasParams file cams' = .ub := by
  unfold loadCamerasParams
  have hfound := C39_found_iff cams gs hC hcam file h
  refine Lemmas.Collect.foldlM_append_ub (load_step file) ?_ ⟨(cams'[c], c), ?_, ?_⟩ _
  · rintro ⟨cam', d⟩ he
    have hget : cams'[d]? = some cam' := List.mem_zipIdx_iff_getElem?.1 he
    cases hl : lookup file d with
    | none => right; simp [loadCamera, hl]
    | some n =>
      left
      obtain ⟨i, g, hg, hle, hd⟩ := (hfound d).1 ⟨n, hl⟩
      obtain ⟨cam, sz, h1, h2⟩ := hcam i g hg d hd
      match gs, hC, hcam, h, hg, hle with
      | (i', g') :: rest, hC, hcam, h, hg, hle =>
        obtain ⟨node, k1, k2⟩ := C39_first_group cams i' g' rest hC hcam
        rw [k1] at h
        simp only [Outcome.ok.injEq] at h
        subst h
        rw [lookup_cams] at hl
        have hmem : d ∈ OMap.keys g'.cameras := by
          by_contra hx; simp [hx] at hl
        simp only [hmem, if_true, Option.some.injEq] at hl
        obtain ⟨r, k3, _⟩ := load_one cams i' g' d (node d) (k2 d hmem)
          (.nbCamera cams.length :: (OMap.keys g'.cameras).map fun c => .camera c (node c))
          (by rw [lookup_cams, if_pos hmem])
          cam cam' h1 (hm d cam cam' h1 hget) (hsup cam (List.mem_of_getElem? h1))
        exact ⟨r, k3⟩
  · exact List.mem_zipIdx_iff_getElem?.2 (List.getElem?_eq_getElem hc)
  · have : lookup file c = none := by
      cases hl : lookup file c with
      | none => rfl
      | some n =>
        obtain ⟨i, g, hg, hle, hd⟩ := (hfound c).1 ⟨n, hl⟩
        exact absurd hd (hno i g hg hle)
    simp [loadCamera, this]

/-! ### In the workflow -/

section workflow
open Verif.Pipeline Verif.Spec.Pipeline Verif.Spec.Groups Relation
variable {V Pt P Path : Type} [SMul G Pt] [DecidableEq P]

/-- C39, end to end: if the cameras are saved when the stages up to the search for non-overlapping groups
are done, a camera with detections is found in the file exactly if it is linked, through common sightings
of linked boards, to the least camera with detections. -/
theorem C39_overlapping (nCam nBoard : Nat) (l : List (Insertion P Path))
    (hl : ∀ a ∈ l, a.obs.cam < nCam ∧ a.obs.board < nBoard) (s : Store P Path)
    (hs : Store.run nCam nBoard l = .ok s) (obs : List (BoardObs P))
    (hobs : Spec.Objects.SameViews s.obs obs) (bpts : List (List Pt)) (hb : bpts.length = nBoard)
    (n : Numerics V G) (cams : List (CamData K)) (hlen : cams.length = nCam)
    (hsize : ∀ cam ∈ cams, cam.size ≠ none) :
    ∃ st file, overlapping n bpts s obs = .ok st ∧ saveCamerasParams cams st.t.groups = .ok file ∧
      ∀ c ∈ observingCams nCam l, ∀ a ∈ observingCams nCam l, (∀ b ∈ observingCams nCam l, a ≤ b) →
        ((∃ node, lookup file c = some node) ↔ ReflTransGen (CamsLinked l obs) a c) := by
  obtain ⟨st, h1, h2, h3⟩ := Props.Pipeline.C52_overlapping nCam nBoard l hl s hs obs hobs bpts hb n
  have hin : ∀ i g, OMap.get? st.t.groups i = some g →
      OMap.keys g.cameras ∈ (groupCams st.t.groups).map (·.2) := by
    intro i g hg
    have := (OMap.get?_eq_some h2.groups.sorted).1 hg
    unfold groupCams
    rw [List.map_map]
    exact List.mem_map.2 ⟨(i, g), this, rfl⟩
  have hobsC : ∀ i g, OMap.get? st.t.groups i = some g → ∀ c ∈ OMap.keys g.cameras,
      c ∈ observingCams nCam l := fun i g hg c hc =>
    h3.perm.subset (List.mem_flatten.2 ⟨_, hin i g hg, hc⟩)
  have hknown : CamsKnown cams st.t.groups := by
    intro i g hg c hc
    have hc' := hobsC i g hg c hc
    have hlt : c < cams.length := by
      rw [hlen]
      exact List.mem_range.1 (List.mem_filter.1 hc').1
    obtain ⟨sz, hsz⟩ := Option.ne_none_iff_exists'.1 (hsize cams[c] (List.getElem_mem hlt))
    exact ⟨cams[c], sz, List.getElem?_eq_getElem hlt, hsz⟩
  have hsave : ∃ file, saveCamerasParams cams st.t.groups = .ok file := by
    rcases hgs : st.t.groups with _ | ⟨⟨i, g⟩, rest⟩
    · exact ⟨_, C39_no_group cams⟩
    · obtain ⟨node, h, _⟩ := C39_first_group cams i g rest (hgs ▸ h2.groups) (hgs ▸ hknown)
      exact ⟨_, h⟩
  obtain ⟨file, hf⟩ := hsave
  refine ⟨st, file, h1, hf, ?_⟩
  intro c hc a ha hmin
  have hgetg : ∀ c ∈ observingCams nCam l, ∃ i g, OMap.get? st.t.groups i = some g ∧ c ∈ OMap.keys g.cameras := by
    intro c hc
    obtain ⟨cl, hcl, hcc⟩ := List.mem_flatten.1 (h3.perm.symm.subset hc)
    unfold groupCams at hcl
    rw [List.map_map] at hcl
    obtain ⟨⟨i, g⟩, he, rfl⟩ := List.mem_map.1 hcl
    exact ⟨i, g, (OMap.get?_eq_some h2.groups.sorted).2 he, hcc⟩
  obtain ⟨i0, g0, hg0, ha0⟩ := hgetg a ha
  have hfirst : ∀ j ∈ OMap.keys st.t.groups, i0 ≤ j := by
    intro j hj
    obtain ⟨gj, hgj⟩ := OMap.mem_keys.1 hj
    by_contra hlt
    have h4 := h2.groups.ref_incr j i0 gj g0 hgj hg0 (by omega)
    have h5 := hmin gj.refCam (hobsC j gj hgj _ (h2.groups.ref_mem j gj hgj))
    have h6 := h2.groups.ref_least i0 g0 hg0 a ha0
    omega
  rw [C39_found_iff cams st.t.groups h2.groups hknown file hf]
  have hlink := h3.linked _ (hin i0 g0 hg0) a ha0 c
  constructor
  · rintro ⟨i, g, hg, hle, hcg⟩
    have : i = i0 := le_antisymm (hle i0 (OMap.mem_keys.2 ⟨g0, hg0⟩)) (hfirst i (OMap.mem_keys.2 ⟨g, hg⟩))
    subst this
    rw [hg0] at hg
    simp only [Option.some.injEq] at hg
    subst hg
    exact hlink.1 hcg
  · intro h
    exact ⟨i0, g0, hg0, hfirst, hlink.2 h⟩

end workflow

/-! ### The hypotheses are met -/

/-- Two cameras. -/
def demoCams : List (CamData Rat) :=
  [⟨0, fun i => (i : Rat) + 1, some (640, 480)⟩, ⟨1, fun i => (i : Rat) + 10, some (800, 600)⟩]

/-- Cameras found in the file. -/
def found {H : Type} (r : Outcome (List (CamEntry Rat H))) : List Nat :=
  match r with
  | .ok f => f.filterMap fun | .camera c _ => some c | .nbCamera _ => none
  | _ => []

open Props.Pipeline in
/-- C39, end to end: the two cameras of `Props/Pipeline` are both saved after they were joined into one
group; before, only the first. -/
theorem C39_example :
    (match runAll 2 2 twoCams with
      | .ok st => found (saveCamerasParams demoCams st.t.groups)
      | _ => []) = [0, 1] ∧
    found (saveCamerasParams demoCams twoState.t.groups) = [0] := by decide +kernel

/-- Two cameras that see different boards in different frames. -/
def apart : List (Insertion Nat Nat) :=
  (List.range 4).flatMap fun f => [Props.Pipeline.det 0 f 0, Props.Pipeline.det 1 (f + 4) 1]

open Props.Pipeline in
/-- C39, failure of the whole workflow: cameras that are not related stay in two groups, and only the
first one is saved. -/
theorem C39_example_apart :
    (match runAll 2 2 apart with
      | .ok st => (Spec.Pipeline.groupCams st.t.groups, found (saveCamerasParams demoCams st.t.groups))
      | _ => ([], [])) = ([(0, [0]), (1, [1])], [0]) := by decide +kernel

end Verif.Props.Output
