import Verif.Model.Start
import Verif.Props.Folders
import Verif.Props.Outliers
import Verif.Props.Detection
import Verif.Lemmas.Collect

/-!
C67: where the program takes its input from.
-/
namespace Verif.Props.Start
open Verif Verif.Folders Verif.Start Verif.Ransac Verif.Detection Verif.Props.Folders

/-- A path whose file name is a non-empty stem followed by `.yml`. -/
def IsYml (p : Str) : Prop :=
  ∃ dir stem, p = dir ++ stem ++ ".yml".toList ∧ (dir = [] ∨ dir.getLast? = some '/') ∧ stem ≠ [] ∧ '/' ∉ stem

private theorem filename_split (dir name : Str) (hd : dir = [] ∨ dir.getLast? = some '/') (hn : '/' ∉ name) :
    filename (dir ++ name) = name := by
  unfold filename
  rcases hd with rfl | hd
  · rw [List.nil_append, findLast_none.2 hn]
  · obtain ⟨d, rfl⟩ : ∃ d, dir = d ++ ['/'] := by
      obtain ⟨hne, hl⟩ := List.getLast?_eq_some_iff.1 hd
      exact ⟨_, hl⟩
    rw [List.append_assoc, List.singleton_append, findLast_split d name hn]
    show (d ++ '/' :: name).drop (d.length + 1) = name
    rw [List.drop_append]
    simp

private theorem split_filename (p : Str) :
    ∃ dir, p = dir ++ filename p ∧ (dir = [] ∨ dir.getLast? = some '/') ∧ '/' ∉ filename p := by
  by_cases h : '/' ∈ p
  · obtain ⟨a, b, rfl, hb⟩ := exists_last h
    have := filename_split (a ++ ['/']) b (.inr (by simp)) hb
    rw [List.append_assoc, List.singleton_append] at this
    rw [this]
    exact ⟨a ++ ['/'], by simp, .inr (by simp), hb⟩
  · refine ⟨[], ?_, .inl rfl, ?_⟩ <;> (unfold filename; rw [findLast_none.2 h])
    · simp
    · exact h

/-- C67: a configuration or parameter file is accepted iff it exists and its name is a stem, not empty, with the ending
`.yml` in lower case. -/
theorem C67_available (fileExists : Str → Bool) (p : Str) :
    available fileExists p = true ↔ fileExists p = true ∧ IsYml p := by
  unfold available
  simp only [Bool.and_eq_true, decide_eq_true_eq, ne_eq]
  rw [and_assoc]
  refine and_congr_right fun _ => ?_
  constructor
  · rintro ⟨-, he⟩
    obtain ⟨dir, h1, h2, h3⟩ := split_filename p
    generalize filename p = n at h1 h3
    subst h1
    unfold pathExtension at he
    rw [filename_split dir n h2 h3] at he
    split at he
    · simp at he
    · by_cases hdot : '.' ∈ n
      · obtain ⟨a, b, rfl, hb⟩ := exists_last hdot
        rw [findLast_split a b hb] at he
        rcases a with _ | ⟨x, a⟩
        · simp at he
        · simp only [List.length_cons] at he
          have : (x :: a ++ '.' :: b).drop (a.length + 1) = '.' :: b := by
            rw [List.cons_append, List.drop_succ_cons, List.drop_append]
            simp
          rw [this] at he
          refine ⟨dir, x :: a, by rw [he, List.append_assoc], h2, by simp, ?_⟩
          intro hx
          exact h3 (List.mem_append_left _ hx)
      · rw [findLast_none.2 hdot] at he
        simp at he
  · rintro ⟨dir, stem, rfl, h2, h3, h4⟩
    have hn : '/' ∉ stem ++ ".yml".toList := by
      rw [List.mem_append, not_or]
      exact ⟨h4, by decide⟩
    rw [List.append_assoc]
    unfold pathExtension
    rw [filename_split dir _ h2 hn]
    refine ⟨by simp, ?_⟩
    have hy : ".yml".toList = '.' :: "yml".toList := rfl
    have hlen : (stem ++ ".yml".toList).length ≥ 5 := by
      rw [List.length_append]
      have := List.length_pos_of_ne_nil h3
      show stem.length + 4 ≥ 5
      omega
    rw [if_neg, hy, findLast_split stem _ (by decide)]
    · rcases stem with _ | ⟨x, a⟩
      · exact absurd rfl h3
      · simp only [List.length_cons]
        rw [List.cons_append, List.drop_succ_cons, List.drop_append]
        simp
    · rintro (h | h) <;> rw [h] at hlen <;> simp at hlen

/-- C67: `main` with at least one argument runs the workflow, and returns 0 if that ends, iff the first argument is an
existing `.yml` file; otherwise it returns -1 without doing anything.  Without argument it reads a null pointer. -/
theorem C67_main (fileExists : Str → Bool) (workflow : Str → Outcome Unit) (prog : Str) :
    (∀ p rest, fileExists p = true → IsYml p →
      Start.main fileExists workflow (prog :: p :: rest) = workflow p >>= fun _ => .ok 0) ∧
    (∀ p rest, (fileExists p = false ∨ ¬ IsYml p) → Start.main fileExists workflow (prog :: p :: rest) = .ok (-1)) ∧
    Start.main fileExists workflow [prog] = .ub := by
  refine ⟨?_, ?_, rfl⟩
  · intro p rest h1 h2
    unfold Start.main
    simp only [List.getElem?_cons_succ, List.getElem?_cons_zero]
    rw [if_pos ((C67_available fileExists p).2 ⟨h1, h2⟩)]
  · intro p rest h
    unfold Start.main
    simp only [List.getElem?_cons_succ, List.getElem?_cons_zero]
    rw [if_neg]
    rw [C67_available]
    rcases h with h | h
    · rw [h]; simp
    · exact fun hh => h hh.2

/-- C67: a keypoint file is used iff the option names an existing path other than `None`; a path that does not exist is
treated like no path: the boards are detected in the images. -/
theorem C67_keypoints {α : Type} (fileExists : Str → Bool) (load : Str → Outcome α) (detect : Outcome α) :
    (∀ k, k ≠ [] → k ≠ "None".toList → fileExists k = true → boardExtraction fileExists k load detect = load k) ∧
    (∀ k, fileExists k = false → boardExtraction fileExists k load detect = boardExtraction fileExists [] load detect) ∧
    boardExtraction fileExists "None".toList load detect = detect ∧ boardExtraction fileExists [] load detect = detect := by
  refine ⟨fun k h1 h2 h3 => by rw [boardExtraction, if_pos ⟨h1, h2, h3⟩], fun k h => ?_, ?_, ?_⟩
  · simp [boardExtraction, h]
  · simp [boardExtraction]
  · simp [boardExtraction]

/-- The observations can be read: as many pixels as ids, ids of the board. -/
def ReadableObs {P3 P2 : Type} (bpts : List (List P3)) (bo : BoardObs P2) : Prop :=
  ∃ m, bpts[bo.board]? = some m ∧ ∀ i ∈ bo.ids, i < m.length

/-- C67: if the option for the camera parameters names a file that does not exist or is not a `.yml` file, the error is
logged but the run goes on, and the pose of the first board observation is estimated with intrinsics that were never
set. -/
theorem C67_missing_parameters {I P3 P2 Pose : Type} (fileExists : Str → Bool) (params : Str) (h0 : params ≠ [])
    (hN : params ≠ "None".toList) (hbad : fileExists params = false ∨ ¬ IsYml params) (nbCam : Nat)
    (fromFile : Str → Outcome (List I)) (fromImages : Outcome (List I)) :
    ∃ cams, initializeCalibrationAllCam fileExists params nbCam fromFile fromImages = .ok cams ∧
      cams.length = nbCam ∧
      ∀ (search : I → Search P3 P2 Pose) (garbage : Pose) (bpts : List (List P3)) (bo : BoardObs P2)
        (obs : List (BoardObs P2)), ReadableObs bpts bo →
        estimateAllBoards (searchWith cams search) garbage bpts (bo :: obs) = .ub := by
  have hav : available fileExists params = false := by
    by_contra hh
    rw [Bool.not_eq_false, C67_available] at hh
    rcases hbad with h | h
    · rw [h] at hh; simp at hh
    · exact h hh.2
  refine ⟨List.replicate nbCam none, ?_, by simp, ?_⟩
  · rw [initializeCalibrationAllCam, if_pos ⟨h0, hN⟩, if_neg (by simp [hav])]
  · rintro search garbage bpts bo obs ⟨m, hm, hid⟩
    have hs : ∀ k scene image, searchWith (List.replicate nbCam (none : Option I)) search k bo.cam scene image = .ub := by
      intro k scene image
      unfold searchWith Outcome.idx
      by_cases hc : bo.cam < nbCam
      · rw [List.getElem?_eq_getElem (by simpa using hc)]
        simp [Outcome.deref]
      · rw [List.getElem?_eq_none (by simpa using hc)]
        rfl
    unfold estimateAllBoards
    rw [Outcome.foldlM_cons]
    have : boardStep (searchWith (List.replicate nbCam (none : Option I)) search) garbage bpts [] bo = .ub := by
      unfold boardStep
      rw [Outcome.idx_of_getElem? hm, Outcome.bind_ok]
      unfold estimateBoard scenePoints
      rw [Outliers.scenePoints_ok m bo.ids [] hid, Outcome.bind_ok, hs]
      rfl
    rw [this]
    rfl

/-- C67: the pose of every board observation is searched for with the intrinsics of the camera that made it, `intr c` for
camera `c`; those of the other cameras have no influence. -/
theorem C67_own_intrinsics {I P3 P2 Pose : Type} (cams : List (Option I)) (intr : Nat → I)
    (search : I → Search P3 P2 Pose) (garbage : Pose) (bpts : List (List P3)) (obs : List (BoardObs P2))
    (h : ∀ bo ∈ obs, cams[bo.cam]? = some (some (intr bo.cam))) :
    estimateAllBoards (searchWith cams search) garbage bpts obs =
      estimateAllBoards (fun k c => search (intr c) k c) garbage bpts obs := by
  unfold estimateAllBoards
  have hstep : ∀ acc, ∀ bo ∈ obs, boardStep (searchWith cams search) garbage bpts acc bo =
      boardStep (fun k c => search (intr c) k c) garbage bpts acc bo := by
    intro acc bo hbo
    have : searchWith cams search acc.length bo.cam = search (intr bo.cam) acc.length bo.cam := by
      funext scene image
      unfold searchWith
      rw [Outcome.idx_of_getElem? (h bo hbo), Outcome.bind_ok]
      rfl
    unfold boardStep
    rw [this]
  clear h
  generalize ([] : List (Estimated P2 Pose)) = acc
  induction obs generalizing acc with
  | nil => rfl
  | cons bo obs ih =>
    rw [Outcome.foldlM_cons, Outcome.foldlM_cons, hstep acc bo List.mem_cons_self]
    congr 1
    funext acc'
    exact ih (fun acc bo hbo => hstep acc bo (List.mem_cons_of_mem _ hbo)) acc'

/-- C67: with an accepted parameter file every camera has the parameters read from it, without parameter file those
calibrated from the images; the other source is not looked at. -/
theorem C67_parameters {I : Type} (fileExists : Str → Bool) (params : Str) (nbCam : Nat)
    (fromFile : Str → Outcome (List I)) (fromImages : Outcome (List I)) :
    (fileExists params = true → IsYml params →
      initializeCalibrationAllCam fileExists params nbCam fromFile fromImages =
        fromFile params >>= fun l => .ok (l.map some)) ∧
    (params = [] ∨ params = "None".toList →
      initializeCalibrationAllCam fileExists params nbCam fromFile fromImages =
        fromImages >>= fun l => .ok (l.map some)) := by
  constructor
  · intro h1 h2
    have hne : params ≠ [] ∧ params ≠ "None".toList := by
      obtain ⟨dir, stem, rfl, -, hs, -⟩ := h2
      constructor
      · simp [hs]
      · intro hh
        have := congrArg List.getLast? hh
        rw [List.getLast?_append] at this
        simp at this
    rw [initializeCalibrationAllCam, if_pos hne, if_pos ((C67_available _ _).2 ⟨h1, h2⟩)]
  · intro h
    rw [initializeCalibrationAllCam, if_neg]
    rintro ⟨a, b⟩
    rcases h with h | h
    · exact a h
    · exact b h

/-! ### Images -/

/-- C67: the image size of each camera is that of its first image, whatever the sizes of the others; a camera without
images has none.  If the first image of some camera cannot be read, the run is aborted where assertions are compiled
in, and goes on with a size of 0 by 0 otherwise. -/
theorem C67_sizes (debug : Bool) (imread : Str → Option (Nat × Nat)) (glob : Str → List Str) (root pre : Str) (nbCam : Nat) :
    ((∀ c < nbCam, ∀ p, (images glob root pre c).head? = some p → (imread p).isSome = true ∨ debug = false) →
      imageSizes debug imread glob root pre nbCam = .ok ((List.range nbCam).map fun c =>
        (images glob root pre c).head?.map fun p => (imread p).getD (0, 0))) ∧
    ((∃ c < nbCam, ∃ p, (images glob root pre c).head? = some p ∧ imread p = none) → debug = true →
      imageSizes debug imread glob root pre nbCam = .throw) := by
  constructor
  · intro h
    unfold imageSizes
    rw [Lemmas.Collect.foldlM_append_ok (v := fun c =>
      (images glob root pre c).head?.map fun p => (imread p).getD (0, 0))]
    · rfl
    · intro acc c hc
      have hh := h c (List.mem_range.1 hc)
      unfold sizeStep
      cases hi : images glob root pre c with
      | nil => rfl
      | cons p l =>
        rw [hi] at hh
        rcases hh p rfl with hs | hd
        · obtain ⟨sz, hsz⟩ := Option.isSome_iff_exists.1 hs
          simp [firstSize, hsz]
        · cases hr : imread p with
          | some sz => simp [firstSize, hr]
          | none => simp [firstSize, hr, hd]
  · rintro ⟨c, hc, p, hp, hn⟩ rfl
    unfold imageSizes
    have hmem : c ∈ List.range nbCam := List.mem_range.2 hc
    generalize List.range nbCam = l at hmem
    generalize ([] : List (Option (Nat × Nat))) = acc
    induction l generalizing acc with
    | nil => simp at hmem
    | cons x l ih =>
      rw [Outcome.foldlM_cons]
      have step : (∃ y, sizeStep true imread glob root pre acc x = .ok (acc ++ [y])) ∨
          sizeStep true imread glob root pre acc x = .throw := by
        unfold sizeStep
        cases images glob root pre x with
        | nil => exact .inl ⟨none, rfl⟩
        | cons q l =>
          cases hq : imread q with
          | some sz => exact .inl ⟨some sz, by simp [firstSize, hq]⟩
          | none => exact .inr (by simp [firstSize, hq])
      by_cases hx : x = c
      · subst hx
        have : sizeStep true imread glob root pre acc x = .throw := by
          unfold sizeStep
          cases hi : images glob root pre x with
          | nil => rw [hi] at hp; simp at hp
          | cons q l =>
            rw [hi] at hp
            simp only [List.head?_cons, Option.some.injEq] at hp
            subst hp
            simp [firstSize, hn]
        rw [this]
        rfl
      · rcases step with ⟨y, hy⟩ | hy
        · rw [hy, Outcome.bind_ok]
          exact ih (by
            rcases List.mem_cons.1 hmem with h | h
            · exact absurd h.symm hx
            · exact h) _
        · rw [hy]
          rfl

/-- C67: detection in the images, under any schedule of the tasks: each stored observation is an accepted detection in an
image of the folder of its camera; its frame number is the position of the image in the sorted list of that folder, and
its path the path of that image; and nothing else is stored. -/
theorem C67_detected {K P : Type} [Field K] [LinearOrder K] (fitLine : List (K × K) → K × K × K × K) (cfg : Cfg)
    (geoms : List (Geom K)) (raw : Str → Option (Nat → Raw P)) (glob : Str → List Str) (root pre : Str) (nbCam : Nat)
    (ts : List (List (List (Insertion P Str)))) (hts : cameraTasks fitLine cfg geoms raw glob root pre nbCam = .ok ts)
    (l : List (Insertion P Str)) (hl : Schedule ts l) (a : Insertion P Str) :
    (a ∈ l ↔ ∃ c f p t, c < nbCam ∧ (images glob root pre c)[f]? = some p ∧
      detectImage fitLine cfg geoms c f p (raw p) = .ok t ∧ a ∈ t) ∧
    (a ∈ l → a.obs.cam < nbCam ∧ (images glob root pre a.obs.cam)[a.obs.frame]? = some a.path ∧
      a.obs.board < geoms.length) := by
  have hmain : a ∈ l ↔ ∃ c f p t, c < nbCam ∧ (images glob root pre c)[f]? = some p ∧
      detectImage fitLine cfg geoms c f p (raw p) = .ok t ∧ a ∈ t := by
    have hperm := hl.perm
    rw [hperm.mem_iff]
    unfold cameraTasks at hts
    obtain ⟨ys, e1, e2⟩ := Lemmas.Collect.foldlM_append_inv
      (v := fun c => Outcome.foldlM (taskStep fitLine cfg geoms raw c) [] (images glob root pre c).zipIdx)
      (fun acc c => rfl) hts
    rw [List.nil_append] at e1
    subst e1
    have cam : ∀ {c ys}, Outcome.foldlM (taskStep fitLine cfg geoms raw c) [] (images glob root pre c).zipIdx = .ok ys →
        ∀ b, b ∈ ys.flatten ↔ ∃ (f : Nat) (p : Str) (t : List (Insertion P Str)), (images glob root pre c)[f]? = some p ∧
          detectImage fitLine cfg geoms c f p (raw p) = .ok t ∧ b ∈ t := by
      intro c ys h b
      obtain ⟨zs, f1, f2⟩ := Lemmas.Collect.foldlM_append_inv
        (v := fun e : Str × Nat => detectImage fitLine cfg geoms c e.2 e.1 (raw e.1)) (fun acc e => rfl) h
      rw [List.nil_append] at f1
      subst f1
      rw [List.mem_flatten]
      constructor
      · rintro ⟨t, ht, hb⟩
        obtain ⟨i, hi⟩ := List.mem_iff_getElem?.1 ht
        obtain ⟨hi', rfl⟩ := List.getElem?_eq_some_iff.1 hi
        have hlen := f2.length_eq
        have := f2.get (by omega) hi'
        simp only [List.get_eq_getElem, List.getElem_zipIdx, Nat.zero_add] at this
        rw [List.length_zipIdx] at hlen
        exact ⟨i, _, _, List.getElem?_eq_getElem (by omega), this, hb⟩
      · rintro ⟨f, p, t, hp, hd, hb⟩
        obtain ⟨hf, rfl⟩ := List.getElem?_eq_some_iff.1 hp
        have hlen := f2.length_eq
        rw [List.length_zipIdx] at hlen
        have := f2.get (by rw [List.length_zipIdx]; exact hf) (by omega : f < ys.length)
        simp only [List.get_eq_getElem, List.getElem_zipIdx, Nat.zero_add] at this
        rw [this] at hd
        simp only [Outcome.ok.injEq] at hd
        subst hd
        exact ⟨_, List.getElem_mem _, hb⟩
    rw [List.mem_flatMap]
    constructor
    · rintro ⟨u, hu, hb⟩
      obtain ⟨i, hi⟩ := List.mem_iff_getElem?.1 hu
      obtain ⟨hi', rfl⟩ := List.getElem?_eq_some_iff.1 hi
      have hlen := e2.length_eq
      have h1 := e2.get (by omega) hi'
      simp only [List.get_eq_getElem, List.getElem_range] at h1
      obtain ⟨f, p, t', h2, h3, h4⟩ := (cam h1 a).1 hb
      rw [List.length_range] at hlen
      exact ⟨i, f, p, t', by omega, h2, h3, h4⟩
    · rintro ⟨c, f, p, t, hc, hp, hd, hb⟩
      have hlen := e2.length_eq
      rw [List.length_range] at hlen
      have h1 := e2.get (by rw [List.length_range]; exact hc) (by omega : c < ts.length)
      simp only [List.get_eq_getElem, List.getElem_range] at h1
      exact ⟨_, List.getElem_mem _, (cam h1 a).2 ⟨f, p, t, hp, hd, hb⟩⟩
  refine ⟨hmain, fun ha => ?_⟩
  obtain ⟨c, f, p, t, hc, hp, hd, hb⟩ := hmain.1 ha
  obtain ⟨rfl, rfl, rfl, r4⟩ := detectImage_mem hd a hb
  exact ⟨hc, hp, r4⟩

/-! ### Concrete cases -/

/-- C67: names accepted and not accepted. -/
theorem C67_example : ["a.yml", "conf/a.yml", "./..yml", "a.b.yml"].all (fun s => available (fun _ => true) s.toList) = true ∧
    [".yml", "conf/.yml", "a.yaml", "a.YML", "a.yml/", "a", "..", ""].all
      (fun s => !available (fun _ => true) s.toList) = true := by
  decide +kernel

/-- C67: a missing parameter file spoils the run of `Outliers.C55_good`. -/
example : (initializeCalibrationAllCam (fun _ => false) "cams.yml".toList 1 (fun _ => .ok [()]) (.ok [()]) >>= fun cams =>
      estimateAllBoards (searchWith cams fun _ => Outliers.search) 1 [[0, 1, 2, 3, 4]] [⟨0, 0, 0, [0, 1, 2, 3, 4], [0, 1, 2, 3, 4]⟩]
      >>= fun _ => .ok ()) = .ub := by
  decide +kernel

/-- C67: the first camera has two images of different sizes, the second none. -/
example : imageSizes true (fun p => if p = "d/Cam_001/a.png".toList then some (640, 480) else some (1, 1))
    (fun d => if d = "d/Cam_001".toList then ["d/Cam_001/a.png".toList, "d/Cam_001/b.png".toList] else [])
    "d".toList "Cam_".toList 2 = .ok [some (640, 480), none] := by
  decide +kernel

/-- Two cameras with intrinsics 3 and 5 that see one board: the pose of each observation is made of its own camera's. -/
example : estimateAllBoards (P3 := Nat) (P2 := Nat) (searchWith [some 3, some 5] fun (i : Nat) _ _ _ _ => .ok ([0], i)) 0 [[0]]
      [⟨0, 0, 0, [7], [0]⟩, ⟨1, 0, 0, [8], [0]⟩] =
    .ok [⟨⟨0, 0, 0, [7], [0]⟩, false, 3⟩, ⟨⟨1, 0, 0, [8], [0]⟩, false, 5⟩] := by
  rw [C67_own_intrinsics _ (fun c => if c = 0 then 3 else 5) _ _ _ _ (by decide)]
  rfl

end Verif.Props.Start
