import Verif.Spec.Images
import Verif.Props.Report
import Verif.Props.Folders

/-!
C64: the reprojection images; C65: the detection images.
-/
namespace Verif.Props.Images
open Verif Verif.Images Verif.Spec.Images Verif.Spec.Report Verif.Objects Verif.Groups Verif.Output Verif.Folders
open Verif.Props.Folders

variable {V G Pt Path Img : Type}

/-! ### Loops -/

/-- A loop whose rounds append lists. -/
private theorem appends {α β : Type} {f : List β → α → Outcome (List β)} {v : α → List β} {l : List α}
    (h : ∀ acc, ∀ x ∈ l, f acc x = .ok (acc ++ v x)) (acc : List β) :
    Outcome.foldlM f acc l = .ok (acc ++ l.flatMap v) := by
  induction l generalizing acc with
  | nil => simp [Outcome.foldlM_nil]
  | cons x l ih =>
    rw [Outcome.foldlM_cons, h acc x (by simp), Outcome.bind_ok, ih fun acc y hy => h acc y (by simp [hy])]
    simp

private theorem only {β : Type} (l : List Nat) (hl : l.Nodup) (i : Nat) (hi : i ∈ l) (F : Nat → List β)
    (h : ∀ j ∈ l, j ≠ i → F j = []) : l.flatMap F = F i := by
  induction l with
  | nil => simp at hi
  | cons j l ih =>
    rw [List.flatMap_cons]
    rw [List.nodup_cons] at hl
    by_cases hj : j = i
    · subst hj
      have : l.flatMap F = [] := by
        rw [List.flatMap_eq_nil_iff]
        intro k hk
        exact h k (by simp [hk]) fun hkj => hl.1 (hkj ▸ hk)
      rw [this, List.append_nil]
    · rw [h j (by simp) hj, List.nil_append]
      exact ih hl.2 (by simpa [Ne.symm hj] using hi) fun k hk => h k (by simp [hk])

private theorem circle_mark : circle = mark := by
  funext colour q
  simp only [circle, mark, toInt, cut, Int.floor_neg, neg_neg]

private theorem circles_ok (ps : List (ℝ × ℝ)) (qs : List (ℝ × ℝ)) (h : qs.length = ps.length) (acc : List Circle) :
    Outcome.foldlM (circleStep qs ps) acc (List.range qs.length) =
      .ok (acc ++ (ps.zip qs).flatMap fun e => [circle red e.1, circle green e.2]) := by
  rw [appends (v := fun i => match ps[i]?, qs[i]? with
    | some p, some q => [circle red p, circle green q]
    | _, _ => [])]
  · congr 2
    induction qs generalizing ps with
    | nil => cases ps <;> simp_all
    | cons q qs ih =>
      cases ps with
      | nil => simp at h
      | cons p ps =>
        rw [List.length_cons, List.range_succ_eq_map, List.flatMap_cons, List.flatMap_map]
        have := ih ps (by simpa using h)
        simp only [List.getElem?_cons_succ, List.getElem?_cons_zero, List.zip_cons_cons, List.flatMap_cons]
        rw [this]
  · intro acc i hi
    have hi := List.mem_range.1 hi
    unfold circleStep
    rw [Outcome.idx_of_getElem? (List.getElem?_eq_getElem (show i < ps.length by omega)), Outcome.bind_ok,
      Outcome.idx_of_getElem? (List.getElem?_eq_getElem hi), Outcome.bind_ok,
      List.getElem?_eq_getElem (show i < ps.length by omega), List.getElem?_eq_getElem hi]
    rfl

private theorem split_cams {β : Type} (E : ObjObs (ℝ × ℝ) → List β) (cams : List Nat) (c f : Nat)
    (oo : List (ObjObs (ℝ × ℝ))) :
    ((oo.filter fun o => o.frame == f && decide (o.cam ∈ cams)).flatMap fun o =>
      if o.cam = c then E o else []) =
    if c ∈ cams then (oo.filter fun o => o.frame == f && o.cam == c).flatMap E else [] := by
  induction oo with
  | nil => simp
  | cons o oo ih =>
    rw [List.filter_cons, List.filter_cons]
    by_cases h1 : o.frame = f
    · by_cases h2 : o.cam = c
      · subst h2
        by_cases h3 : o.cam ∈ cams
        · simp [h1, h3] at ih ⊢; exact ih
        · simp [h1, h3] at ih ⊢; exact ih
      · by_cases h3 : o.cam ∈ cams
        · simp [h1, h2, h3] at ih ⊢; exact ih
        · simp [h1, h2, h3] at ih ⊢; exact ih
    · simp [h1] at ih ⊢; exact ih

section
variable [Group G] [MulAction G Pt] {sc : Output.Scene V G Pt} {frames : List Nat} {r : Reading G Pt}

/-- The group poses of the object observations are those of their group observations. -/
def PosesSet (sc : Output.Scene V G Pt) (r : Reading G Pt) (gp : Nat → V) : Prop :=
  ∀ (i : Nat) o, sc.oo[i]? = some o → sc.ofVec (gp i) = r.objPose (r.group o.cam) o.frame o.obj

private theorem obs_ok (h : Holds sc frames r) {gp : Nat → V} (hgp : PosesSet sc r gp) {i : Nat}
    {o : ObjObs (ℝ × ℝ)} (ho : sc.oo[i]? = some o) {gi : Nat} {g : CamGroup G}
    (hg : OMap.get? sc.t.groups gi = some g) (hc : o.cam ∈ OMap.keys g.cameras) (c : Nat) (acc : List Circle) :
    drawReprojection sc gp c gi acc i = .ok (acc ++ if o.cam = c then
      (expected r o).flatMap fun e => [circle red e.1, circle green e.2] else []) := by
  have hmem := List.mem_of_getElem? ho
  obtain ⟨obj, h1, h2⟩ := h.pts o hmem
  unfold drawReprojection
  rw [Outcome.idx_of_getElem? ho, Outcome.bind_ok]
  simp only [hg, h1]
  by_cases hcc : o.cam = c
  · subst hcc
    rw [if_pos rfl, if_pos rfl, Report.points_ok h2, Outcome.bind_ok, h.camPose gi g o.cam hg hc, hgp i o ho]
    have hne : o.ids.map (r.pt o.obj) ≠ [] := by simpa using h.nonempty o hmem
    have hproj : project sc o.cam (r.camPose o.cam * r.objPose (r.group o.cam) o.frame o.obj) (o.ids.map (r.pt o.obj)) =
        .ok ((o.ids.map (r.pt o.obj)).map fun p =>
          r.pix o.cam ((r.camPose o.cam * r.objPose (r.group o.cam) o.frame o.obj) • p)) := by
      unfold project
      rcases h.model o hmem with hm | hm
      · rw [if_pos hm]; exact h.brown _ _ _ hne
      · rw [if_neg (by omega), if_pos hm]; exact h.kannala _ _ _ hne
    rw [Option.getD_some, hproj, Outcome.bind_ok, circles_ok _ _ (by simp [h.aligned o hmem])]
    congr 2
    unfold expected
    have hlen := h.aligned o hmem
    generalize o.ids = ids at hlen
    generalize o.pts = pts at hlen
    clear h1 h2 hne hproj
    induction pts generalizing ids with
    | nil => cases ids <;> simp_all
    | cons q pts ih =>
      cases ids with
      | nil => simp at hlen
      | cons k ids =>
        have := ih ids (by simpa using hlen)
        simp only [List.map_cons, List.zip_cons_cons, List.flatMap_cons, mul_smul] at this ⊢
        rw [this]
  · rw [if_neg hcc, if_neg hcc, List.append_nil]; rfl

/-- The rounds over the groups of a frame: what is drawn for camera `c` if each observation of a camera adds `E`. -/
private theorem frame_flat (h : Holds sc frames r) {β : Type} (E : ObjObs (ℝ × ℝ) → List β) (c f : Nat) :
    (((OMap.get? sc.t.frameGroups f).getD []).flatMap fun gi =>
      ((OMap.get? sc.t.groupObs (gi, f)).getD []).flatMap fun i =>
        match sc.oo[i]? with
        | some o => if o.cam = c then E o else []
        | none => []) = (seenBy sc.oo c f).flatMap E := by
  have hF : ∀ gi g, OMap.get? sc.t.groups gi = some g →
      (((OMap.get? sc.t.groupObs (gi, f)).getD []).flatMap fun i =>
        match sc.oo[i]? with
        | some o => if o.cam = c then E o else []
        | none => []) =
      if f ∈ frames ∧ c ∈ OMap.keys g.cameras then (seenBy sc.oo c f).flatMap E else [] := by
    intro gi g hg
    have hobs : (OMap.get? sc.t.groupObs (gi, f)).getD [] = if f ∈ frames then
        Spec.Store.positions (fun o : ObjObs (ℝ × ℝ) => o.frame == f && decide (o.cam ∈ OMap.keys g.cameras)) sc.oo
        else [] := by
      cases hx : OMap.get? sc.t.groupObs (gi, f) with
      | some is =>
        obtain ⟨g', hg', hf, -, rfl⟩ := (h.groupObs.obs gi f is).1 hx
        rw [hg] at hg'; cases hg'
        rw [if_pos hf]; rfl
      | none =>
        split
        · rename_i hf
          by_contra hne
          have := (h.groupObs.obs gi f _).2 ⟨g, hg, hf, fun h => hne (by rw [h]; rfl), rfl⟩
          rw [hx] at this; cases this
        · rfl
    rw [hobs]
    by_cases hf : f ∈ frames
    · rw [if_pos hf]
      have hcv : ∀ is : List Nat, (is.flatMap fun i => match sc.oo[i]? with
          | some o => if o.cam = c then E o else []
          | none => []) = (is.map fun i => sc.oo[i]?).flatMap fun x => match x with
          | some o => if o.cam = c then E o else []
          | none => [] := by intro is; rw [List.flatMap_map]
      rw [hcv, Report.positions_map, List.flatMap_map]
      unfold seenBy
      rw [split_cams]
      simp [hf]
    · simp [hf]
  by_cases hs : seenBy sc.oo c f = []
  · rw [hs, List.flatMap_nil, List.flatMap_eq_nil_iff]
    intro gi hgi
    rw [h.frameGroups] at hgi
    obtain ⟨g, hg⟩ := OMap.mem_keys.1 (List.mem_filter.1 hgi).1
    rw [hF gi g hg, hs]; simp
  · obtain ⟨o, ho⟩ := List.exists_mem_of_ne_nil _ hs
    have ho' := List.mem_filter.1 ho
    simp only [Bool.and_eq_true, beq_iff_eq] at ho'
    obtain ⟨hmem, hof, hoc⟩ := ho'
    obtain ⟨g, hg, hcg⟩ := h.group o hmem
    have hf : f ∈ frames := hof ▸ h.frame o hmem
    rw [hoc] at hg hcg
    rw [h.frameGroups, only _ ((OMap.keys_nodup h.groups.sorted).filter _) (r.group c)]
    · rw [hF _ g hg, if_pos ⟨hf, hcg⟩]
    · rw [List.mem_filter]
      refine ⟨OMap.mem_keys.2 ⟨g, hg⟩, ?_⟩
      rw [(h.groupObs.obs (r.group c) f _).2 ⟨g, hg, hf, ?_, rfl⟩]
      · rfl
      · obtain ⟨k, hk⟩ := List.mem_iff_getElem?.1 hmem
        refine List.ne_nil_of_mem (a := k) ?_
        exact (Props.Store.positions_get _ _ _).2 ⟨o, hk, by simp [hof, hoc, hcg]⟩
    · intro j hj hne
      obtain ⟨g', hg'⟩ := OMap.mem_keys.1 (List.mem_filter.1 hj).1
      rw [hF j g' hg', if_neg]
      rintro ⟨-, hc⟩
      exact hne (h.groups.disjoint _ _ g' g hg' hg c hc hcg)

private theorem mem_groupObs (h : Holds sc frames r) {f gi i : Nat}
    (hgi : gi ∈ (OMap.get? sc.t.frameGroups f).getD []) (hi : i ∈ (OMap.get? sc.t.groupObs (gi, f)).getD []) :
    ∃ g o, OMap.get? sc.t.groups gi = some g ∧ sc.oo[i]? = some o ∧ o.cam ∈ OMap.keys g.cameras := by
  cases hx : OMap.get? sc.t.groupObs (gi, f) with
  | none => rw [hx] at hi; simp at hi
  | some is =>
    rw [hx] at hi
    obtain ⟨g, hg, -, -, rfl⟩ := (h.groupObs.obs gi f is).1 hx
    obtain ⟨o, ho, hp⟩ := (Props.Store.positions_get _ _ _).1 hi
    simp only [Bool.and_eq_true, beq_iff_eq, decide_eq_true_eq] at hp
    exact ⟨g, o, hg, ho, hp.2⟩

private theorem files_ok {f : List (Written Img) → Nat × FrameRec Path → Outcome (List (Written Img))}
    {fr : OMap Nat (FrameRec Path)} {imread : Path → Option Img} {emptyPath : Path} {save kind : Str} {c : Nat}
    {draw : Nat → List Circle}
    (h : ∀ out e, f out e = .ok (write save kind c e.1 (imread ((OMap.get? e.2.paths c).getD emptyPath)) (draw e.1) out)) :
    Outcome.foldlM f [] fr = .ok (files imread emptyPath save kind fr c draw) := by
  rw [appends (v := fun e => ((imread ((OMap.get? e.2.paths c).getD emptyPath)).map fun im =>
    (⟨imageFile save kind c e.1, im, draw e.1⟩ : Written Img)).toList)]
  · unfold files
    rw [List.nil_append, ← List.filterMap_eq_flatMap_toList]
  · intro out e _
    rw [h]
    unfold write
    cases imread ((OMap.get? e.2.paths c).getD emptyPath) <;> simp

/-- C64: the reprojection images of a camera: one file per frame in which the camera has a readable image, with a red
circle where each corner seen by the camera in that frame is expected (by the cameras, objects and poses that the error
file and the average are computed from) and a green one where it was seen. -/
theorem C64_images (h : Holds sc frames r) {gp : Nat → V} (hgp : PosesSet sc r gp) (imread : Path → Option Img)
    (emptyPath : Path) (save : Str) (fr : OMap Nat (FrameRec Path)) (c : Nat) :
    saveReprojectionImages sc gp imread emptyPath save fr c =
      .ok (files imread emptyPath save "Reprojection".toList fr c (reprojections r sc.oo c)) := by
  unfold saveReprojectionImages
  refine files_ok fun out e => ?_
  unfold reprojectionFrame
  rw [appends (v := fun gi => ((OMap.get? sc.t.groupObs (gi, e.1)).getD []).flatMap fun i =>
        match sc.oo[i]? with
        | some o => if o.cam = c then (expected r o).flatMap fun e => [circle red e.1, circle green e.2] else []
        | none => [])]
  · rw [List.nil_append, frame_flat h, Outcome.bind_ok]; simp only [circle_mark]; rfl
  · intro acc gi hgi
    unfold drawGroup
    refine appends ?_ acc
    intro acc i hi
    obtain ⟨g, o, hg, ho, hc⟩ := mem_groupObs h hgi hi
    rw [obs_ok h hgp ho hg hc]
    simp only [ho]

/-- C64: the distances of the error file and of the average (C40, C41) are the distances between the two points drawn
for each corner, before rounding to pixels. -/
theorem C64_distances (o : ObjObs (ℝ × ℝ)) :
    errors r o = (expected r o).map fun e => Real.sqrt ((e.2.1 - e.1.1) ^ 2 + (e.2.2 - e.1.2) ^ 2) := by
  unfold errors expected
  rw [List.map_map]; rfl

/-- C64: the poses the images are drawn with are those of the last refinement: `updateObjObsPose`, which follows each
refinement, copies the poses of the objects in the group observations to all object observations, whatever was there
before. -/
theorem C64_poses (h : Holds sc frames r) (zero : V) (gp0 : Nat → V) :
    ∃ gp, updateAll sc zero gp0 = .ok gp ∧ PosesSet sc r gp := by
  let value : Nat → V := fun i => match sc.oo[i]? with
    | some o => ((OMap.get? sc.op (r.group o.cam, o.frame)).bind fun m => OMap.get? m o.obj).getD zero
    | none => zero
  have hkey : ∀ e ∈ sc.t.groupObs, ∀ i ∈ e.2, ∃ o, sc.oo[i]? = some o ∧ e.1 = (r.group o.cam, o.frame) := by
    rintro ⟨⟨gi, f⟩, is⟩ he i hi
    have hx := (OMap.get?_eq_some h.groupObs.sorted).2 he
    obtain ⟨g, hg, -, -, rfl⟩ := (h.groupObs.obs gi f is).1 hx
    obtain ⟨o, ho, hp⟩ := (Props.Store.positions_get _ _ _).1 hi
    simp only [Bool.and_eq_true, beq_iff_eq, decide_eq_true_eq] at hp
    obtain ⟨g', hg', hc'⟩ := h.group o (List.mem_of_getElem? ho)
    refine ⟨o, ho, ?_⟩
    rw [h.groups.disjoint _ _ g' g hg' hg o.cam hc' hp.2, hp.1]
  have hone : ∀ (k : Nat × Nat) (is : List Nat), (∀ i ∈ is, ∃ o, sc.oo[i]? = some o ∧ k = (r.group o.cam, o.frame)) →
      ∀ gp : Nat → V, Outcome.foldlM (updateObs sc zero k) gp is = .ok fun j => if j ∈ is then value j else gp j := by
    intro k is
    induction is with
    | nil => intro _ gp; simp [Outcome.foldlM_nil]
    | cons i is ih =>
      intro hk gp
      obtain ⟨o, ho, hko⟩ := hk i (by simp)
      rw [Outcome.foldlM_cons, updateObs, Outcome.idx_of_getElem? ho, Outcome.bind_ok]
      simp only [Outcome.pure_eq, Outcome.bind_ok]
      rw [ih fun j hj => hk j (by simp [hj])]
      congr 1
      funext j
      by_cases hj : j ∈ is
      · simp [hj]
      · by_cases hji : j = i
        · subst hji
          simp only [if_neg hj, if_true, List.mem_cons, true_or]
          simp only [value, ho, hko]
        · simp [hj, hji]
  have hall : ∀ l : List ((Nat × Nat) × List Nat), (∀ e ∈ l, e ∈ sc.t.groupObs) → ∀ gp : Nat → V,
      Outcome.foldlM (updateObjObsPose sc zero) gp l = .ok fun j => if ∃ e ∈ l, j ∈ e.2 then value j else gp j := by
    intro l
    induction l with
    | nil => intro _ gp; simp [Outcome.foldlM_nil]
    | cons e l ih =>
      intro hl gp
      rw [Outcome.foldlM_cons, updateObjObsPose, hone e.1 e.2 (hkey e (hl e (by simp))), Outcome.bind_ok,
        ih fun e' he' => hl e' (by simp [he'])]
      congr 1
      funext j
      by_cases h1 : ∃ e ∈ l, j ∈ e.2
      · have h2 : ∃ e' ∈ e :: l, j ∈ e'.2 := by
          obtain ⟨e', he', hj⟩ := h1; exact ⟨e', by simp [he'], hj⟩
        rw [if_pos h1, if_pos h2]
      · rw [if_neg h1]
        by_cases h3 : j ∈ e.2
        · rw [if_pos h3, if_pos ⟨e, by simp, h3⟩]
        · rw [if_neg h3, if_neg]
          rintro ⟨e', he', hj⟩
          rcases List.mem_cons.1 he' with rfl | he'
          · exact h3 hj
          · exact h1 ⟨e', he', hj⟩
  refine ⟨_, hall sc.t.groupObs (fun e he => he) gp0, ?_⟩
  intro i o ho
  have hmem := List.mem_of_getElem? ho
  obtain ⟨g, hg, hc⟩ := h.group o hmem
  have hx := (h.groupObs.obs (r.group o.cam) o.frame _).2 ⟨g, hg, h.frame o hmem, List.ne_nil_of_mem (a := i)
    ((Props.Store.positions_get _ _ _).2 ⟨o, ho, by simp [hc]⟩), rfl⟩
  have hin : ∃ e ∈ sc.t.groupObs, i ∈ e.2 :=
    ⟨_, (OMap.get?_eq_some h.groupObs.sorted).1 hx, (Props.Store.positions_get _ _ _).2 ⟨o, ho, by simp [hc]⟩⟩
  obtain ⟨m, v, h1, h2, h3⟩ := h.objPose o hmem
  simp only [if_pos hin, value, ho, h1, Option.bind_some, h2, Option.getD_some, h3]

/-- C65: the detection images of a camera: one file per frame in which the camera has a readable image, with a circle,
in the colour of the object, where each corner was seen by the camera in that frame. -/
theorem C65_images (h : Holds sc frames r) (colour : Nat → Int × Int × Int) (imread : Path → Option Img)
    (emptyPath : Path) (save : Str) (fr : OMap Nat (FrameRec Path)) (c : Nat) :
    saveDetectionImages sc colour imread emptyPath save fr c =
      .ok (files imread emptyPath save "Detection".toList fr c (detections colour sc.oo c)) := by
  unfold saveDetectionImages
  refine files_ok fun out e => ?_
  unfold detectionFrame
  rw [appends (v := fun gi => ((OMap.get? sc.t.groupObs (gi, e.1)).getD []).flatMap fun i =>
        match sc.oo[i]? with
        | some o => if o.cam = c then o.pts.map (circle (colour o.obj)) else []
        | none => [])]
  · rw [List.nil_append, frame_flat h, Outcome.bind_ok]; simp only [circle_mark]; rfl
  · intro acc gi hgi
    unfold detectGroup
    refine appends ?_ acc
    intro acc i hi
    obtain ⟨g, o, hg, ho, hc⟩ := mem_groupObs h hgi hi
    obtain ⟨obj, h1, -⟩ := h.pts o (List.mem_of_getElem? ho)
    unfold drawDetection
    rw [Outcome.idx_of_getElem? ho, Outcome.bind_ok]
    simp only [h1, ho]
    split <;> simp

end

/-! ### File names -/

theorem paddedTo_value (w n : Nat) : value (paddedTo w n) = n := by
  unfold paddedTo
  rw [value_append]
  have : ∀ k, value (List.replicate k '0') = 0 := by
    intro k
    induction k with
    | zero => rfl
    | succ k ih =>
      rw [List.replicate_succ', value_append, ih]; rfl
  rw [this]
  exact value_decimal n

theorem paddedTo_digit (w n : Nat) : ∀ x ∈ paddedTo w n, ∃ d < 10, x = digitChar d := by
  intro x hx
  unfold paddedTo at hx
  rcases List.mem_append.1 hx with h | h
  · exact ⟨0, by omega, List.eq_of_mem_replicate h⟩
  · exact decimal_digits n x h

theorem paddedTo_no_slash (w n : Nat) : '/' ∉ paddedTo w n := by
  intro h
  obtain ⟨d, hd, h⟩ := paddedTo_digit w n _ h
  exact digitChar_ne_slash d hd h.symm

theorem paddedTo_ne_nil (w n : Nat) : paddedTo w n ≠ [] := by
  unfold paddedTo
  simp [decimal_ne_nil]

private theorem join_slash {a b : Str} (ha : a ≠ []) (ha' : a.getLast? ≠ some '/') (hb : b.head? ≠ some '/') :
    join a b = a ++ '/' :: b := by
  unfold join
  rw [if_neg hb, if_neg (by simp [ha, ha'])]

private theorem last_slash {a b r s : Str} (hr : '/' ∉ r) (hs : '/' ∉ s) (h : a ++ '/' :: r = b ++ '/' :: s) :
    a = b ∧ r = s := by
  have h' := congrArg List.reverse h
  simp only [List.reverse_append, List.reverse_cons, List.append_assoc, List.singleton_append] at h'
  have h1 := split_slash (by simpa using hr) (by simpa using hs) h'
  have h2 : r = s := List.reverse_injective h1
  subst h2
  exact ⟨by simpa using h, rfl⟩

private theorem imageFile_eq (save kind : Str) (hk : kind ≠ []) (hk1 : kind.head? ≠ some '/')
    (hk2 : kind.getLast? ≠ some '/') (c f : Nat) :
    imageFile save kind c f = (join save kind ++ '/' :: paddedTo 3 c) ++ '/' :: (paddedTo 6 f ++ ".jpg".toList) := by
  have hlast : ∃ pre, join save kind = pre ++ kind := by
    unfold join
    rw [if_neg hk1]
    split
    · exact ⟨save, rfl⟩
    · exact ⟨save ++ ['/'], by simp⟩
  obtain ⟨pre, hpre⟩ := hlast
  have h1 : join (join save kind) (paddedTo 3 c) = join save kind ++ '/' :: paddedTo 3 c := by
    apply join_slash
    · rw [hpre]; simp [hk]
    · rw [hpre, List.getLast?_append_of_ne_nil _ hk]; exact hk2
    · exact fun h => paddedTo_no_slash 3 c (List.mem_of_head? h)
  unfold imageFile
  rw [h1, join_slash]
  · simp
  · intro h
    rw [List.getLast?_append_of_ne_nil _ (by simp)] at h
    have hm := List.mem_of_getLast? h
    rw [List.getLast?_cons_of_ne_nil (paddedTo_ne_nil 3 c)] at h
    exact paddedTo_no_slash 3 c (List.mem_of_getLast? h)
  · intro h
    rw [List.head?_append_of_ne_nil _ (paddedTo_ne_nil 6 f)] at h
    exact paddedTo_no_slash 6 f (List.mem_of_head? h)

private theorem decimal_le (w n : Nat) (hw : 0 < w) (h : n < 10 ^ w) : (decimal n).length ≤ w := by
  induction w generalizing n with
  | zero => omega
  | succ w ih =>
    unfold decimal
    split
    · simp
    · rename_i h10
      have hw' : 0 < w := by
        rcases Nat.eq_zero_or_pos w with h0 | h0
        · subst h0; simp at h; omega
        · exact h0
      rw [List.length_append, List.length_singleton]
      have := ih (n / 10) hw' (by rw [Nat.div_lt_iff_lt_mul (by decide)]; rwa [pow_succ] at h)
      omega

/-- C64, C65: the name of a file: under the directory of the kind of image, a directory named by the camera and a file
named by the frame, in decimal digits, of three and six places for numbers that fit in them. -/
theorem C64_name (save kind : Str) (hk : kind = "Reprojection".toList ∨ kind = "Detection".toList) (c f : Nat) :
    ∃ dc df : Str, imageFile save kind c f = join save kind ++ '/' :: dc ++ '/' :: (df ++ ".jpg".toList) ∧
      value dc = c ∧ value df = f ∧ (∀ x ∈ dc, x.isDigit) ∧ (∀ x ∈ df, x.isDigit) ∧
      (c < 1000 → dc.length = 3) ∧ (f < 1000000 → df.length = 6) := by
  have p : kind ≠ [] ∧ kind.head? ≠ some '/' ∧ kind.getLast? ≠ some '/' := by
    rcases hk with rfl | rfl <;> decide
  have hd : ∀ w n, ∀ x ∈ paddedTo w n, x.isDigit := by
    intro w n x hx
    obtain ⟨d, hd, rfl⟩ := paddedTo_digit w n x hx
    interval_cases d <;> decide
  have hlen : ∀ w n, 0 < w → n < 10 ^ w → (paddedTo w n).length = w := by
    intro w n hw hn
    unfold paddedTo
    have := decimal_le w n hw hn
    rw [List.length_append, List.length_replicate]
    omega
  exact ⟨paddedTo 3 c, paddedTo 6 f, imageFile_eq save kind p.1 p.2.1 p.2.2 c f, paddedTo_value 3 c,
    paddedTo_value 6 f, hd 3 c, hd 6 f, fun h => hlen 3 c (by decide) (by simpa using h),
    fun h => hlen 6 f (by decide) (by simpa using h)⟩

/-- C64, C65: no two images have the same file: neither of two cameras, nor of two frames, nor a reprojection and a
detection image. -/
theorem C64_file_names (save kind kind' : Str) (hk : kind = "Reprojection".toList ∨ kind = "Detection".toList)
    (hk' : kind' = "Reprojection".toList ∨ kind' = "Detection".toList) (c c' f f' : Nat)
    (h : imageFile save kind c f = imageFile save kind' c' f') : kind = kind' ∧ c = c' ∧ f = f' := by
  have p : ∀ k : Str, k = "Reprojection".toList ∨ k = "Detection".toList →
      k ≠ [] ∧ k.head? ≠ some '/' ∧ k.getLast? ≠ some '/' ∧ '/' ∉ k := by
    rintro k (rfl | rfl) <;> decide
  obtain ⟨a1, a2, a3, a4⟩ := p kind hk
  obtain ⟨b1, b2, b3, b4⟩ := p kind' hk'
  rw [imageFile_eq save kind a1 a2 a3, imageFile_eq save kind' b1 b2 b3] at h
  have hj : ∀ n, '/' ∉ paddedTo 6 n ++ ".jpg".toList := by
    intro n hn
    rcases List.mem_append.1 hn with hn | hn
    · exact paddedTo_no_slash 6 n hn
    · revert hn; decide
  obtain ⟨h1, h2⟩ := last_slash (hj f) (hj f') h
  obtain ⟨h3, h4⟩ := last_slash (paddedTo_no_slash 3 c) (paddedTo_no_slash 3 c') h1
  refine ⟨?_, ?_, ?_⟩
  · unfold join at h3
    rw [if_neg a2, if_neg b2] at h3
    split at h3
    · exact List.append_cancel_left h3
    · have := List.append_cancel_left h3
      exact (List.cons.inj this).2
  · rw [← paddedTo_value 3 c, h4, paddedTo_value]
  · rw [← paddedTo_value 6 f, List.append_cancel_right h2, paddedTo_value]

/-- C64, C65: there is a file for a frame iff the camera has a readable image in it; there are no other files. -/
theorem C64_files (imread : Path → Option Img) (emptyPath : Path) (save kind : Str)
    (fr : OMap Nat (FrameRec Path)) (hfr : OMap.Sorted fr) (c : Nat) (draw : Nat → List Circle) (w : Written Img) :
    w ∈ files imread emptyPath save kind fr c draw ↔ ∃ f e im, OMap.get? fr f = some e ∧
      imread ((OMap.get? e.paths c).getD emptyPath) = some im ∧ w = ⟨imageFile save kind c f, im, draw f⟩ := by
  unfold files
  rw [List.mem_filterMap]
  constructor
  · rintro ⟨⟨f, e⟩, he, hw⟩
    rw [Option.map_eq_some_iff] at hw
    obtain ⟨im, h1, h2⟩ := hw
    exact ⟨f, e, im, (OMap.get?_eq_some hfr).2 he, h1, h2.symm⟩
  · rintro ⟨f, e, im, h1, h2, rfl⟩
    exact ⟨(f, e), (OMap.get?_eq_some hfr).1 h1, by simp [h2]⟩

example : imageFile "out".toList "Reprojection".toList 2 41 = "out/Reprojection/002/000041.jpg".toList := by
  decide +kernel

/-- The scene of C41 (two groups): the poses can be set, and camera 0 gets one image, with the corner expected at
(1, 2) and seen at (4, 6). -/
example : ∃ gp, updateAll Report.demo 1 (fun _ => 1) = .ok gp ∧ ∃ ws, saveReprojectionImages Report.demo gp
    (fun p : Nat => if p = 0 then none else some p) 0 "out".toList
    [(3, { paths := [(0, 17)] }), (5, { paths := [(1, 18)] })] 0 = .ok ws ∧
    ws.map (fun w => (w.image, w.circles.length)) = [(17, 2)] := by
  obtain ⟨gp, h1, h2⟩ := C64_poses Report.demo_holds (1 : Rigid.Pose ℝ) (fun _ => 1)
  refine ⟨gp, h1, _, C64_images Report.demo_holds h2 _ _ _ _ _, ?_⟩
  simp only [files, List.filterMap_cons, List.filterMap_nil, OMap.get?, if_true, Option.getD_some, Option.map_some,
    show ¬ (17 = 0) by decide, if_false, show ¬ (1 = 0) by decide, Option.getD_none, Option.map_none, List.map_cons,
    List.map_nil]
  simp [reprojections, seenBy, Report.demo, expected]

/-- Without a projection for the model of the camera (neither 0 nor 1), an observation with a corner makes the drawing
read out of range. -/
theorem C64_unsupported [Group G] (sc : Output.Scene V G Pt) (gp : Nat → V) (c gi i : Nat) (acc : List Circle)
    (x : ObjObs (ℝ × ℝ)) (hx : sc.oo[i]? = some x) (g : CamGroup G) (hg : OMap.get? sc.t.groups gi = some g)
    (obj : Object G Pt) (hobj : OMap.get? sc.objs x.obj = some obj) (hc : x.cam = c)
    (hids : ∀ k ∈ x.ids, k < obj.pts.length) (hp : x.pts ≠ []) (hm : sc.model c ≠ 0 ∧ sc.model c ≠ 1) :
    drawReprojection sc gp c gi acc i = .ub := by
  unfold drawReprojection
  rw [Outcome.idx_of_getElem? hx, Outcome.bind_ok]
  simp only [hg, hobj]
  have hpts : ∃ ps, Outcome.foldlM (pointStep obj) [] x.ids = .ok ps := by
    refine ⟨_, Lemmas.Collect.foldlM_steps (g := fun acc k => acc ++ (obj.pts[k]?).toList) ?_ []⟩
    intro s k hk
    unfold pointStep
    have := List.getElem?_eq_getElem (hids k hk)
    rw [Outcome.idx_of_getElem? this, this]; rfl
  obtain ⟨ps, hps⟩ := hpts
  rw [if_pos hc, hps, Outcome.bind_ok, project, if_neg hm.1, if_neg hm.2, Outcome.bind_ok]
  obtain ⟨q, qs, hq⟩ := List.exists_cons_of_ne_nil hp
  rw [hq, List.length_cons, List.range_succ_eq_map, Outcome.foldlM_cons]
  rfl

end Verif.Props.Images
