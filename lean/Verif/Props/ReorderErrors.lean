import Verif.Props.ReorderRun
import Verif.Props.Finish
import Verif.Props.Report

/-! C97: the reprojection errors reported for the same images in another order. -/
namespace Verif.Props.ReorderErrors
open Verif Verif.Objects Verif.Groups Verif.Pipeline Verif.Spec.Store Verif.Spec.Schedule Verif.Spec.Reorder Verif.Spec.Report
open Verif.Props.Finish Verif.Lemmas.FinishRun
open Verif.Props.Trust (Unordered)

variable {V G Pt K Path Img : Type}

/-- What is reported of an object observation in the second run is what `F` gives for it in the first. -/
theorem filterMap_same {P B : Type} {σ : Equiv.Perm Nat} {oo oo' : List (ObjObs P)} (h : SameObjects σ oo oo') (F F' : ObjObs P → Option B)
    (hu : ∀ o, F' (unnumbered o) = F' o) (hF : ∀ o ∈ oo, F' (renamedObj σ o) = F o) : (oo'.filterMap F').Perm (oo.filterMap F) := by
  have h1 := List.Perm.filterMap F' h
  rw [List.filterMap_map, List.filterMap_map] at h1
  rw [show F' ∘ unnumbered = F' from funext hu] at h1
  refine h1.trans (List.Perm.of_eq (List.filterMap_congr fun o ho => ?_))
  show F' (unnumbered (renamedObj σ o)) = F o
  rw [hu, hF o ho]

theorem get_calibrated {gs gs' : OMap Nat (CamGroup G)} (h : calibrated gs' = calibrated gs) (k : Nat) :
    (∀ e, gs[k]? = some e → ∃ g', gs'[k]? = some (e.1, g') ∧ g'.cameras = e.2.cameras ∧ g'.poses = e.2.poses) := by
  intro e he
  have h1 := congrArg (fun l => l[k]?) h
  unfold calibrated at h1
  simp only [List.getElem?_map, he, Option.map_some] at h1
  obtain ⟨⟨i, g'⟩, h2, h3⟩ := Option.map_eq_some_iff.1 h1
  simp only [Prod.mk.injEq] at h3
  obtain ⟨rfl, -, -, h4, -, h5⟩ := h3
  exact ⟨g', h2, h4, h5⟩

section
variable [Group G] [MulAction G Pt] [Inhabited Pt] {σ : Equiv.Perm Nat}
  {r r' : State G Pt (ℝ × ℝ) × OMap (Nat × Nat) (OMap Nat V)} (hc : SameCalibration σ r.1 r'.1) (hp : SamePoses σ r.2 r'.2)
  (en : Finish.Env V G Pt K Path Img) (pix : Nat → Pt → ℝ × ℝ) {fr fr' : List Nat}
  (h : Holds (Finish.scene en r) fr (readingOf r en.ofVec pix)) (h' : Holds (Finish.scene en r') fr' (readingOf r' en.ofVec pix))
include hc hp h h'

theorem errors_same (o : ObjObs (ℝ × ℝ)) (ho : o ∈ r.1.oo) :
    errors (readingOf r' en.ofVec pix) (renamedObj σ o) = errors (readingOf r en.ofVec pix) o := by
  obtain ⟨g, hg, hcam⟩ := h.group o ho
  have hg0 : OMap.get? r.1.t.groups (groupOf r.1.t.groups o.cam) = some g := hg
  obtain ⟨k, hk⟩ := List.getElem?_of_mem ((OMap.get?_eq_some h.groups.sorted).1 hg)
  obtain ⟨g', hg', e1, e2⟩ := get_calibrated hc.groups k _ hk
  have hg2 := (OMap.get?_eq_some h'.groups.sorted).2 (List.mem_of_getElem? hg')
  have hgr : groupOf r'.1.t.groups o.cam = groupOf r.1.t.groups o.cam :=
    groupOf_eq h'.groups hg2 (by rw [e1]; exact hcam)
  have hcp : (readingOf r' en.ofVec pix).camPose o.cam = (readingOf r en.ofVec pix).camPose o.cam := by
    unfold readingOf
    dsimp only
    rw [hgr, hg0, show OMap.get? r'.1.t.groups (groupOf r.1.t.groups o.cam) = some g' from hg2]
    simp only [Option.bind_some]
    rw [e2]
  have hop : (readingOf r' en.ofVec pix).objPose (groupOf r.1.t.groups o.cam) (σ o.frame) o.obj =
      (readingOf r en.ofVec pix).objPose (groupOf r.1.t.groups o.cam) o.frame o.obj := by
    unfold readingOf
    dsimp only
    have := hp (groupOf r.1.t.groups o.cam) o.frame o.obj
    unfold poseIn at this
    rw [this]
  have hpt : (readingOf r' en.ofVec pix).pt = (readingOf r en.ofVec pix).pt := by
    unfold readingOf
    dsimp only
    rw [hc.objs]
  unfold errors
  show (o.pts.zip o.ids).map _ = _
  have : ∀ k, (readingOf r' en.ofVec pix).pix (renamedObj σ o).cam ((readingOf r' en.ofVec pix).camPose (renamedObj σ o).cam •
      (readingOf r' en.ofVec pix).objPose ((readingOf r' en.ofVec pix).group (renamedObj σ o).cam) (renamedObj σ o).frame (renamedObj σ o).obj •
      (readingOf r' en.ofVec pix).pt (renamedObj σ o).obj k) =
      (readingOf r en.ofVec pix).pix o.cam ((readingOf r en.ofVec pix).camPose o.cam •
      (readingOf r en.ofVec pix).objPose ((readingOf r en.ofVec pix).group o.cam) o.frame o.obj • (readingOf r en.ofVec pix).pt o.obj k) := by
    intro k
    show pix o.cam ((readingOf r' en.ofVec pix).camPose o.cam • (readingOf r' en.ofVec pix).objPose (groupOf r'.1.t.groups o.cam) (σ o.frame) o.obj •
      (readingOf r' en.ofVec pix).pt o.obj k) = _
    rw [hcp, hgr, hop, hpt]
    rfl
  refine List.map_congr_left fun e _ => ?_
  simp only [this]

theorem frameErrors_same {g g' : CamGroup G} (hg : g'.cameras = g.cameras) (f : Nat) :
    (frameErrors (Finish.scene en r') (readingOf r' en.ofVec pix) g' (σ f)).Perm
      (frameErrors (Finish.scene en r) (readingOf r en.ofVec pix) g f) := by
  unfold frameErrors
  rw [← List.filterMap_eq_map, ← List.filterMap_eq_map, List.filterMap_filter, List.filterMap_filter]
  refine filterMap_same hc.oo _ _ (fun o => rfl) fun o ho => ?_
  have : ((renamedObj σ o).frame == σ f) = (o.frame == f) := by
    show (σ o.frame == σ f) = _
    by_cases e : o.frame = f
    · simp [e]
    · simp [e]
  rw [this, hg, show (renamedObj σ o).cam = o.cam from rfl]
  simp only [Function.comp_apply]
  rw [errors_same hc hp en pix h h' o ho]
  rfl

theorem average_same : Output.computeAvgReprojectionError (Finish.scene en r') = Output.computeAvgReprojectionError (Finish.scene en r) := by
  rw [Report.C41_value h, Report.C41_value h']
  have hperm : (r'.1.oo.map fun o => mean (errors (readingOf r' en.ofVec pix) o)).Perm
      (r.1.oo.map fun o => mean (errors (readingOf r en.ofVec pix) o)) := by
    rw [← List.filterMap_eq_map, ← List.filterMap_eq_map]
    refine filterMap_same hc.oo _ _ (fun o => rfl) fun o ho => ?_
    simp only [Function.comp_apply]
    rw [errors_same hc hp en pix h h' o ho]
  have hlen : r'.1.oo.length = r.1.oo.length := by simpa using hperm.length_eq
  have hn : (Finish.scene en r').oo = [] ↔ (Finish.scene en r).oo = [] := by
    show r'.1.oo = [] ↔ r.1.oo = []
    rw [← List.length_eq_zero_iff, ← List.length_eq_zero_iff, hlen]
  by_cases h0 : (Finish.scene en r).oo = []
  · rw [if_pos h0, if_pos (hn.2 h0)]
  · rw [if_neg h0, if_neg (fun e => h0 (hn.1 e))]
    unfold mean at hperm ⊢
    congr 2
    rw [show (Finish.scene en r').oo = r'.1.oo from rfl, show (Finish.scene en r).oo = r.1.oo from rfl, hperm.sum_eq, hperm.length_eq]

end

theorem mem_reordered {P : Type} {σ : Equiv.Perm Nat} {l l' : List (Insertion P Path)} (h : Reordered σ l l') {a' : Insertion P Path} (ha : a' ∈ l') :
    ∃ a ∈ l, renamed σ a.obs = a'.obs := by
  have h1 : a'.obs ∈ (l'.filter (byCamFrame a'.obs.cam (σ (σ.symm a'.obs.frame)))).map (·.obs) := by
    refine List.mem_map.2 ⟨a', List.mem_filter.2 ⟨ha, ?_⟩, rfl⟩
    simp [byCamFrame]
  rw [h] at h1
  obtain ⟨a, h2, h3⟩ := List.mem_map.1 h1
  exact ⟨a, (List.mem_filter.1 h2).1, h3⟩

theorem mem_renamed {P : Type} {σ : Equiv.Perm Nat} {l l' : List (Insertion P Path)} (h : Reordered σ l l') {a : Insertion P Path} (ha : a ∈ l) :
    ∃ a' ∈ l', a'.obs = renamed σ a.obs := by
  have h1 : renamed σ a.obs ∈ (l.filter (byCamFrame a.obs.cam a.obs.frame)).map fun a => renamed σ a.obs := by
    refine List.mem_map.2 ⟨a, List.mem_filter.2 ⟨ha, ?_⟩, rfl⟩
    simp [byCamFrame]
  rw [← h] at h1
  obtain ⟨a', h2, h3⟩ := List.mem_map.1 h1
  exact ⟨a', (List.mem_filter.1 h2).1, h3⟩

theorem saw_same {P : Type} {σ : Equiv.Perm Nat} {l l' : List (Insertion P Path)} (hr : Reordered σ l l') {os os' : List (BoardObs P)}
    (h : os = l.map (·.obs)) (h' : os' = l'.map (·.obs)) {out : BoardObs P → BoardObs P} (hout : ∀ o, out (renamed σ o) = renamed σ (out o))
    (p : Nat → Prop) (f : Nat) : (∃ bo ∈ os.map out, bo.pts ≠ [] ∧ bo.frame = f ∧ p bo.cam) ↔
      ∃ bo ∈ os'.map out, bo.pts ≠ [] ∧ bo.frame = σ f ∧ p bo.cam := by
  subst h h'
  constructor
  · rintro ⟨bo, hbo, w1, w2, w3⟩
    obtain ⟨o, ho, rfl⟩ := List.mem_map.1 hbo
    obtain ⟨a, ha, rfl⟩ := List.mem_map.1 ho
    obtain ⟨a', ha', e⟩ := mem_renamed hr ha
    refine ⟨out a'.obs, List.mem_map.2 ⟨_, List.mem_map.2 ⟨a', ha', rfl⟩, rfl⟩, ?_⟩
    rw [e, hout]
    exact ⟨w1, congrArg σ w2, w3⟩
  · rintro ⟨bo, hbo, w1, w2, w3⟩
    obtain ⟨o, ho, rfl⟩ := List.mem_map.1 hbo
    obtain ⟨a', ha', rfl⟩ := List.mem_map.1 ho
    obtain ⟨a, ha, e⟩ := mem_reordered hr ha'
    rw [← e, hout] at w1 w2 w3
    exact ⟨out a.obs, List.mem_map.2 ⟨_, List.mem_map.2 ⟨a, ha, rfl⟩, rfl⟩, w1, σ.injective w2, w3⟩

/-- C97: when the run ends, so does the run on the images in the other order, and the average reprojection error (McCalib.cpp:2170-2240)
is the same, and the file of reprojection errors (McCalib.cpp:2251-2341) has the same groups, with as many images each, image `σ f` in
place of image `f`, with the same cameras and errors (a camera that sees two objects in an image is listed twice, in any order). -/
theorem C97_errors [Group G] [MulAction G Pt] [Inhabited Pt] (nCam nBoard : Nat) (σ : Equiv.Perm Nat) (l l' : List (Insertion (ℝ × ℝ) Path))
    (hl : ∀ a ∈ l, a.obs.cam < nCam ∧ a.obs.board < nBoard) (hl' : ∀ a ∈ l', a.obs.cam < nCam ∧ a.obs.board < nBoard)
    (hr : Reordered σ l l') (s s' : Store (ℝ × ℝ) Path) (hs : Store.run nCam nBoard l = .ok s) (hs' : Store.run nCam nBoard l' = .ok s')
    (out : BoardObs (ℝ × ℝ) → BoardObs (ℝ × ℝ)) (hout : ∀ o, out (renamed σ o) = renamed σ (out o))
    (hview : ∀ o, (out o).cam = o.cam ∧ (out o).frame = o.frame ∧ (out o).board = o.board ∧ (out o).pts.length = (out o).ids.length)
    (bpts : List (List Pt)) (hb : bpts.length = nBoard) (fix : Int)
    (n n' : Numerics V G) (hn : SameNumerics σ n n') (ha : Unordered n.avg) (hav : Unordered n.avgV) (hk : Repeated n.avgV)
    (hhe : ∀ ps ps', ps.Perm ps' → n.he ps = n.he ps')
    (q : BoardObs (ℝ × ℝ) → G) (hq : ∀ o, q (renamed σ o) = q o) (qo : Nat → ObjObs (ℝ × ℝ) → G)
    (hqo : ∀ k o, qo k (unnumbered o) = qo k o ∧ qo k (renamedObj σ o) = qo k o)
    (hp : PosesBy n bpts s (s.obs.map out) q qo) (hp' : PosesBy n' bpts s' (s'.obs.map out) q qo)
    (hids : ∀ bo ∈ s.obs.map out, ∀ k ∈ bo.ids, k < Spec.Objects.cornerCount bpts bo.board)
    (en : Finish.Env V G Pt K Path Img) (hm : ∀ c < nCam, en.model c = 0 ∨ en.model c = 1) (pix : Nat → Pt → ℝ × ℝ)
    (hbr : ∀ c g ps, ps ≠ [] → en.projBrown c g ps = .ok (ps.map fun p => pix c (g • p)))
    (hka : ∀ c g ps, ps ≠ [] → en.projKannala c g ps = .ok (ps.map fun p => pix c (g • p)))
    (r : State G Pt (ℝ × ℝ) × OMap (Nat × Nat) (OMap Nat V)) (hrun : Finish.run n fix bpts s (s.obs.map out) = .ok r) :
    ∃ r', Finish.run n' fix bpts s' (s'.obs.map out) = .ok r' ∧
      Output.computeAvgReprojectionError (Finish.scene en r') = Output.computeAvgReprojectionError (Finish.scene en r) ∧
      ∃ count nodes nodes', Output.saveReprojectionError (Finish.scene en r) = .ok (count, nodes) ∧
        Output.saveReprojectionError (Finish.scene en r') = .ok (count, nodes') ∧ nodes'.length = nodes.length ∧
        ∀ (k : Nat) (m m' : Output.GroupNode), nodes[k]? = some m → nodes'[k]? = some m' →
          m'.group = m.group ∧ m'.frames.length = m.frames.length ∧
          ∀ e ∈ m.frames, ∃ e' ∈ m'.frames, e'.frame = σ e.frame ∧ e'.cams.Perm e.cams ∧ e'.cameraList.Perm e.cameraList := by
  classical
  have hsame := Lemmas.ReorderFinish.run_same nCam nBoard σ l l' hl hl' hr s s' hs hs' out hout hview bpts n n' hn fix hb ha hav hk hhe q hq qo hqo hp hp'
  obtain ⟨r', hrun', hc, hpose⟩ := Lemmas.ReorderRun.SameOutcome.ok hsame hrun
  have hv := Lemmas.ReorderRun.sameViews out hview s.obs
  have hv' := Lemmas.ReorderRun.sameViews out hview s'.obs
  have hids' : ∀ bo ∈ s'.obs.map out, ∀ k ∈ bo.ids, k < Spec.Objects.cornerCount bpts bo.board := by
    intro bo hbo k hk
    obtain ⟨o', ho', rfl⟩ := List.mem_map.1 hbo
    have hd := Lemmas.Pipeline.store_desc nCam nBoard l hl s hs
    rw [(Lemmas.Pipeline.store_desc nCam nBoard l' hl' s' hs').obs] at ho'
    obtain ⟨a', ha', rfl⟩ := List.mem_map.1 ho'
    obtain ⟨a, ham, hae⟩ := mem_reordered hr ha'
    rw [← hae, hout] at hk ⊢
    exact hids (out a.obs) (List.mem_map.2 ⟨a.obs, by rw [hd.obs]; exact List.mem_map.2 ⟨a, ham, rfl⟩, rfl⟩) k hk
  have h := C76_holds nCam nBoard l hl s hs _ hv bpts hb n fix r hrun hids en hm pix hbr hka
  have h' := C76_holds nCam nBoard l' hl' s' hs' _ hv' bpts hb n' fix r' hrun' hids' en hm pix hbr hka
  have ht := C76_tables nCam nBoard l hl s hs _ hv bpts hb n fix r hrun
  have ht' := C76_tables nCam nBoard l' hl' s' hs' _ hv' bpts hb n' fix r' hrun'
  have hlen : r'.1.t.groups.length = r.1.t.groups.length := by
    have := congrArg List.length hc.groups
    unfold calibrated at this
    simpa using this
  obtain ⟨nodes, e1, e2, e3⟩ := Report.C40_file h
  obtain ⟨nodes', e1', e2', e3'⟩ := Report.C40_file h'
  refine ⟨r', hrun', average_same hc hpose en pix h h', _, nodes, nodes', e1, ?_, ?_, ?_⟩
  · rw [e1']
    show Outcome.ok (List.length r'.1.t.groups, nodes') = Outcome.ok (List.length r.1.t.groups, nodes')
    rw [hlen]
  · rw [e2, e2']
    exact hlen
  · intro k m m' hm1 hm1'
    have hlt : k < r.1.t.groups.length := by
      have := (List.getElem?_eq_some_iff.1 hm1).1
      rwa [e2] at this
    have hg := List.getElem?_eq_getElem hlt
    generalize r.1.t.groups[k] = e at hg
    obtain ⟨i, g⟩ := e
    obtain ⟨g', hg', c1, c2⟩ := get_calibrated hc.groups k _ hg
    obtain ⟨m0, q1, q2, q3, -⟩ := e3 k i g hg
    obtain ⟨m0', q1', q2', q3', -⟩ := e3' k i g' hg'
    rw [hm1] at q1
    rw [hm1'] at q1'
    cases q1
    cases q1'
    have hsaw : ∀ f, f ∈ OMap.keys g.frames ↔ σ f ∈ OMap.keys g'.frames := by
      intro f
      rw [ht.groupFrames i g ((OMap.get?_eq_some ht.consistent.groups.sorted).2 (List.mem_of_getElem? hg)),
        ht'.groupFrames i g' ((OMap.get?_eq_some ht'.consistent.groups.sorted).2 (List.mem_of_getElem? hg'))]
      unfold Spec.Finish.SawIn
      rw [c1]
      exact saw_same hr (Lemmas.Pipeline.store_desc nCam nBoard l hl s hs).obs (Lemmas.Pipeline.store_desc nCam nBoard l' hl' s' hs').obs
        hout _ f
    refine ⟨by rw [q2, q2'], ?_, ?_⟩
    · rw [q3, q3', List.length_map, List.length_map]
      have hp : (OMap.keys g'.frames).Perm ((OMap.keys g.frames).map σ) := by
        refine (List.perm_ext_iff_of_nodup (OMap.keys_nodup (h'.lists.sorted i g' ((OMap.get?_eq_some h'.groups.sorted).2 (List.mem_of_getElem? hg'))))
          ((OMap.keys_nodup (h.lists.sorted i g ((OMap.get?_eq_some h.groups.sorted).2 (List.mem_of_getElem? hg)))).map σ.injective)).2 fun x => ?_
        have := hsaw (σ.symm x)
        rw [Equiv.apply_symm_apply] at this
        rw [← this, List.mem_map]
        exact ⟨fun hx => ⟨_, hx, σ.apply_symm_apply x⟩, fun ⟨y, hy, e⟩ => by rw [← e, Equiv.symm_apply_apply]; exact hy⟩
      rw [hp.length_eq, List.length_map]
    · intro e he
      rw [q3] at he
      obtain ⟨f, hf, rfl⟩ := List.mem_map.1 he
      refine ⟨_, by rw [q3']; exact List.mem_map.2 ⟨σ f, (hsaw f).1 hf, rfl⟩, rfl, ?_, ?_⟩
      · exact frameErrors_same hc hpose en pix h h' c1 f
      · exact (frameErrors_same hc hpose en pix h h' c1 f).map _

/-! ### A case -/

/-- Two cameras that see the same corner in one image, and the first of them again in another. -/
def shots : List (Insertion (ℝ × ℝ) Nat) :=
  [⟨⟨0, 0, 0, [(3, 4)], [0]⟩, 0⟩, ⟨⟨1, 0, 0, [(5, 6)], [0]⟩, 0⟩, ⟨⟨0, 1, 0, [(7, 8)], [0]⟩, 0⟩]

/-- The images swapped. -/
def shotsOther : List (Insertion (ℝ × ℝ) Nat) :=
  [⟨⟨0, 0, 0, [(7, 8)], [0]⟩, 0⟩, ⟨⟨1, 1, 0, [(5, 6)], [0]⟩, 0⟩, ⟨⟨0, 1, 0, [(3, 4)], [0]⟩, 0⟩]

theorem shots_reordered : Reordered (Equiv.swap 0 1) shots shotsOther := by
  have hσ : ∀ f, Equiv.swap 0 1 f = 0 ↔ f = 1 := fun f => by
    rw [Equiv.swap_apply_eq_iff, Equiv.swap_apply_left]
  have hσ' : ∀ f, Equiv.swap 0 1 f = 1 ↔ f = 0 := fun f => by
    rw [Equiv.swap_apply_eq_iff, Equiv.swap_apply_right]
  intro c f
  have e0 : (0 == Equiv.swap 0 1 f) = (1 == f) := by
    rw [Bool.eq_iff_iff, beq_iff_eq, beq_iff_eq, eq_comm, hσ, eq_comm]
  have e1 : (1 == Equiv.swap 0 1 f) = (0 == f) := by
    rw [Bool.eq_iff_iff, beq_iff_eq, beq_iff_eq, eq_comm, hσ', eq_comm]
  unfold shots shotsOther byCamFrame
  simp only [List.filter_cons, List.filter_nil, e0, e1]
  by_cases h0 : 0 = f
  · subst h0
    by_cases c0 : 0 = c
    · subst c0; rfl
    · by_cases c1 : 1 = c
      · subst c1; rfl
      · simp [c0, c1]
  · by_cases h1 : 1 = f
    · subst h1
      by_cases c0 : 0 = c
      · subst c0; rfl
      · simp [c0]
    · simp [h0, h1]

open Verif.Props.Finish (pairEnv pairNum) in
/- The hypotheses of C97_errors are met by the two runs; both end. -/
example : ∃ s s' : Store (ℝ × ℝ) Nat, Store.run 2 1 shots = .ok s ∧ Store.run 2 1 shotsOther = .ok s' ∧
    ∃ r r', Finish.run pairNum 0 [[()]] s s.obs = .ok r ∧ Finish.run pairNum 0 [[()]] s' s'.obs = .ok r' ∧
      Output.computeAvgReprojectionError (Finish.scene pairEnv r') = Output.computeAvgReprojectionError (Finish.scene pairEnv r) := by
  have hl : ∀ a ∈ shots, a.obs.cam < 2 ∧ a.obs.board < 1 := by
    intro a ha
    simp only [shots, List.mem_cons, List.not_mem_nil, or_false] at ha
    rcases ha with rfl | rfl | rfl <;> simp
  have hl' : ∀ a ∈ shotsOther, a.obs.cam < 2 ∧ a.obs.board < 1 := by
    intro a ha
    simp only [shotsOther, List.mem_cons, List.not_mem_nil, or_false] at ha
    rcases ha with rfl | rfl | rfl <;> simp
  obtain ⟨s, hs⟩ := (Props.Store.C06_run_ok_iff 2 1 shots).2 hl
  obtain ⟨s', hs'⟩ := (Props.Store.C06_run_ok_iff 2 1 shotsOther).2 hl'
  have hobs : s.obs = shots.map (·.obs) := (Lemmas.Pipeline.store_desc 2 1 shots hl s hs).obs
  -- corners that do not match are dropped: nothing here
  let out : BoardObs (ℝ × ℝ) → BoardObs (ℝ × ℝ) := fun o => { o with pts := o.pts.take o.ids.length, ids := o.ids.take o.pts.length }
  have hid : s.obs.map out = s.obs := by
    rw [hobs]
    rfl
  have hid' : s'.obs.map out = s'.obs := by
    rw [(Lemmas.Pipeline.store_desc 2 1 shotsOther hl' s' hs').obs]
    rfl
  have hview : ∀ o, (out o).cam = o.cam ∧ (out o).frame = o.frame ∧ (out o).board = o.board ∧ (out o).pts.length = (out o).ids.length := by
    intro o
    refine ⟨rfl, rfl, rfl, ?_⟩
    show (o.pts.take o.ids.length).length = (o.ids.take o.pts.length).length
    rw [List.length_take, List.length_take, Nat.min_comm]
  have hoc : ∀ c, c ∈ Spec.Groups.observingCams 2 shots ↔ c = 0 ∨ c = 1 := by
    intro c
    have : Spec.Groups.observingCams 2 shots = [0, 1] := rfl
    rw [this]; simp
  have hlk : ∀ a b, a ≠ b → (a = 0 ∨ a = 1) → (b = 0 ∨ b = 1) → Spec.Pipeline.CamsLinked shots (shots.map (·.obs)) a b := by
    rintro a b hne (rfl | rfl) (rfl | rfl)
    · exact absurd rfl hne
    · exact ⟨hne, _, List.mem_cons_self, _, List.mem_cons_of_mem _ List.mem_cons_self, rfl, rfl, rfl, by simp, by simp,
        Relation.ReflTransGen.refl⟩
    · exact ⟨hne, _, List.mem_cons_of_mem _ List.mem_cons_self, _, List.mem_cons_self, rfl, rfl, rfl, by simp, by simp,
        Relation.ReflTransGen.refl⟩
    · exact absurd rfl hne
  have hal : ∀ o ∈ s.obs, o.pts.length = o.ids.length := by
    rw [← hid]
    intro o ho
    obtain ⟨o', -, rfl⟩ := List.mem_map.1 ho
    exact (hview o').2.2.2
  classical
  obtain ⟨r, hr, -⟩ := C78_one_group 2 1 shots hl s hs s.obs ⟨rfl, hal⟩ ([[()]] : List (List Unit)) rfl pairNum 0
    (by
      intro a ha b hb
      rw [hobs]
      by_cases hab : a = b
      · rw [hab]
      · exact Relation.ReflTransGen.single (hlk a b hab ((hoc a).1 ha) ((hoc b).1 hb)))
    ⟨⟨0, 0, 0, [(3, 4)], [0]⟩, by rw [hobs]; simp [shots], by simp⟩
  have hp : ∀ (s : Store (ℝ × ℝ) Nat) obs, PosesBy pairNum ([[()]] : List (List Unit)) s obs (fun _ => ()) fun _ _ => () :=
    fun s obs => ⟨rfl, fun _ _ _ => ⟨rfl, rfl⟩, fun _ _ => rfl⟩
  obtain ⟨r', hr', e, -⟩ := C97_errors 2 1 (Equiv.swap 0 1) shots shotsOther hl hl' shots_reordered s s' hs hs' out (fun _ => rfl) hview
    ([[()]] : List (List Unit)) rfl 0 pairNum pairNum ⟨rfl, rfl, fun _ _ _ _ => rfl, rfl, rfl, rfl, rfl, rfl, rfl⟩
    (fun _ _ _ => rfl) (fun _ _ _ => rfl) (fun _ _ _ => rfl) (fun _ _ _ => rfl) (fun _ => ()) (fun _ => rfl) (fun _ _ => ()) (fun _ _ => ⟨rfl, rfl⟩)
    (hp _ _) (hp _ _) (by
      rw [hid, hobs]
      intro o ho
      simp only [shots, List.map_cons, List.map_nil, List.mem_cons, List.not_mem_nil, or_false] at ho
      rcases ho with rfl | rfl | rfl <;> simp [Spec.Objects.cornerCount]) pairEnv (by
      intro c hc
      have : c = 0 ∨ c = 1 := by omega
      rcases this with rfl | rfl <;> simp [pairEnv]) (fun _ _ => (0, 0)) (fun _ _ _ _ => rfl) (fun _ _ _ _ => rfl) r (by rw [hid]; exact hr)
  rw [hid'] at hr'
  exact ⟨s, s', hs, hs', r, r', hr, hr', e⟩

end Verif.Props.ReorderErrors
