import Verif.Spec.Agree
import Verif.Props.Finish
import Verif.Lemmas.Trust
import Verif.Lemmas.Keypoints
import Verif.Props.Detection

/-! Lemmas for C89. -/
namespace Verif.Lemmas.Agree
open Verif Verif.Spec.Agree Verif.Keypoints Verif.Spec.Store Verif.Spec.Objects Verif.Objects Verif.Output

variable {V G Pt K P Path : Type}

/-- The corners in some observations. -/
def cornersOf (obs : List (BoardObs P)) : List (Nat × Nat × P) :=
  obs.flatMap fun o => (o.pts.zip o.ids).map fun e => (o.board, e.2, e.1)

/-- The observations of a camera in a frame. -/
def view (obs : List (BoardObs P)) (c f : Nat) : List (BoardObs P) := obs.filter fun o => o.cam == c && o.frame == f

theorem save_inv [Inhabited Path] {k : KStore P Path} {kp : KeyFile P Path} (h : save k = .ok kp) :
    ∃ sz : Nat → Nat × Nat, (∀ c < k.store.cams.length, (k.sizes[c]?).join = some (sz c)) ∧
      kp = { nbCamera := k.store.cams.length, cams := ((List.range k.store.cams.length).map
        (fun c => (c, camFile (sz c) (rows k.store c)))) } := by
  have hall : ∀ c < k.store.cams.length, ((k.sizes[c]?).join).isSome = true := by
    intro c hc
    cases hj : (k.sizes[c]?).join with
    | some _ => rfl
    | none => rw [Props.Detection.C08_unset_size_ub k c hc hj] at h; cases h
  refine ⟨fun c => ((k.sizes[c]?).join).getD (0, 0), fun c hc => ?_, ?_⟩
  · obtain ⟨z, hz⟩ := Option.isSome_iff_exists.1 (hall c hc)
    simp [hz]
  · rw [save_ok k (fun c => ((k.sizes[c]?).join).getD (0, 0)) (fun c hc => by
      obtain ⟨z, hz⟩ := Option.isSome_iff_exists.1 (hall c hc)
      simp [hz])] at h
    cases h
    rfl

theorem get_range {A : Type} (F : Nat → A) (n c : Nat) :
    OMap.get? ((List.range n).map fun c => (c, F c)) c = if c < n then some (F c) else none := by
  have hs : OMap.Sorted ((List.range n).map fun c => (c, F c)) := by
    unfold OMap.Sorted
    rw [List.pairwise_map]
    exact List.Pairwise.imp (fun h => by simpa [Key.lt] using h) List.pairwise_lt_range
  split
  · rename_i h
    exact (OMap.get?_eq_some hs).2 (List.mem_map.2 ⟨c, List.mem_range.2 h, rfl⟩)
  · rename_i h
    cases hg : OMap.get? ((List.range n).map fun c => (c, F c)) c with
    | none => rfl
    | some a =>
      obtain ⟨x, hx, e⟩ := List.mem_map.1 ((OMap.get?_eq_some hs).1 hg)
      cases e
      exact absurd (List.mem_range.1 hx) h

theorem zip_rows {A : Type} (r : List (Row P Path)) (F : ((Nat × Nat) × (List P × List Nat)) → List A) :
    (((r.map (·.frame)).zip (r.map (·.board))).zip ((r.map (·.pts)).zip (r.map (·.ids)))).flatMap F =
      r.flatMap fun x => F ((x.frame, x.board), (x.pts, x.ids)) := by
  induction r with
  | nil => rfl
  | cons x r ih => simp only [List.map_cons, List.zip_cons_cons, List.flatMap_cons, ih]

theorem flatMap_pick {A B : Type} (m : OMap Nat A) (hm : OMap.Sorted m) (F : Nat → A → List B) (f : Nat)
    (h0 : ∀ g a, g ≠ f → F g a = []) :
    (m.flatMap fun e => F e.1 e.2) = match OMap.get? m f with | some a => F f a | none => [] := by
  induction m with
  | nil => rfl
  | cons e m ih =>
    have hs : OMap.Sorted m := (List.pairwise_cons.1 hm).2
    rw [List.flatMap_cons]
    by_cases he : e.1 = f
    · have hg : OMap.get? (e :: m) f = some e.2 := (OMap.get?_eq_some hm).2 (by rw [← he]; simp)
      have hrest : (m.flatMap fun e => F e.1 e.2) = [] := by
        rw [List.flatMap_eq_nil_iff]
        intro x hx
        refine h0 _ _ ?_
        intro hxf
        have := (List.pairwise_cons.1 hm).1 x hx
        rw [hxf, he] at this
        simp [Key.lt] at this
      rw [hg, hrest, List.append_nil, he]
    · have hg : OMap.get? (e :: m) f = OMap.get? m f := by
        cases h1 : OMap.get? m f with
        | some a => exact (OMap.get?_eq_some hm).2 (List.mem_cons_of_mem _ ((OMap.get?_eq_some hs).1 h1))
        | none =>
          cases h2 : OMap.get? (e :: m) f with
          | none => rfl
          | some a =>
            rcases List.mem_cons.1 ((OMap.get?_eq_some hm).1 h2) with h | h
            · exact absurd (by rw [← h]) he
            · rw [(OMap.get?_eq_some hs).2 h] at h1; cases h1
      rw [h0 _ _ he, List.nil_append, hg, ih hs]

theorem corners_saved [Inhabited Path] {s : Store P Path} {szs : List (Option (Nat × Nat))} {kp : KeyFile P Path}
    (h : save ⟨s, szs⟩ = .ok kp) (hf : OMap.Sorted s.frames) (hmem : ∀ o ∈ s.obs, o.cam < s.cams.length ∧
      o.board < s.boards.length ∧ o.frame ∈ OMap.keys s.frames) (c f : Nat) :
    (corners kp c f).Perm (cornersOf (view s.obs c f)) := by
  obtain ⟨sz, -, rfl⟩ := save_inv h
  unfold corners
  simp only
  rw [get_range]
  by_cases hc : c < s.cams.length
  · rw [if_pos hc]
    simp only [camFile]
    rw [zip_rows]
    unfold rows
    rw [List.flatMap_assoc]
    rw [flatMap_pick (F := fun g (fr : FrameRec Path) => (((List.range s.boards.length).flatMap fun b =>
      (s.obs.filter fun o => o.cam == c && o.frame == g && o.board == b).map fun o =>
        (⟨g, (OMap.get? fr.paths c).getD default, b, o.pts, o.ids⟩ : Row P Path)).flatMap fun x =>
          if x.frame = f then (x.pts.zip x.ids).map fun e => (x.board, e.2, e.1) else [])) s.frames hf f]
    · cases hg : OMap.get? s.frames f with
      | none =>
        have : view s.obs c f = [] := by
          unfold view
          rw [List.filter_eq_nil_iff]
          intro o ho hp
          simp only [Bool.and_eq_true, beq_iff_eq] at hp
          obtain ⟨x, hx⟩ := OMap.mem_keys.1 (hmem o ho).2.2
          rw [hp.2, hg] at hx
          cases hx
        rw [this]
        exact .refl _
      | some fr =>
        simp only
        rw [List.flatMap_assoc]
        have e1 : ∀ b, ((s.obs.filter fun o => o.cam == c && o.frame == f && o.board == b).map fun o =>
            (⟨f, (OMap.get? fr.paths c).getD default, b, o.pts, o.ids⟩ : Row P Path)).flatMap (fun x =>
              if x.frame = f then (x.pts.zip x.ids).map fun e => (x.board, e.2, e.1) else []) =
            ((view s.obs c f).filter fun o => decide (o.board = b)).flatMap fun o =>
              (o.pts.zip o.ids).map fun e => (o.board, e.2, e.1) := by
          intro b
          rw [List.flatMap_map]
          unfold view
          rw [List.filter_filter]
          simp only [if_true]
          have e2 : (s.obs.filter fun o => o.cam == c && o.frame == f && o.board == b) =
              s.obs.filter fun o => decide (o.board = b) && (o.cam == c && o.frame == f) := by
            congr 1
            funext o
            rw [Bool.and_comm]
            rfl
          rw [e2]
          apply List.flatMap_congr
          intro o ho
          have := (List.mem_filter.1 ho).2
          simp only [Bool.and_eq_true, decide_eq_true_eq] at this
          rw [this.1]
        simp only [e1]
        rw [← List.flatMap_assoc]
        exact (Lemmas.Trust.grouped_perm (·.board) (List.range s.boards.length) List.nodup_range (view s.obs c f)
          (fun o ho => List.mem_range.2 (hmem o (List.mem_filter.1 ho).1).2.1)).flatMap_right _
    · intro g a hgf
      rw [List.flatMap_eq_nil_iff]
      intro x hx
      obtain ⟨b, -, hx⟩ := List.mem_flatMap.1 hx
      obtain ⟨o, -, rfl⟩ := List.mem_map.1 hx
      rw [if_neg hgf]
  · rw [if_neg hc]
    have : view s.obs c f = [] := by
      unfold view
      rw [List.filter_eq_nil_iff]
      intro o ho hp
      simp only [Bool.and_eq_true, beq_iff_eq] at hp
      exact hc (hp.1 ▸ (hmem o ho).1)
    rw [this]
    exact .refl _

/-! ### Objects -/

section
variable [Group G] [SMul G Pt]

theorem mem_corners (bpts : List (List Pt)) (o : Object G Pt) (b k : Nat) :
    (b, k) ∈ Props.OutputObjects.corners bpts o ↔ b ∈ OMap.keys o.boards ∧ k < cornerCount bpts b := by
  unfold Props.OutputObjects.corners
  rw [List.mem_flatMap]
  constructor
  · rintro ⟨b', hb, h⟩
    obtain ⟨k', hk, e⟩ := List.mem_map.1 h
    cases e
    exact ⟨hb, List.mem_range.1 hk⟩
  · rintro ⟨hb, hk⟩
    exact ⟨b, hb, List.mem_map.2 ⟨k, List.mem_range.2 hk, rfl⟩⟩

theorem any_corner {bpts : List (List Pt)} {o : Object G Pt} {cols : List (Column Pt)}
    (h : Props.OutputObjects.ColumnsOf bpts o cols) (b k : Nat) :
    (cols.map some).any (isCorner b k) = true ↔ b ∈ OMap.keys o.boards ∧ k < cornerCount bpts b := by
  rw [← mem_corners, ← h.labels, List.any_map, List.any_eq_true, List.mem_map]
  simp only [isCorner, Function.comp, Option.any_some, Bool.and_eq_true, beq_iff_eq, Prod.mk.injEq]

theorem objObs_pts (o : Object G Pt) (obs : List (BoardObs P)) (c f : Nat) :
    (objObs o obs c f).pts = ((view obs c f).filter fun bo => decide (bo.board ∈ OMap.keys o.boards)).flatMap (·.pts) := by
  unfold objObs seenOf view
  simp only
  rw [Lemmas.GroupPose.positions_filterMap, List.filter_filter]
  congr 2
  funext bo
  rw [Bool.and_comm]

theorem share_length {bpts : List (List Pt)} {o : Object G Pt} {cols : List (Column Pt)}
    (h : Props.OutputObjects.ColumnsOf bpts o cols) {obs : List (BoardObs P)}
    (hal : ∀ bo ∈ obs, bo.pts.length = bo.ids.length)
    (hids : ∀ bo ∈ obs, ∀ k ∈ bo.ids, k < cornerCount bpts bo.board) {kp : KeyFile P Path} {c f : Nat}
    (hp : (corners kp c f).Perm (cornersOf (view obs c f))) :
    (share kp (cols.map some) c f).length = (objObs o obs c f).pts.length := by
  unfold share
  rw [(hp.filter _).length_eq, objObs_pts]
  have hv : ∀ bo ∈ view obs c f, bo ∈ obs := fun bo hbo => (List.mem_filter.1 hbo).1
  generalize view obs c f = L at hv
  induction L with
  | nil => rfl
  | cons bo L ih =>
    have hbo := hv bo (by simp)
    have ih := ih fun x hx => hv x (by simp [hx])
    unfold cornersOf at ih ⊢
    rw [List.flatMap_cons, List.filter_append, List.length_append, ih, List.filter_cons]
    by_cases hb : bo.board ∈ OMap.keys o.boards
    · rw [if_pos (by simpa using hb), List.flatMap_cons, List.length_append, List.filter_eq_self.2 (by
        intro e he
        obtain ⟨x, hx, rfl⟩ := List.mem_map.1 he
        exact (any_corner h _ _).2 ⟨hb, hids bo hbo _ (List.of_mem_zip hx).2⟩), List.length_map, List.length_zip, hal bo hbo,
        Nat.min_self]
    · rw [if_neg (by simpa using hb), List.filter_eq_nil_iff.2 (by
        intro e he
        obtain ⟨x, hx, rfl⟩ := List.mem_map.1 he
        rw [any_corner h]
        exact fun h => hb h.1), List.length_nil, Nat.zero_add]

theorem filter_views (F : Nat × Nat → ObjObs P) (hF : ∀ v, ((F v).cam, (F v).frame) = v) (vs : List (Nat × Nat)) (hnd : vs.Nodup)
    (c f : Nat) (hv : (F (c, f)).pts ≠ [] → (c, f) ∈ vs) :
    ((((vs.map F).filter fun oo => decide (oo.pts ≠ [])).filter fun oo => oo.frame == f && oo.cam == c).map (·.pts.length)) =
      [(F (c, f)).pts.length].filter (· ≠ 0) := by
  have h0 : ∀ v, ((F v).frame == f && (F v).cam == c) = decide (v = (c, f)) := by
    intro v
    have := hF v
    rw [Bool.eq_iff_iff, Bool.and_eq_true, beq_iff_eq, beq_iff_eq, decide_eq_true_eq]
    conv_rhs => rw [← this]
    rw [Prod.mk.injEq, and_comm]
  induction vs with
  | nil =>
    rw [List.map_nil, List.filter_nil, List.filter_nil, List.map_nil, List.filter_cons_of_neg, List.filter_nil]
    by_cases hp : (F (c, f)).pts = []
    · simp [hp]
    · exact absurd (hv hp) (by simp)
  | cons v vs ih =>
    obtain ⟨hn1, hn2⟩ := List.nodup_cons.1 hnd
    by_cases hvc : v = (c, f)
    · subst hvc
      have hrest : (((vs.map F).filter fun oo => decide (oo.pts ≠ [])).filter fun oo => oo.frame == f && oo.cam == c) = [] := by
        rw [List.filter_eq_nil_iff]
        intro x hx hp
        obtain ⟨v, hv, rfl⟩ := List.mem_map.1 (List.mem_filter.1 hx).1
        rw [h0, decide_eq_true_eq] at hp
        exact hn1 (hp ▸ hv)
      rw [List.map_cons, List.filter_cons]
      by_cases hp : (F (c, f)).pts = []
      · rw [if_neg (by simpa using hp), hrest]
        simp [hp]
      · rw [if_pos (by simpa using hp), List.filter_cons, if_pos (by rw [h0]; simp), hrest]
        simp [hp]
    · rw [List.map_cons, List.filter_cons]
      have ih := ih hn2 (fun h => by
        rcases List.mem_cons.1 (hv h) with e | e
        · exact absurd e.symm hvc
        · exact e)
      split
      · rw [List.filter_cons, if_neg (by rw [h0]; simpa using hvc), ih]
      · exact ih

theorem filter_oo (obs : List (BoardObs P)) (objs : OMap Nat (Object G Pt)) (vs : List (Nat × Nat)) (hnd : vs.Nodup) (m c f : Nat)
    (hv : ∀ e ∈ objs, (objObs e.2 obs c f).pts ≠ [] → (c, f) ∈ vs) :
    (((List.replicate m (FinishRun.once obs vs objs)).flatten.filter fun oo => oo.frame == f && oo.cam == c).map (·.pts.length)) =
      (List.replicate m ((objs.map fun e => (objObs e.2 obs c f).pts.length).filter (· ≠ 0))).flatten := by
  have h1 : ((FinishRun.once obs vs objs).filter fun oo => oo.frame == f && oo.cam == c).map (·.pts.length) =
      (objs.map fun e => (objObs e.2 obs c f).pts.length).filter (· ≠ 0) := by
    unfold FinishRun.once
    induction objs with
    | nil => rfl
    | cons e objs ih =>
      rw [List.flatMap_cons, List.filter_append, List.map_append, ih fun x hx => hv x (by simp [hx]), List.map_cons]
      unfold allObjObs
      rw [filter_views (fun v => objObs e.2 obs v.1 v.2) (fun v => rfl) vs hnd c f (hv e (by simp)), List.filter_cons,
        List.filter_cons]
      split <;> simp
  induction m with
  | zero => rfl
  | succ m ih =>
    rw [List.replicate_succ, List.flatten_cons, List.filter_append, List.map_append, h1, ih, List.replicate_succ, List.flatten_cons]

end

end Verif.Lemmas.Agree
