import Verif.Lemmas.UnitsRun
import Verif.Props.Outliers

/-! The robust pose search commutes with a change of units. -/
namespace Verif.Lemmas.Units
open Verif Verif.Spec.Units Verif.Ransac

variable {G H Pt Q P E : Type} [LinearOrder E] (φ : G → H) (ψ : Pt → Q)

/-- The state of the search in other units. -/
def searchState (st : St G) : St H := ⟨st.N, st.trial, st.count, st.vec, φ st.cur, φ st.best, st.inl, st.bestNb⟩

/-- Correspondences in other units. -/
def matched (x : Pt × P) : Q × P := (ψ x.1, x.2)

omit [LinearOrder E] in
theorem sampleAt_map (scene : List Pt) (image : List P) (i : Nat) :
    sampleAt (scene.map ψ) image i = result (matched ψ) (sampleAt scene image i) := by
  unfold sampleAt
  rw [idx_map]
  refine bind_map ψ _ rfl fun a => ?_
  rw [bind_result]
  rfl

theorem sample_map (scene : List Pt) (image : List P) (vec : List Nat) :
    sample (scene.map ψ) image vec = result (List.map (matched ψ)) (sample scene image vec) := by
  unfold sample
  simp only [sampleAt_map, bind_result]
  refine bind_congr' fun i0 => bind_congr' fun i1 => bind_congr' fun i2 => bind_congr' fun i3 => ?_
  simp only [result_bind]
  rfl

variable {l : Lib Pt P G E} {l' : Lib Q P H E} (hl : SameLib φ ψ l l')
include hl

theorem countInliers_map (scene : List Pt) (image : List P) (g : G) :
    countInliers l' (scene.map ψ) image (φ g) = countInliers l scene image g := by
  unfold countInliers
  have e : (scene.map ψ).zipIdx = scene.zipIdx.map fun x => (ψ x.1, x.2) := by
    rw [List.zipIdx_map]
    rfl
  rw [e]
  have h := foldlM_result (f := testPoint l image g) (f' := testPoint l' image (φ g)) id (fun x : Pt × Nat => (ψ x.1, x.2))
    (fun acc x => by
      rw [result_id]
      unfold testPoint
      simp only [hl.err, hl.thresh]
      rfl) scene.zipIdx []
  rw [result_id] at h
  exact h

theorem step_map (scene : List Pt) (image : List P) (st : St G) :
    step l' (scene.map ψ) image (searchState φ st) = result (searchState φ) (step l scene image st) := by
  unfold step
  dsimp only
  rw [hl.shuffle]
  refine bind_map _ _ (sample_map ψ scene image _) fun s => ?_
  have e1 : l'.p3p (searchState φ st).cur (s.map (matched ψ)) = φ (l.p3p st.cur s) := hl.p3p st.cur s
  rw [e1, countInliers_map φ ψ hl, bind_result]
  refine bind_congr' fun inl => ?_
  show Outcome.ok _ = Outcome.ok _
  unfold keepBest
  rw [List.length_map, hl.trials]
  show Outcome.ok _ = Outcome.ok (searchState φ _)
  dsimp only
  by_cases h : st.bestNb < inl.length
  · rw [if_pos h, if_pos (show (searchState φ st).bestNb < inl.length from h)]
    rfl
  · rw [if_neg h, if_neg (show ¬ (searchState φ st).bestNb < inl.length from h)]
    rfl

theorem loop_map (scene : List Pt) (image : List P) : ∀ (n : Nat) (st : St G),
    loop l' (scene.map ψ) image n (searchState φ st) = result (searchState φ) (loop l scene image n st)
  | 0, _ => rfl
  | n + 1, st => by
    unfold loop
    show (if (st.trial : Int) < st.N then _ else _) = _
    split
    · exact bind_map _ _ (step_map φ ψ hl scene image st) (loop_map scene image n)
    · rfl

theorem ransac_map (scene : List Pt) (image : List P) (it : Nat) (b : Bool) (x y : G) :
    ransacP3P l' (scene.map ψ) image it b (φ x) (φ y) = result (fun r => (r.1, φ r.2)) (ransacP3P l scene image it b x y) := by
  unfold ransacP3P
  refine bind_map (searchState φ) _ (loop_map φ ψ hl scene image it ⟨it, 0, 0, List.range image.length, y, x, [], 0⟩) fun st => ?_
  unfold finish
  show (if b = true ∧ 4 ≤ st.bestNb then _ else _) = _
  split
  · refine bind_map (List.map (matched ψ)) _ ?_ fun pts => ?_
    · refine foldlM_result' (List.map (matched ψ)) (fun acc i => ?_) st.inl []
      unfold gatherPoint
      refine bind_map _ _ (sampleAt_map ψ scene image i) fun s => ?_
      show Outcome.ok _ = Outcome.ok _
      rw [List.map_append]
      rfl
    · show Outcome.ok (st.inl, l'.refine (φ st.best) (pts.map (matched ψ))) = Outcome.ok (st.inl, φ (l.refine st.best pts))
      have e := hl.refine st.best pts
      rw [← e]
      rfl
  · rfl

omit hl l l' in
theorem searches_map {l0 l1 : Nat → Nat → Lib Pt P G E} {l0' l1' : Nat → Nat → Lib Q P H E} (h0 : ∀ i c, SameLib φ ψ (l0 i c) (l0' i c))
    (h1 : ∀ i c, SameLib φ ψ (l1 i c) (l1' i c)) (undist : Nat → P → P) (model : Nat → Int) (it : Nat) (garbage : Nat → G) :
    SameSearch φ ψ (Props.Outliers.searches l0 l1 undist model it garbage)
      (Props.Outliers.searches l0' l1' undist model it fun i => φ (garbage i)) := by
  intro i c pts px
  unfold Props.Outliers.searches ransacP3PDistortion
  split
  · exact ransac_map φ ψ (h0 i c) _ _ _ _ _ _
  · split
    · exact ransac_map φ ψ (h1 i c) _ _ _ _ _ _
    · rfl

end Verif.Lemmas.Units
