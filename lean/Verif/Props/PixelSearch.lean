import Verif.Spec.Pixels
import Verif.Props.Outliers

/-! C84: the robust search keeps everything when everything fits. -/
namespace Verif.Props.Pixels
open Verif Verif.Ransac Verif.Spec.Pixels Verif.Props.Outliers

section
variable {P3 P2 Pose E : Type} [LinearOrder E]

/-- Every correspondence is within the threshold of the model. -/
def Fits (lib : Lib P3 P2 Pose E) (scene : List P3) (image : List P2) (p : Pose) : Prop :=
  ∀ e ∈ scene.zip image, lib.err p e.1 e.2 < lib.thresh

theorem inliers_all (lib : Lib P3 P2 Pose E) {scene : List P3} {image : List P2} (hl : scene.length = image.length)
    {p : Pose} (h : Fits lib scene image p) : inliers lib scene image p = List.range image.length := by
  unfold inliers
  have e : (scene.zip image).length = image.length := by simp [hl]
  rw [e, List.filter_eq_self]
  intro i hi
  have hi' : i < (scene.zip image).length := by rw [e]; exact List.mem_range.1 hi
  rw [List.getElem?_eq_getElem hi']
  have := h _ (List.getElem_mem hi')
  unfold isInlier
  simpa using this

theorem fits_of_all (lib : Lib P3 P2 Pose E) {scene : List P3} {image : List P2} (hl : scene.length = image.length)
    {p : Pose} (h : image.length ≤ (inliers lib scene image p).length) : Fits lib scene image p := by
  intro e he
  obtain ⟨i, hi, rfl⟩ := List.mem_iff_getElem.1 he
  have e : (scene.zip image).length = image.length := by simp [hl]
  have hsub : (inliers lib scene image p).Sublist (List.range image.length) := by
    unfold inliers; rw [e]; exact List.filter_sublist
  have heq : inliers lib scene image p = List.range image.length := hsub.eq_of_length_le (by simpa using h)
  have hm : i ∈ inliers lib scene image p := by rw [heq, List.mem_range, ← e]; exact hi
  obtain ⟨a, b, h1, h2, h3⟩ := (Ransac.C29_inlier lib scene image p i).1 hm
  have ea : scene[i]'(by simp at hi; omega) = a := (List.getElem?_eq_some_iff.1 h1).2
  have eb : image[i]'(by simp at hi; omega) = b := (List.getElem?_eq_some_iff.1 h2).2
  simp only [List.getElem_zip, ea, eb]
  exact h3

/-- C84: if the model of some sample fits all points within the threshold, and the samples before do not end the search,
the robust search keeps all points, and its pose is the refinement, on all points, of a model that fits them all. -/
theorem C84_search (lib : Lib P3 P2 Pose E) (hs : ∀ k l, (lib.shuffle k l).Perm l) (scene : List P3) (image : List P2)
    (hl : scene.length = image.length) (hn : 4 ≤ image.length) (it j : Nat) (init cur : Pose) (hj : j < it)
    (hfit : Fits lib scene image (model lib scene image cur j))
    (hgo : ∀ k < j, ((j - k : Nat) : Int) ≤
      lib.trials (inliers lib scene image (model lib scene image cur k)).length scene.length) :
    ∃ k ≤ j, Fits lib scene image (model lib scene image cur k) ∧ ransacP3P lib scene image it true init cur =
      .ok (List.range image.length, lib.refine (model lib scene image cur k) (scene.zip image)) := by
  obtain ⟨n, hnit, inl, pose, h1, h2, h3⟩ := Ransac.C29_search lib hs scene image hl hn it true init cur
  have hall := inliers_all lib hl hfit
  have hjn : j < n := by
    rcases h3 with ⟨_, _, h⟩ | ⟨k, hk, e, _, _, _, h, _⟩
    · omega
    · rcases h with h | h
      · omega
      · by_contra hc
        have := hgo k (by omega)
        rw [e] at h
        omega
  have hle := h2 j hjn
  rw [hall, List.length_range] at hle
  rcases h3 with ⟨h, _, _⟩ | ⟨k, hk, e, _, hfirst, hp, _, _⟩
  · rw [h, List.length_nil] at hle
    omega
  · have hkf : Fits lib scene image (model lib scene image cur k) := fits_of_all lib hl (by rw [← e]; exact hle)
    have hkj : k ≤ j := by
      by_contra hc
      have := hfirst j (by omega)
      rw [hall, List.length_range, e, inliers_all lib hl hkf, List.length_range] at this
      omega
    refine ⟨k, hkj, hkf, ?_⟩
    rw [h1, hp, e, inliers_all lib hl hkf, List.length_range, if_pos ⟨rfl, hn⟩]
    have : (List.range image.length).filterMap (fun i => (scene.zip image)[i]?) = scene.zip image := by
      have := select_range (scene.zip image)
      unfold select at this
      rwa [List.length_zip, hl, Nat.min_self] at this
    rw [this]

end

section
variable {G Pt P E : Type} [Group G] [SMul G Pt] [LinearOrder E]

/-- The library routines are exact: on a scene that exactly one pose explains, some sample among the allowed trials has a
model that fits all correspondences (and the samples before do not end the search), and the refinement of a model that
fits finds the pose that explains all. `pix` is the projection to the pixels the library works with. -/
structure ExactLib (pix : Pt → P) (lib : Lib Pt P G E) (it : Nat) : Prop where
  shuffle : ∀ k l, (lib.shuffle k l).Perm l
  sample : ∀ scene image (g cur : G), scene.length = image.length → 4 ≤ image.length → Explains pix g scene image →
    (∀ g', Explains pix g' scene image → g' = g) → ∃ j < it, Fits lib scene image (model lib scene image cur j) ∧
      ∀ k < j, ((j - k : Nat) : Int) ≤ lib.trials (inliers lib scene image (model lib scene image cur k)).length scene.length
  refine : ∀ scene image (g m : G), scene.length = image.length → Explains pix g scene image →
    (∀ g', Explains pix g' scene image → g' = g) → Fits lib scene image m → lib.refine m (scene.zip image) = g

theorem ransac_exact {pix : Pt → P} {lib : Lib Pt P G E} {it : Nat} (h : ExactLib pix lib it) {scene : List Pt}
    {image : List P} {g : G} (hl : scene.length = image.length) (hn : 4 ≤ image.length) (he : Explains pix g scene image)
    (hu : ∀ g', Explains pix g' scene image → g' = g) (init cur : G) :
    ransacP3P lib scene image it true init cur = .ok (List.range image.length, g) := by
  obtain ⟨j, hj, hf, hgo⟩ := h.sample scene image g cur hl hn he hu
  obtain ⟨k, _, hk, hr⟩ := C84_search lib h.shuffle scene image hl hn it j init cur hj hf hgo
  rw [hr, h.refine scene image g _ hl he hu hk]

theorem explains_map {pix : Pt → P} (u : P → P) (g : G) (scene : List Pt) (image : List P)
    (h : Explains pix g scene image) : Explains (fun x => u (pix x)) g scene (image.map u) := by
  intro e he
  rw [List.zip_map_right] at he
  obtain ⟨e', h1, rfl⟩ := List.mem_map.1 he
  show u e'.2 = _
  rw [h _ h1]
  rfl

/-- C84: the searches the program makes are exact on exact data, for perspective cameras (the library works with the
pixels) and for fisheye cameras (it works with undistorted pixels, and undistortion confuses no two of them). -/
theorem C84_searches (lib0 lib1 : Nat → Nat → Lib Pt P G E) (undist : Nat → P → P) (md : Nat → Int) (it : Nat)
    (garbage : Nat → G) (pix : Nat → Pt → P) (hm : ∀ c, md c = 0 ∨ md c = 1)
    (h0 : ∀ k c, md c = 0 → ExactLib (pix c) (lib0 k c) it)
    (h1 : ∀ k c, md c = 1 → ExactLib (fun x => undist c (pix c x)) (lib1 k c) it)
    (hinj : ∀ c, md c = 1 → Function.Injective (undist c)) :
    ExactSearch pix (searches lib0 lib1 undist md it garbage) := by
  intro k c scene image g hl hn he hu
  unfold searches ransacP3PDistortion
  rcases hm c with h | h
  · rw [if_pos h]
    exact ransac_exact (h0 k c h) hl hn he hu _ _
  · rw [if_neg (by omega), if_pos h]
    have := ransac_exact (h1 k c h) (scene := scene) (image := image.map (undist c)) (by simpa using hl) (by simpa using hn)
      (explains_map (undist c) g scene image he) (fun g' hg' => hu g' (by
        intro e hx
        have : (e.1, undist c e.2) ∈ scene.zip (image.map (undist c)) := by
          rw [List.zip_map_right]
          exact List.mem_map.2 ⟨e, hx, rfl⟩
        exact hinj c h (hg' _ this))) (garbage k) (garbage k)
    rw [this, List.length_map]

end
end Verif.Props.Pixels
