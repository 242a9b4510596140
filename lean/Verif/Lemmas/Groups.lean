import Verif.Spec.Groups
import Verif.Lemmas.ObjectsCollection

namespace Verif.Lemmas.Groups
open Verif Verif.Objects Verif.Groups Verif.Structure Verif.Spec.Groups Verif.Spec.Store
open Verif.Spec.Structure Verif.Lemmas.Structure Verif.Lemmas.Objects Relation

variable {G Pt P Path : Type}

/-- Every object observation stems from a board observation of the same camera and frame. -/
def FromBoards (l : List (Insertion P Path)) (oo : List (ObjObs P)) : Prop :=
  ∀ o ∈ oo, ∃ a ∈ l, a.obs.cam = o.cam ∧ a.obs.frame = o.frame

theorem mem_frameObjs {oo : List (ObjObs P)} {f i : Nat} :
    i ∈ frameObjs oo f ↔ ∃ o, oo[i]? = some o ∧ o.frame = f := by
  have := Props.Store.positions_get (fun o : ObjObs P => o.frame == f) oo i
  unfold positions at this
  unfold frameObjs
  rw [this]
  simp

theorem cameraViews_iff {nCam nBoard : Nat} {l : List (Insertion P Path)} {s : Store P Path}
    (hs : Describes nCam nBoard l s) {oo : List (ObjObs P)} (hoo : FromBoards l oo) (pose : Nat → G)
    (x y : SeenObject G) (hxy : x.cam ≠ y.cam) :
    (∃ v ∈ cameraViews s oo pose, x ∈ v ∧ y ∈ v) ↔
      ∃ i j a b, oo[i]? = some a ∧ oo[j]? = some b ∧ a.frame = b.frame ∧
        x = ⟨a.cam, a.obj, pose i⟩ ∧ y = ⟨b.cam, b.obj, pose j⟩ := by
  constructor
  · rintro ⟨v, hv, hx, hy⟩
    unfold cameraViews at hv
    obtain ⟨⟨f, r⟩, he, rfl⟩ := List.mem_map.1 hv
    dsimp only at hx hy
    split at hx
    · rename_i hlen
      rw [if_pos hlen] at hy
      have key : ∀ z : SeenObject G, z ∈ (frameObjs oo f).filterMap
          (fun i => (oo[i]?).map fun o => (⟨o.cam, o.obj, pose i⟩ : SeenObject G)) →
          ∃ i a, oo[i]? = some a ∧ a.frame = f ∧ z = ⟨a.cam, a.obj, pose i⟩ := by
        intro z hz
        obtain ⟨i, hi, hz⟩ := List.mem_filterMap.1 hz
        obtain ⟨a, ha, hf⟩ := mem_frameObjs.1 hi
        rw [ha] at hz
        simp only [Option.map_some, Option.some.injEq] at hz
        exact ⟨i, a, ha, hf, hz.symm⟩
      obtain ⟨i, a, h1, h2, h3⟩ := key x hx
      obtain ⟨j, b, h1', h2', h3'⟩ := key y hy
      exact ⟨i, j, a, b, h1, h1', h2.trans h2'.symm, h3, h3'⟩
    · cases hx
  · rintro ⟨i, j, a, b, ha, hb, hf, rfl, rfl⟩
    obtain ⟨p, hp, hp1, hp2⟩ := hoo a (List.mem_of_getElem? ha)
    obtain ⟨q, hq, hq1, hq2⟩ := hoo b (List.mem_of_getElem? hb)
    have hk := (hs.frame_key a.frame).2 ⟨p, hp, hp2⟩
    obtain ⟨r, hr⟩ := OMap.mem_keys.1 hk
    obtain ⟨h1, _, _⟩ := hs.frame _ r hr
    have hlen : r.boards.length > 1 := by
      obtain ⟨ip, hip⟩ := List.mem_iff_getElem?.1 hp
      obtain ⟨iq, hiq⟩ := List.mem_iff_getElem?.1 hq
      apply length_gt_one_of_ne (a := ip) (b := iq)
      · rw [h1]; exact (Props.Store.positions_get _ _ _).2 ⟨p, hip, by simp [byFrame, hp2]⟩
      · rw [h1]; exact (Props.Store.positions_get _ _ _).2 ⟨q, hiq, by simp [byFrame, hq2, hf]⟩
      · rintro rfl
        rw [hip] at hiq
        simp only [Option.some.injEq] at hiq
        subst hiq
        exact hxy (hp1.symm.trans hq1)
    refine ⟨_, List.mem_map.2 ⟨_, (OMap.get?_eq_some hs.frames_sorted).1 hr, rfl⟩, ?_, ?_⟩
    · rw [if_pos hlen, List.mem_filterMap]
      exact ⟨i, mem_frameObjs.2 ⟨a, ha, rfl⟩, by rw [ha]; rfl⟩
    · rw [if_pos hlen, List.mem_filterMap]
      exact ⟨j, mem_frameObjs.2 ⟨b, hb, hf.symm⟩, by rw [hb]; rfl⟩

theorem cameraPair_eq_some [Group G] {x y : SeenObject G} {k : Nat × Nat} {z : G} :
    cameraPair x y = some (k, z) ↔ x.cam ≠ y.cam ∧ x.obj = y.obj ∧ k = (x.cam, y.cam) ∧
      z = y.pose * x.pose⁻¹ := by
  unfold cameraPair
  split
  · rename_i h
    split
    · rename_i h'
      simp only [Option.some.injEq, Prod.mk.injEq]
      exact ⟨fun ⟨a, b⟩ => ⟨h, h', a.symm, b.symm⟩, fun ⟨_, _, a, b⟩ => ⟨a.symm, b.symm⟩⟩
    · rename_i h'
      simp only [reduceCtorEq, false_iff]
      exact fun q => h' q.2.1
  · rename_i h
    simp only [reduceCtorEq, false_iff]
    exact fun h' => h h'.1

theorem mem_keys_cameraPairs [Group G] {nCam nBoard : Nat} {l : List (Insertion P Path)}
    {s : Store P Path} (hs : Describes nCam nBoard l s) {oo : List (ObjObs P)}
    (hoo : FromBoards l oo) (pose : Nat → G) (a b : Nat) :
    (a, b) ∈ OMap.keys (cameraPairs s oo pose) ↔ ShareObject oo a b := by
  unfold cameraPairs
  rw [mem_keys_pairTable]
  constructor
  · rintro ⟨v, hv, x, hx, y, hy, z, hz⟩
    obtain ⟨hne, ho, hk, _⟩ := cameraPair_eq_some.1 hz
    obtain ⟨i, j, p, q, h1, h2, h3, rfl, rfl⟩ := (cameraViews_iff hs hoo pose x y hne).1 ⟨v, hv, hx, hy⟩
    simp only [Prod.mk.injEq] at hk
    obtain ⟨rfl, rfl⟩ := hk
    exact ⟨hne, p, List.mem_of_getElem? h1, q, List.mem_of_getElem? h2, h3, ho, rfl, rfl⟩
  · rintro ⟨hne, p, hp, q, hq, h3, ho, rfl, rfl⟩
    obtain ⟨i, hi⟩ := List.mem_iff_getElem?.1 hp
    obtain ⟨j, hj⟩ := List.mem_iff_getElem?.1 hq
    obtain ⟨v, hv, hx, hy⟩ := (cameraViews_iff hs hoo pose ⟨p.cam, p.obj, pose i⟩
      ⟨q.cam, q.obj, pose j⟩ hne).2 ⟨i, j, p, q, hi, hj, h3, rfl, rfl⟩
    exact ⟨v, hv, _, hx, _, hy, _, cameraPair_eq_some.2 ⟨hne, ho, rfl, rfl⟩⟩

theorem get?_cameraPairs [Group G] {nCam nBoard : Nat} {l : List (Insertion P Path)}
    {s : Store P Path} (hs : Describes nCam nBoard l s) {oo : List (ObjObs P)}
    (hoo : FromBoards l oo) (pose : Nat → G) {a b : Nat} {zs : List G}
    (h : OMap.get? (cameraPairs s oo pose) (a, b) = some zs) :
    zs ≠ [] ∧ ∀ z ∈ zs, ∃ i j p q, oo[i]? = some p ∧ oo[j]? = some q ∧ p.frame = q.frame ∧
      p.obj = q.obj ∧ p.cam = a ∧ q.cam = b ∧ z = pose j * (pose i)⁻¹ := by
  obtain ⟨hne, hz⟩ := get?_pairTable _ _ h
  refine ⟨hne, fun z hzz => ?_⟩
  obtain ⟨v, hv, x, hx, y, hy, he⟩ := hz z hzz
  obtain ⟨hxy, ho, hk, rfl⟩ := cameraPair_eq_some.1 he
  obtain ⟨i, j, p, q, h1, h2, h3, rfl, rfl⟩ := (cameraViews_iff hs hoo pose x y hxy).1 ⟨v, hv, hx, hy⟩
  simp only [Prod.mk.injEq] at hk
  obtain ⟨rfl, rfl⟩ := hk
  exact ⟨i, j, p, q, h1, h2, h3, ho, rfl, rfl, rfl⟩

theorem cameraVertices_eq {nCam nBoard : Nat} {l : List (Insertion P Path)} {s : Store P Path}
    (hs : Describes nCam nBoard l s) : cameraVertices s = observingCams nCam l := by
  unfold cameraVertices observingCams
  rw [hs.cams_length]
  apply List.filter_congr
  intro b hb
  rw [List.mem_range] at hb
  have hb' : b < s.cams.length := by rw [hs.cams_length]; exact hb
  have hr := List.getElem?_eq_getElem hb'
  rw [hr, Option.any_some, (hs.cam b _ hr).1, Bool.eq_iff_iff, decide_eq_true_iff,
    gt_iff_lt, List.length_pos_iff_exists_mem, List.any_eq_true]
  constructor
  · rintro ⟨i, hi⟩
    obtain ⟨a, ha, hp⟩ := (Props.Store.positions_get _ _ _).1 hi
    exact ⟨a, List.mem_of_getElem? ha, hp⟩
  · rintro ⟨a, ha, hp⟩
    obtain ⟨i, hi⟩ := List.mem_iff_getElem?.1 ha
    exact ⟨i, (Props.Store.positions_get _ _ _).2 ⟨a, hi, hp⟩⟩

theorem observingCams_sorted (nCam : Nat) (l : List (Insertion P Path)) :
    (observingCams nCam l).Pairwise (· < ·) :=
  List.Pairwise.filter _ List.pairwise_lt_range

theorem mem_observingCams {nCam : Nat} {l : List (Insertion P Path)} {c : Nat} :
    c ∈ observingCams nCam l ↔ c < nCam ∧ ∃ a ∈ l, a.obs.cam = c := by
  unfold observingCams
  simp [List.mem_filter, List.any_eq_true]

theorem shareObject_symm {oo : List (ObjObs P)} {a b : Nat} (h : ShareObject oo a b) :
    ShareObject oo b a := by
  obtain ⟨hne, x, hx, y, hy, h1, h2, h3, h4⟩ := h
  exact ⟨hne.symm, y, hy, x, hx, h1.symm, h2.symm, h4, h3⟩

theorem cams_tableOk [Group G] {nCam nBoard : Nat} {l : List (Insertion P Path)}
    (hl : ∀ a ∈ l, a.obs.cam < nCam ∧ a.obs.board < nBoard)
    {s : Store P Path} (hs : Describes nCam nBoard l s) {oo : List (ObjObs P)}
    (hoo : FromBoards l oo) (pose : Nat → G) :
    TableOk (observingCams nCam l) (cameraPairs s oo pose) where
  vs_sorted := observingCams_sorted _ _
  ne := fun a b h => ((mem_keys_cameraPairs hs hoo pose a b).1 h).1
  symm := fun a b h => (mem_keys_cameraPairs hs hoo pose b a).2
    (shareObject_symm ((mem_keys_cameraPairs hs hoo pose a b).1 h))
  mem := fun a b h => by
    obtain ⟨_, x, hx, y, _, _, _, rfl, _⟩ := (mem_keys_cameraPairs hs hoo pose a b).1 h
    obtain ⟨p, hp, h1, _⟩ := hoo x hx
    exact mem_observingCams.2 ⟨h1 ▸ (hl p hp).1, p, hp, h1⟩

theorem measured_cams [Group G] {nCam nBoard : Nat} {l : List (Insertion P Path)}
    {s : Store P Path} (hs : Describes nCam nBoard l s) {oo : List (ObjObs P)}
    (hoo : FromBoards l oo) (pose : Nat → G) :
    Measured (cameraPairs s oo pose) = ShareObject oo := by
  funext a b
  exact propext (mem_keys_cameraPairs hs hoo pose a b)

/-! ### Building a group -/

/-- Group under construction with cameras `c` inserted so far. -/
structure Filled (c : List Nat) (pl : Nat → G) (g : CamGroup G) : Prop where
  cameras_sorted : OMap.Sorted g.cameras
  poses_sorted : OMap.Sorted g.poses
  camIdx : g.camIdx = c
  keys : ∀ q, q ∈ OMap.keys g.cameras ↔ q ∈ c
  poses : ∀ q, OMap.get? g.poses q = if q ∈ c then some (pl q) else none
  objObs : g.objObs = []
  frames : g.frames = []

theorem filled_init (pl : Nat → G) (i r : Nat) : Filled [] pl ({ id := i, refCam := r } : CamGroup G) :=
  ⟨List.Pairwise.nil, List.Pairwise.nil, rfl, by simp [OMap.keys], by simp, rfl, rfl⟩

theorem filled_insert {c : List Nat} {pl : Nat → G} {g : CamGroup G} (h : Filled c pl g) (q : Nat)
    (hq : q ∉ c) : Filled (c ++ [q]) pl (insertCamera g q (pl q)) ∧
      (insertCamera g q (pl q)).id = g.id ∧ (insertCamera g q (pl q)).refCam = g.refCam := by
  refine ⟨⟨OMap.sorted_set _ _ _ h.cameras_sorted, OMap.sorted_set _ _ _ h.poses_sorted, ?_, ?_, ?_,
    h.objObs, h.frames⟩, rfl, rfl⟩
  · show g.camIdx ++ [q] = _
    rw [h.camIdx]
  · intro k
    show k ∈ OMap.keys (OMap.set g.cameras q ()) ↔ _
    rw [OMap.mem_keys_set h.cameras_sorted, h.keys, List.mem_append, List.mem_singleton, or_comm]
  · intro k
    show OMap.get? (OMap.set g.poses q (pl q)) k = _
    rw [OMap.get?_set _ _ _ _ h.poses_sorted, h.poses]
    by_cases hk : k = q
    · subst hk; simp
    · simp [hk]

theorem Filled.camPerm {c : List Nat} {pl : Nat → G} {g : CamGroup G} (h : Filled c pl g)
    (hnd : c.Nodup) : g.camIdx.Perm (OMap.keys g.cameras) := by
  rw [h.camIdx]
  exact (List.perm_ext_iff_of_nodup hnd (OMap.keys_nodup h.cameras_sorted)).2 fun q => (h.keys q).symm

theorem Filled.posesKeys {c : List Nat} {pl : Nat → G} {g : CamGroup G} (h : Filled c pl g) :
    OMap.keys g.poses = OMap.keys g.cameras := by
  apply OMap.sorted_keys_ext (OMap.keys_sorted h.poses_sorted) (OMap.keys_sorted h.cameras_sorted)
  intro k
  rw [h.keys, OMap.mem_keys, h.poses]
  by_cases hk : k ∈ c <;> simp [hk]

theorem foldlM_placeCamera [Group G] (nCam : Nat) (T : OMap (Nat × Nat) G) (g : Graph Nat)
    (choose : Nat → Nat → Graph.DState → Nat) (r : Nat) (pl : Nat → G) (c d : List Nat)
    (hnd : (d ++ c).Nodup) (hlt : ∀ b ∈ c, b < nCam)
    (hpl : ∀ b ∈ c, placement id T g (choose r b) r b = .ok (pl b))
    (st : CamGroup G) (hst : Filled d pl st) :
    ∃ st', Outcome.foldlM (placeCamera nCam T g choose r) st c = .ok st' ∧ Filled (d ++ c) pl st' ∧
      st'.id = st.id ∧ st'.refCam = st.refCam := by
  induction c generalizing st d with
  | nil => exact ⟨st, rfl, by simpa using hst, rfl, rfl⟩
  | cons b c ih =>
    have hb : b ∉ d := by
      rw [List.nodup_append] at hnd
      exact fun h => hnd.2.2 b h b (by simp) rfl
    obtain ⟨h1, h2, h3⟩ := filled_insert hst b hb
    obtain ⟨st', e, i1, i2, i3⟩ := ih (d ++ [b]) (by simpa using hnd)
      (fun b' h => hlt b' (by simp [h])) (fun b' h => hpl b' (by simp [h])) _ h1
    refine ⟨st', ?_, by simpa using i1, i2.trans h2, i3.trans h3⟩
    rw [Outcome.foldlM_cons]
    have : placeCamera nCam T g choose r st b = .ok (insertCamera st b (pl b)) := by
      unfold placeCamera
      rw [if_pos (hlt b (by simp)), Outcome.deref_some, Outcome.bind_ok, hpl b (by simp),
        Outcome.bind_ok]
      rfl
    rw [this, Outcome.bind_ok, e]

/-- What is known of a group made from the component `c`. -/
structure MadeFrom [Group G] (pl : Nat → Nat → G) (i : Nat) (c : List Nat) (g : CamGroup G) : Prop where
  id : g.id = i
  ref : c.head? = some g.refCam
  filled : Filled c (pl g.refCam) g

theorem initGroup_ok [Group G] (nCam : Nat) (T : OMap (Nat × Nat) G) (g : Graph Nat)
    (choose : Nat → Nat → Graph.DState → Nat) (i r : Nat) (c : List Nat) (pl : Nat → Nat → G)
    (hs : (r :: c).Pairwise (· < ·)) (hlt : ∀ b ∈ r :: c, b < nCam)
    (hpl : ∀ b ∈ r :: c, placement id T g (choose r b) r b = .ok (pl r b)) :
    ∃ o : CamGroup G, initGroup nCam T g choose i (r :: c) = .ok o ∧ MadeFrom pl i (r :: c) o := by
  obtain ⟨st, e, h1, h2, h3⟩ := foldlM_placeCamera nCam T g choose r (pl r) (r :: c) []
    (show ([] ++ (r :: c)).Nodup from hs.imp Nat.ne_of_lt) hlt hpl { id := i, refCam := r } (filled_init _ i r)
  refine ⟨st, ?_, h2, ?_, ?_⟩
  · unfold initGroup
    rw [minElement_sorted hs, Outcome.bind_ok, e]
  · rw [h3]; rfl
  · rw [h3]; simpa using h1

/-- A placement function for a table. -/
theorem exists_pl [Group G] {vs : List Nat} {t : PairTable G} (hT : TableOk vs t) (step : G → G)
    (avg : List G → G) (choose : Nat → Nat → Graph.DState → Nat) :
    ∃ pl : Nat → Nat → G, ∀ r ∈ vs, ∀ j, ReflTransGen (Measured t) r j →
      placement step (interTransform avg t) (Graph.run (graphCalls vs (tableEdges t)))
        (choose r j) r j = .ok (pl r j) := by
  refine ⟨fun r j => match placement step (interTransform avg t)
    (Graph.run (graphCalls vs (tableEdges t))) (choose r j) r j with
    | .ok x => x
    | _ => 1, ?_⟩
  intro r hr j hj
  obtain ⟨p, _, _, h⟩ := hT.placement step avg (choose r j) hr hj
  dsimp only
  rw [h]

theorem buildGroups_ok [Group G] {nCam nBoard : Nat} {l : List (Insertion P Path)}
    (hl : ∀ a ∈ l, a.obs.cam < nCam ∧ a.obs.board < nBoard) {s : Store P Path}
    (hs : Describes nCam nBoard l s) {oo : List (ObjObs P)} (hoo : FromBoards l oo)
    (pose : Nat → G) (avg : List G → G) (choose : Nat → Nat → Graph.DState → Nat) :
    ∃ gs pl, buildGroups s oo pose avg choose = .ok gs ∧ Collection gs ∧
      OMap.keys gs = List.range gs.length ∧
      (∀ r ∈ observingCams nCam l, ∀ j, ReflTransGen (ShareObject oo) r j →
        placement id (interTransform avg (cameraPairs s oo pose))
          (Graph.run (graphCalls (observingCams nCam l) (tableEdges (cameraPairs s oo pose))))
          (choose r j) r j = .ok (pl r j)) ∧
      IsPartition (ShareObject oo) (observingCams nCam l) (gs.map fun e => OMap.keys e.2.cameras) ∧
      ∀ i g, OMap.get? gs i = some g → MadeFrom pl i (OMap.keys g.cameras) g := by
  have hT := cams_tableOk hl hs hoo pose
  have hpart := hT.partition
  obtain ⟨pl, hpl⟩ := exists_pl hT id avg choose
  have hg : cameraGraph s (cameraPairs s oo pose) = Graph.run (graphCalls (observingCams nCam l)
      (tableEdges (cameraPairs s oo pose))) := by
    unfold cameraGraph; rw [cameraVertices_eq hs]
  rw [← hg] at hpart
  rw [measured_cams hs hoo pose] at hpart hpl
  obtain ⟨m, e, hk, hsm, hm⟩ := foldlM_number
    (fun i c => initGroup (G := G) nCam (interTransform avg (cameraPairs s oo pose))
      (cameraGraph s (cameraPairs s oo pose)) choose i c)
    (fun i c o => MadeFrom pl i c o)
    (cameraGraph s (cameraPairs s oo pose)).connectedComponents (by
      intro i c hc
      have hcm := List.mem_of_getElem? hc
      have hsub : ∀ b ∈ c, b ∈ observingCams nCam l := fun b hbc =>
        hpart.perm.subset (List.mem_flatten.2 ⟨c, hcm, hbc⟩)
      cases c with
      | nil => exact absurd rfl (hpart.nonempty _ hcm)
      | cons r c =>
        apply initGroup_ok _ _ _ _ _ _ _ _ (hpart.sorted _ hcm)
        · intro b hbc; exact (mem_observingCams.1 (hsub b hbc)).1
        · intro b hbc
          have := hpl r (hsub r (by simp)) b ((hpart.linked _ hcm r (by simp) b).1 hbc)
          rw [hg]; exact this)
  have hlen : m.length = (cameraGraph s (cameraPairs s oo pose)).connectedComponents.length := by
    have := congrArg List.length hk
    simpa [OMap.keys] using this
  have hkeys : ∀ i c g, (cameraGraph s (cameraPairs s oo pose)).connectedComponents[i]? = some c →
      MadeFrom pl i c g → OMap.keys g.cameras = c := by
    intro i c g hc hmf
    apply OMap.sorted_keys_ext (OMap.keys_sorted hmf.filled.cameras_sorted)
      (natKey_sorted (hpart.sorted c (List.mem_of_getElem? hc)))
    exact hmf.filled.keys
  have hmap := keys_eq_map (fun o : CamGroup G => OMap.keys o.cameras) hk hsm (fun i c hc => by
    obtain ⟨v, h1, h2⟩ := hm i c hc
    exact ⟨v, h1, hkeys i c v hc h2⟩)
  have hget : ∀ i g, OMap.get? m i = some g →
      (cameraGraph s (cameraPairs s oo pose)).connectedComponents[i]? = some (OMap.keys g.cameras) ∧
        MadeFrom pl i (OMap.keys g.cameras) g := by
    intro i g ho
    have hi : i ∈ OMap.keys m := OMap.mem_keys.2 ⟨g, ho⟩
    rw [hk, List.mem_range] at hi
    obtain ⟨o', h1, h2⟩ := hm i _ (List.getElem?_eq_getElem hi)
    rw [ho] at h1
    simp only [Option.some.injEq] at h1
    subst h1
    have := hkeys i _ g (List.getElem?_eq_getElem hi) h2
    rw [this]
    exact ⟨List.getElem?_eq_getElem hi, h2⟩
  have hcollection : Collection m := by
    refine ⟨hsm, fun i g h => (hget i g h).2.id, fun i g h => (hget i g h).2.filled.cameras_sorted,
      fun i g h => (hget i g h).2.filled.poses_sorted, fun i g h => (hget i g h).2.filled.posesKeys,
      ?_, ?_, ?_, ?_, ?_, ?_⟩
    · intro i g h
      exact (hget i g h).2.filled.camPerm (OMap.keys_nodup (hget i g h).2.filled.cameras_sorted)
    · intro i j g g' hi hj c hc hc'
      exact hpart.index_unique ((observingCams_sorted nCam l).imp Nat.ne_of_lt) (hget i g hi).1
        (hget j g' hj).1 hc hc'
    · intro i g h; exact mem_of_head? (hget i g h).2.ref
    · intro i g h c hc
      exact head_le (hpart.sorted _ (List.mem_of_getElem? (hget i g h).1)) (hget i g h).2.ref hc
    · intro i g h
      have hr := (hget i g h).2.ref
      have hmem : g.refCam ∈ observingCams nCam l := hpart.perm.subset (List.mem_flatten.2
        ⟨_, List.mem_of_getElem? (hget i g h).1, mem_of_head? hr⟩)
      have h1 := hpl g.refCam hmem g.refCam ReflTransGen.refl
      rw [hT.placement_self id avg (choose g.refCam g.refCam) hmem] at h1
      simp only [Outcome.ok.injEq] at h1
      rw [(hget i g h).2.filled.poses, if_pos (mem_of_head? hr), ← h1]
    · intro i j g g' hi hj hij
      exact hpart.heads_lt (hget i g hi).1 (hget j g' hj).1 hij (hget i g hi).2.ref (hget j g' hj).2.ref
  refine ⟨m, pl, ?_, hcollection, by rw [hlen, hk], hpl, by rw [hmap]; exact hpart,
    fun i g h => (hget i g h).2⟩
  unfold buildGroups initCameraGroup
  rw [hs.cams_length]
  exact e

end Verif.Lemmas.Groups
