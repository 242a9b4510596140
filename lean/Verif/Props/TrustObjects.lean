import Verif.Lemmas.TrustObjects
import Verif.Props.Trust
import Verif.Props.Majority

/-!
C79, C80 for objects merged because a camera group saw them together (McCalib.cpp:2128-2134, 1650-1814): which measurements decide
where their boards end.
-/
namespace Verif.Props.TrustObjects
open Verif Verif.Objects Verif.Groups Verif.Structure Verif.GroupPose Verif.Spec.Groups Verif.Spec.Structure Verif.Spec.Trust
open Verif.Lemmas.Trust Verif.Lemmas.TrustObjects Relation
open Verif.Props.Trust (Unordered)
open Verif.Lemmas.Structure

variable {V G Pt P : Type}

/-- The pose of object `j` in camera group `i` in frame `f`, as computed from its observations by the cameras of the group. -/
def posedIn [Group G] (ofVec : V → G) (op : OMap (Nat × Nat) (OMap Nat V)) (i f j : Nat) : G :=
  (((OMap.get? op (i, f)).bind fun m => OMap.get? m j).map ofVec).getD 1

section
variable [Group G] [SMul G Pt] (ofVec : V → G) (toVec : G → V) (avgV : List V → V)
  (oo : List (ObjObs P)) (frames : List Nat) (t : GroupTables G) (hG : Spec.Groups.Collection t.groups)
  (ht : GroupObsOf oo frames t) (hfr : ∀ o ∈ oo, o.frame ∈ frames)
  {bpts : List (List Pt)} {objs : OMap Nat (Object G Pt)} (hC : Spec.Objects.Collection bpts objs)
  (hobj : ∀ o ∈ oo, o.obj ∈ OMap.keys objs) (avg : List G → G) (havg : Unordered avg)
  (choose : Nat → Nat → Graph.DState → Nat) (pose : Nat → G) (m : OMap Nat (Object G Pt))
  (hm : merge3DObjects toVec ofVec avgV avg choose bpts objs t oo pose = .ok m)

include hG ht hfr hC hobj havg hm in
private theorem object_path (i : Nat) (o : Object G Pt) (hio : OMap.get? m i = some o) :
    ∃ r ro, OMap.get? objs r = some ro ∧ ro.refBoard = o.refBoard ∧
      ∀ j oj b g, OMap.get? objs j = some oj → b ∈ OMap.keys o.boards → OMap.get? oj.poses b = some g →
        ∃ p, IsPath (SeenTogether t.groups oo) r j p ∧
          (∀ p', IsPath (SeenTogether t.groups oo) r j p' →
            weakSteps (objectMeasures t.groups oo (posedIn ofVec (objectPoses toVec avgV t oo pose))) p ≤
              weakSteps (objectMeasures t.groups oo (posedIn ofVec (objectPoses toVec avgV t oo pose))) p') ∧
          OMap.get? o.poses b = some (((p.zip p.tail).map fun e =>
            (avg (objectMeasures t.groups oo (posedIn ofVec (objectPoses toVec avgV t oo pose)) e.1 e.2))⁻¹).prod * g) ∧
          (SeenTogether t.groups oo r j →
            ((objectMeasures t.groups oo (posedIn ofVec (objectPoses toVec avgV t oo pose)) r j).length ≠ 1 ∨
              ∀ p', IsPath (SeenTogether t.groups oo) r j p' →
                0 < weakSteps (objectMeasures t.groups oo (posedIn ofVec (objectPoses toVec avgV t oo pose))) p') → p = [r, j]) := by
  have hO := Props.GroupPose.objectTable ofVec (objectPoses toVec avgV t oo pose) oo frames t ht hfr hC hobj
  have hT : TableOk (observedObjects objs oo) (objectPairs ofVec (objectPoses toVec avgV t oo pose) t oo) :=
    ⟨hO.increasing, hO.ne, hO.symm, hO.observed⟩
  have hM : Measured (objectPairs ofVec (objectPoses toVec avgV t oo pose) t oo) = SeenTogether t.groups oo := by
    funext a b
    exact propext (Lemmas.GroupPose.mem_keys_objectPairs ofVec _ t oo ht hfr a b)
  unfold merge3DObjects objectGraph at hm
  rw [Lemmas.GroupPose.objectVertices_eq hC] at hm
  obtain ⟨m', pl, h1, h2, h3, h4, cs, h5, h6, h7⟩ := Lemmas.Objects.mergeObjects_ok hC hT
    (fun j hj => (Lemmas.GroupPose.mem_observedObjects.1 hj).1) avg choose
  rw [hm] at h1
  simp only [Outcome.ok.injEq] at h1
  subst h1
  have hi : i < cs.length := by
    have : i ∈ OMap.keys m := OMap.mem_keys.2 ⟨o, hio⟩
    rw [h3, List.mem_range] at this; omega
  obtain ⟨o', h8, h9⟩ := h7 i cs[i] (List.getElem?_eq_getElem hi)
  rw [hio] at h8
  simp only [Option.some.injEq] at h8
  subst h8
  obtain ⟨r, ro, hr, hro, hre⟩ := h9.ref
  have hci : cs[i] ∈ cs := List.getElem_mem hi
  have hrv : r ∈ observedObjects objs oo := h5.perm.subset (List.mem_flatten.2 ⟨_, hci, Lemmas.Objects.mem_of_head? hr⟩)
  refine ⟨r, ro, hro, hre.symm, ?_⟩
  intro j oj b g hoj hbo hg
  have hbj : b ∈ OMap.keys oj.boards := by
    rw [← (hC.good j oj hoj).posed.keys]; exact OMap.mem_keys.2 ⟨g, hg⟩
  obtain ⟨j', hj', oj', q1, q2⟩ := (h9.keys b).1 hbo
  have := hC.disjoint j j' oj oj' hoj q1 b hbj q2
  subst this
  obtain ⟨r', hr', hp⟩ := h9.pose j hj' oj hoj b g hg
  rw [hr] at hr'
  simp only [Option.some.injEq] at hr'
  subst hr'
  have hlink := (h5.linked _ hci r (Lemmas.Objects.mem_of_head? hr) j).1 hj'
  have e1 := h4 r hrv j hlink
  obtain ⟨p, q1, q2, q3, q4⟩ := TableOk.placed hT (pairTable_sorted _ _) (fun x => x⁻¹) avg havg
    (objectMeasures t.groups oo (posedIn ofVec (objectPoses toVec avgV t oo pose)))
    (fun a b hab => objects_perm ofVec _ oo frames t hG ht hfr a b hab) (objectMeasures_symm _ _ _) (choose r j) hrv hlink
  rw [q3] at e1
  simp only [Outcome.ok.injEq] at e1
  rw [hM] at q1 q2 q4
  exact ⟨p, q1, q2, by rw [hp, ← e1], q4⟩

include hG ht hfr hC hobj havg hm in
/-- C79 (objects): when objects seen together by camera groups are merged, the boards of an object are moved as a whole, by the
product, along a path from the object whose reference board is kept through objects seen together, of the average measured relative
poses; no other path has fewer steps that rest on a single measurement. -/
theorem C79_objects (i : Nat) (o : Object G Pt) (hio : OMap.get? m i = some o) :
    ∃ r ro, OMap.get? objs r = some ro ∧ ro.refBoard = o.refBoard ∧
      ∀ j oj b g, OMap.get? objs j = some oj → b ∈ OMap.keys o.boards → OMap.get? oj.poses b = some g →
        ∃ p, IsPath (SeenTogether t.groups oo) r j p ∧
          (∀ p', IsPath (SeenTogether t.groups oo) r j p' →
            weakSteps (objectMeasures t.groups oo (posedIn ofVec (objectPoses toVec avgV t oo pose))) p ≤
              weakSteps (objectMeasures t.groups oo (posedIn ofVec (objectPoses toVec avgV t oo pose))) p') ∧
          OMap.get? o.poses b = some (((p.zip p.tail).map fun e =>
            (avg (objectMeasures t.groups oo (posedIn ofVec (objectPoses toVec avgV t oo pose)) e.1 e.2))⁻¹).prod * g) := by
  obtain ⟨r, ro, h1, h2, h3⟩ := object_path ofVec toVec avgV oo frames t hG ht hfr hC hobj avg havg choose pose m hm i o hio
  refine ⟨r, ro, h1, h2, fun j oj b g a1 a2 a3 => ?_⟩
  obtain ⟨p, q1, q2, q3, _⟩ := h3 j oj b g a1 a2 a3
  exact ⟨p, q1, q2, q3⟩

omit [SMul G Pt] in
theorem measured_seen {po : Nat → Nat → Nat → G} {a b : Nat} (hne : a ≠ b) (hG : Spec.Groups.Collection t.groups)
    (h : 0 < (objectMeasures t.groups oo po a b).length) : SeenTogether t.groups oo a b := by
  obtain ⟨z, hz⟩ := List.exists_mem_of_length_pos h
  unfold objectMeasures at hz
  obtain ⟨x, hx, hz⟩ := List.mem_flatMap.1 hz
  obtain ⟨y, hy, hz⟩ := List.mem_filterMap.1 hz
  split at hz
  swap
  · cases hz
  rename_i hc
  unfold seenBy at hx hy
  obtain ⟨⟨i, g⟩, he, kx⟩ := List.mem_flatMap.1 hx
  obtain ⟨⟨i', g'⟩, he', ky⟩ := List.mem_flatMap.1 hy
  obtain ⟨x', jx, rfl⟩ := List.mem_map.1 kx
  obtain ⟨y', jy, rfl⟩ := List.mem_map.1 ky
  obtain ⟨hx1, hx2⟩ := List.mem_filter.1 jx
  obtain ⟨hy1, hy2⟩ := List.mem_filter.1 jy
  obtain ⟨hi, hf, ha, hb⟩ := hc
  dsimp only at *
  subst hi
  have e := (OMap.get?_eq_some hG.sorted).2 he
  have e' := (OMap.get?_eq_some hG.sorted).2 he'
  rw [e] at e'
  simp only [Option.some.injEq] at e'
  subst e'
  exact ⟨hne, i, g, x', y', e, hx1, hy1, hf, by simpa using hx2, by simpa using hy2, ha, hb⟩

include hG ht hfr hC hobj havg hm in
/-- C80 (objects): the boards of an object seen together with the kept object at least twice, or once when every other path rests on
a single measurement somewhere, are moved by the average of these direct measurements alone. -/
theorem C80_objects (i : Nat) (o : Object G Pt) (hio : OMap.get? m i = some o) :
    ∃ r ro, OMap.get? objs r = some ro ∧ ro.refBoard = o.refBoard ∧
      ∀ j oj b g, OMap.get? objs j = some oj → j ≠ r → b ∈ OMap.keys o.boards → OMap.get? oj.poses b = some g →
        (2 ≤ (objectMeasures t.groups oo (posedIn ofVec (objectPoses toVec avgV t oo pose)) r j).length ∨
          ((objectMeasures t.groups oo (posedIn ofVec (objectPoses toVec avgV t oo pose)) r j).length = 1 ∧
            ∀ p, IsPath (SeenTogether t.groups oo) r j p →
              0 < weakSteps (objectMeasures t.groups oo (posedIn ofVec (objectPoses toVec avgV t oo pose))) p)) →
        OMap.get? o.poses b =
          some ((avg (objectMeasures t.groups oo (posedIn ofVec (objectPoses toVec avgV t oo pose)) r j))⁻¹ * g) := by
  obtain ⟨r, ro, h1, h2, h3⟩ := object_path ofVec toVec avgV oo frames t hG ht hfr hC hobj avg havg choose pose m hm i o hio
  refine ⟨r, ro, h1, h2, fun j oj b g a1 hne a2 a3 hd => ?_⟩
  obtain ⟨p, _, _, q3, q4⟩ := h3 j oj b g a1 a2 a3
  have hs : SeenTogether t.groups oo r j := measured_seen oo t
    (po := posedIn ofVec (objectPoses toVec avgV t oo pose)) (Ne.symm hne) hG (by rcases hd with h | h <;> omega)
  have := q4 hs (by
    rcases hd with h | h
    · exact Or.inl (by omega)
    · exact Or.inr h.2)
  subst this
  rw [q3]
  simp

end

/-! ### Outliers -/

section
variable {K : Type} [Field K] [LinearOrder K] [IsStrictOrderedRing K] [Group G] [SMul G Pt] (toVec : G → Average.Vec6 K)
  (ofVec : Average.Vec6 K → G) (hv : ∀ g, ofVec (toVec g) = g) (avgV : List (Average.Vec6 K) → Average.Vec6 K)
  (oo : List (ObjObs P)) (frames : List Nat) (t : GroupTables G) (hG : Spec.Groups.Collection t.groups)
  (ht : GroupObsOf oo frames t) (hfr : ∀ o ∈ oo, o.frame ∈ frames)
  {bpts : List (List Pt)} {objs : OMap Nat (Object G Pt)} (hC : Spec.Objects.Collection bpts objs)
  (hobj : ∀ o ∈ oo, o.obj ∈ OMap.keys objs)
  (choose : Nat → Nat → Graph.DState → Nat) (pose : Nat → G) (m : OMap Nat (Object G Pt))
  (hm : merge3DObjects toVec ofVec avgV (Average.interAverage toVec ofVec) choose bpts objs t oo pose = .ok m)

include hv hG ht hfr hC hobj hm in
/-- C94 (objects): if of any two objects seen together more than half of the measured relative poses are the true one, all boards of
merged objects are at their true poses, however wrong the other measurements are. -/
theorem C94_objects (Q : Nat → G)
    (hQ : ∀ a b, SeenTogether t.groups oo a b → Spec.Majority.Most (· = (Q b)⁻¹ * Q a)
      (objectMeasures t.groups oo (posedIn ofVec (objectPoses toVec avgV t oo pose)) a b))
    (i : Nat) (o : Object G Pt) (hio : OMap.get? m i = some o) :
    ∃ r ro, OMap.get? objs r = some ro ∧ ro.refBoard = o.refBoard ∧
      ∀ j oj b g, OMap.get? objs j = some oj → b ∈ OMap.keys o.boards → OMap.get? oj.poses b = some g →
        OMap.get? o.poses b = some ((Q r)⁻¹ * Q j * g) := by
  obtain ⟨r, ro, h1, h2, h3⟩ := C79_objects ofVec toVec avgV oo frames t hG ht hfr hC hobj _ (Props.Trust.C79_average toVec ofVec hv).1
    choose pose m hm i o hio
  refine ⟨r, ro, h1, h2, fun j oj b g a1 a2 a3 => ?_⟩
  obtain ⟨p, q1, _, q3⟩ := h3 j oj b g a1 a2 a3
  rw [q3, ← Verif.Structure.prod_telescope Q p _ _ q1.head q1.last]
  congr 2
  refine congrArg List.prod ?_
  refine List.map_congr_left fun e he => ?_
  rw [Props.Majority.C94_exact toVec ofVec hv _ _ (hQ e.1 e.2 (Props.Majority.chain_zip q1.chain e he)), mul_inv_rev, inv_inv]

end

/-! ### A case -/

open Verif.Props.Trust (Shift shiftAvg)

/-- One group of cameras 0 and 1 sees objects 0 and 1 together three times (frames 0 to 2). -/
def demoSeen : List (ObjObs Unit) :=
  [{ obj := 0, cam := 0, frame := 0 }, { obj := 1, cam := 1, frame := 0 }, { obj := 0, cam := 0, frame := 1 }, { obj := 1, cam := 0, frame := 1 },
   { obj := 0, cam := 1, frame := 2 }, { obj := 1, cam := 0, frame := 2 }]

def demoGroups : OMap Nat (CamGroup Shift) :=
  [(0, { id := 0, refCam := 0, cameras := [(0, ()), (1, ())], camIdx := [0, 1], poses := [(0, 1), (1, 1)] })]

/-- Object 0 is at 0, object 1 at 5 in every frame but the last, where it is at 90. -/
def demoPosed (_ f j : Nat) : Shift := if j = 0 then 1 else if f = 2 then Multiplicative.ofAdd 90 else Multiplicative.ofAdd 5

example : (objectMeasures demoGroups demoSeen demoPosed 0 1).map (·.toAdd) = [-5, -5, -90] := by decide +kernel

example : SeenTogether demoGroups demoSeen 0 1 := by
  refine ⟨by decide, 0, _, demoSeen[0], demoSeen[1], rfl, ?_, ?_, rfl, ?_, ?_, rfl, rfl⟩ <;> decide +kernel

/-- The median keeps the majority. -/
example : (shiftAvg (objectMeasures demoGroups demoSeen demoPosed 0 1)).toAdd = -5 := by decide +kernel

end Verif.Props.TrustObjects
