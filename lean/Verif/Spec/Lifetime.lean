import Verif.Model.Lifetime

/-! No reference dangles, and following a reference gives what is listed under the number stored beside it. -/
namespace Verif.Spec.Lifetime
open Verif Verif.Lifetime

/-- There is an object observation with this address. -/
def LiveObs (m : Mem) (a : Nat) : Prop := ∃ o ∈ m.oo, o.addr = a

/-- All references of the tables. -/
structure NoDangling (m : Mem) : Prop where
  /-- an object observation refers to the object listed under its number -/
  obsObj : ∀ o ∈ m.oo, ∃ x, OMap.get? m.objs o.num = some x ∧ x.addr = o.obj
  /-- the references held by objects, camera observations, cameras, frames and groups -/
  objObs : ∀ i x, OMap.get? m.objs i = some x → ∀ a ∈ x.obs, LiveObs m a
  imgObs : ∀ k as, OMap.get? m.imgObs k = some as → ∀ a ∈ as, LiveObs m a
  camObs : ∀ k as, OMap.get? m.camObs k = some as → ∀ a ∈ as, LiveObs m a
  frObs : ∀ k as, OMap.get? m.frObs k = some as → ∀ a ∈ as, LiveObs m a
  grpObs : ∀ i x, OMap.get? m.grps i = some x → ∀ a ∈ x.obs, LiveObs m a
  /-- a group observation refers to the group listed under its number, and to object observations -/
  gobsGrp : ∀ i f g, OMap.get? m.gobs (i, f) = some g → ∃ x, OMap.get? m.grps i = some x ∧ x.addr = g.grp
  gobsObs : ∀ k g, OMap.get? m.gobs k = some g → ∀ a ∈ g.obs, LiveObs m a
  /-- a frame refers to group observations of that frame -/
  frGrp : ∀ f as, OMap.get? m.frGrp f = some as → ∀ a ∈ as, ∃ i g, OMap.get? m.gobs (i, f) = some g ∧ g.addr = a
  /-- different things have different addresses -/
  objAddr : ∀ i j x y, OMap.get? m.objs i = some x → OMap.get? m.objs j = some y → x.addr = y.addr → i = j
  obsAddr : (m.oo.map (·.addr)).Nodup
  grpAddr : ∀ i j x y, OMap.get? m.grps i = some x → OMap.get? m.grps j = some y → x.addr = y.addr → i = j
  gobsAddr : ∀ i j x y, OMap.get? m.gobs i = some x → OMap.get? m.gobs j = some y → x.addr = y.addr → i = j

/-- The states between the calls of a program that calibrates the objects, then the groups, and then merges objects and
groups in any order and as often as it likes. -/
inductive Reached (sc : Scene) : Mem → Prop
  | calibrated (c d : Choices) {m m' : Mem} : calibrate3DObjects sc c {} = .ok m → calibrateCameraGroup sc d m = .ok m' →
      Reached sc m'
  | objects (c : Choices) {m m' : Mem} : Reached sc m → merge3DObjects sc c m = .ok m' → Reached sc m'
  | groups (c : Choices) {m m' : Mem} : Reached sc m → mergeGroups sc c m = .ok m' → Reached sc m'

end Verif.Spec.Lifetime
