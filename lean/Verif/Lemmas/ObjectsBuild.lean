import Verif.Lemmas.Objects
import Verif.Lemmas.Placement

namespace Verif.Lemmas.Objects
open Verif Verif.Objects Verif.Structure Verif.Spec.Objects Verif.Spec.Store Verif.Spec.Structure
open Verif.Lemmas.Structure Relation

variable {G Pt P Path : Type}

theorem boards_tableOk [Group G] {nCam nBoard : Nat} {l : List (Insertion P Path)}
    (hl : ∀ a ∈ l, a.obs.cam < nCam ∧ a.obs.board < nBoard)
    {s : Store P Path} (hs : Describes nCam nBoard l s) (pose : Nat → G) :
    TableOk (observedBoards nBoard l) (boardPairs s pose) where
  vs_sorted := observedBoards_sorted _ _
  ne := fun a b h => ((mem_keys_boardPairs hs pose a b).1 h).1
  symm := fun a b h => (mem_keys_boardPairs hs pose b a).2
    (coSeen_symm ((mem_keys_boardPairs hs pose a b).1 h))
  mem := fun a b h => by
    obtain ⟨_, x, hx, y, _, _, _, rfl, _⟩ := (mem_keys_boardPairs hs pose a b).1 h
    exact mem_observedBoards.2 ⟨(hl x hx).2, x, hx, rfl⟩

theorem measured_boards [Group G] {nCam nBoard : Nat} {l : List (Insertion P Path)}
    {s : Store P Path} (hs : Describes nCam nBoard l s) (pose : Nat → G) :
    Measured (boardPairs s pose) = CoSeen l := by
  funext a b
  exact propext (mem_keys_boardPairs hs pose a b)

theorem mem_of_head? {c : List Nat} {r : Nat} (h : c.head? = some r) : r ∈ c := by
  cases c with
  | nil => cases h
  | cons a c => simp at h; simp [h]

/-- A numbered loop over the classes of a partition. -/
theorem keys_eq_map {V : Type} {m : OMap Nat V} {cs : List (List Nat)} (f : V → List Nat)
    (hk : OMap.keys m = List.range cs.length) (hs : OMap.Sorted m)
    (h : ∀ i c, cs[i]? = some c → ∃ v, OMap.get? m i = some v ∧ f v = c) :
    m.map (fun e => f e.2) = cs := by
  apply List.ext_getElem?
  intro i
  have hlen : m.length = cs.length := by
    have := congrArg List.length hk
    simpa [OMap.keys] using this
  by_cases hi : i < cs.length
  · have hi' : i < m.length := by omega
    rw [List.getElem?_map, List.getElem?_eq_getElem hi', Option.map_some]
    obtain ⟨v, hv, hf⟩ := h i cs[i] (List.getElem?_eq_getElem hi)
    have hki : (m[i]).1 = i := by
      have := congrArg (fun l => l[i]?) hk
      simp only [OMap.keys, List.getElem?_map, List.getElem?_eq_getElem hi', Option.map_some,
        List.getElem?_range hi, Option.some.injEq] at this
      exact this
    have := (OMap.get?_eq_some hs (k := i) (v := (m[i]).2)).2 (by
      have h2 := List.getElem_mem hi'
      have h3 : m[i] = (i, (m[i]).2) := Prod.ext hki rfl
      rw [← h3]; exact h2)
    rw [this] at hv
    simp only [Option.some.injEq] at hv
    rw [hv, hf, List.getElem?_eq_getElem hi]
  · rw [List.getElem?_map, List.getElem?_eq_none (by omega), List.getElem?_eq_none (by omega)]
    rfl

theorem buildObjects_ok [Group G] [SMul G Pt] {nCam nBoard : Nat} {l : List (Insertion P Path)}
    (hl : ∀ a ∈ l, a.obs.cam < nCam ∧ a.obs.board < nBoard) {s : Store P Path}
    (hs : Describes nCam nBoard l s) (pose : Nat → G) (avg : List G → G) (bpts : List (List Pt))
    (hb : bpts.length = nBoard) (choose : Nat → Nat → Graph.DState → Nat) :
    ∃ objs, buildObjects s pose avg bpts choose = .ok objs ∧ OMap.Sorted objs ∧
      OMap.keys objs = List.range objs.length ∧
      IsPartition (CoSeen l) (observedBoards nBoard l) (objs.map fun e => OMap.keys e.2.boards) ∧
      ∀ i o, OMap.get? objs i = some o →
        MadeFrom bpts (interTransform avg (boardPairs s pose)) (boardGraph s (boardPairs s pose))
          choose i (OMap.keys o.boards) o := by
  have hT := boards_tableOk hl hs pose
  have hpart := hT.partition
  rw [measured_boards hs pose] at hpart
  have hg : boardGraph s (boardPairs s pose) = Graph.run (graphCalls (observedBoards nBoard l)
      (tableEdges (boardPairs s pose))) := by
    unfold boardGraph; rw [boardVertices_eq hs]
  rw [← hg] at hpart
  obtain ⟨m, e, hk, hsm, hm⟩ := foldlM_number
    (fun i c => initObject (G := G) bpts (interTransform avg (boardPairs s pose))
      (boardGraph s (boardPairs s pose)) choose i c)
    (fun i c o => MadeFrom bpts (interTransform avg (boardPairs s pose))
      (boardGraph s (boardPairs s pose)) choose i c o)
    (boardGraph s (boardPairs s pose)).connectedComponents (by
      intro i c hc
      have hcm := List.mem_of_getElem? hc
      have hsub : ∀ b ∈ c, b ∈ observedBoards nBoard l := fun b hbc =>
        hpart.perm.subset (List.mem_flatten.2 ⟨c, hcm, hbc⟩)
      cases c with
      | nil => exact absurd rfl (hpart.nonempty _ hcm)
      | cons r c =>
        apply initObject_ok _ _ _ _ _ _ (hpart.sorted _ hcm)
        · intro b hbc
          rw [hb]
          exact (mem_observedBoards.1 (hsub b hbc)).1
        · intro b hbc
          have hlink := (hpart.linked _ hcm r (by simp) b).1 hbc
          rw [← measured_boards hs pose] at hlink
          obtain ⟨p, _, _, h3⟩ := hT.placement (fun x => x⁻¹) avg (choose r b)
            (hsub r (by simp)) hlink
          rw [← hg] at h3
          exact ⟨_, h3⟩)
  have hlen : m.length = (boardGraph s (boardPairs s pose)).connectedComponents.length := by
    have := congrArg List.length hk
    simpa [OMap.keys] using this
  have hmap := keys_eq_map (fun o : Object G Pt => OMap.keys o.boards) hk hsm (fun i c hc => by
    obtain ⟨v, h1, h2⟩ := hm i c hc
    exact ⟨v, h1, h2.keys⟩)
  refine ⟨m, e, hsm, by rw [hlen, hk], by rw [hmap]; exact hpart, ?_⟩
  intro i o ho
  have hi : i < (boardGraph s (boardPairs s pose)).connectedComponents.length := by
    have : i ∈ OMap.keys m := OMap.mem_keys.2 ⟨o, ho⟩
    rw [hk] at this
    simpa using this
  obtain ⟨o', h1, h2⟩ := hm i _ (List.getElem?_eq_getElem hi)
  rw [ho] at h1
  simp only [Option.some.injEq] at h1
  subst h1
  rw [h2.keys]
  exact h2

end Verif.Lemmas.Objects
