import Verif.Props.Pool
import Verif.Props.WholeSame

/-! C98 for the whole program: the number of threads does not matter. -/
namespace Verif.Props.Pool
open Verif Verif.Pool Verif.Detection Verif.Folders Verif.Start Verif.Disk Verif.Pipeline Verif.Ransac Verif.Program Verif.Whole
open Verif.Spec.Whole

variable {V G Pt K K' Q Img : Type} [Group G] [SMul G Pt] [Field K'] [LinearOrder K'] [Zero K] [One K]
  (u : Setup V G Pt K K' Q Img)

/-- C98: on two machines with different numbers of threads (per camera, for that matter), whatever the threads do, the
detection ends, and the files left by a run are the same. -/
theorem C98_files [Field Q] [LinearOrder Q] (hd : DataOnly u.search) (hr : ∀ f ∈ u.refine, OrderFree f)
    (ts : List (List (List (Insertion (ℝ × ℝ) Str))))
    (hts : cameraTasks u.fitLine u.cfg u.geoms u.raw u.glob u.root u.pre u.nbCam = .ok ts)
    (ns₁ ns₂ : List Nat) (h₁ : ∀ n ∈ ns₁, 0 < n) (h₂ : ∀ n ∈ ns₂, 0 < n)
    (l₁ l₂ : List (Insertion (ℝ × ℝ) Str)) (hl₁ : Detects ns₁ ts l₁) (hl₂ : Detects ns₂ ts l₂) (d d' : Files V G Pt K Img) :
    Verif.Whole.run u l₁ d = .ok d' ↔ Verif.Whole.run u l₂ d = .ok d' :=
  Props.WholeSame.C86_schedules u hd hr ts hts l₁ l₂ ((C98_schedules ts l₁).1 ns₁ h₁ hl₁) ((C98_schedules ts l₂).1 ns₂ h₂ hl₂) d d'

/-- C98: with at least one worker per camera the detection can end, with some insertions. -/
theorem C98_possible {α : Type} (ts : List (List (List α))) (ns : List Nat) (hl : ns.length = ts.length) (h : ∀ n ∈ ns, 0 < n) :
    ∃ l, Detects ns ts l := by
  have key : ∀ (n : Nat) (tasks : List (List α)), 0 < n → ∃ l, ∃ k s, Steps k (start n tasks) s ∧ Joined s ∧ s.log = l := by
    intro n tasks hn
    obtain ⟨k, s, h1, h2⟩ := Lemmas.Pool.finishes (Lemmas.Pool.inv_start n tasks) (by
      simp only [start]
      intro e
      have := congrArg List.length e
      simp at this
      omega)
    exact ⟨s.log, k, s, h1, h2, rfl⟩
  have : ∃ ls : List (List α), ls.length = ts.length ∧ ∀ (c n : Nat) tasks l', ns[c]? = some n → ts[c]? = some tasks →
      ls[c]? = some l' → ∃ k s, Steps k (start n tasks) s ∧ Joined s ∧ s.log = l' := by
    induction ts generalizing ns with
    | nil => exact ⟨[], rfl, fun c n tasks l' _ h2 => by simp at h2⟩
    | cons t ts ih =>
      cases ns with
      | nil => simp at hl
      | cons n ns =>
        obtain ⟨ls, e1, e2⟩ := ih ns (by simpa using hl) fun m hm => h m (by simp [hm])
        obtain ⟨l, hx⟩ := key n t (h n (by simp))
        refine ⟨l :: ls, by simp [e1], fun c m tasks l' h1 h2 h3 => ?_⟩
        cases c with
        | zero =>
          simp only [List.getElem?_cons_zero, Option.some.injEq] at h1 h2 h3
          subst h1 h2 h3
          exact hx
        | succ c =>
          simp only [List.getElem?_cons_succ] at h1 h2 h3
          exact e2 c m tasks l' h1 h2 h3
  obtain ⟨ls, e1, e2⟩ := this
  exact ⟨_, ls, rfl, hl, e1, e2⟩

end Verif.Props.Pool
