import Verif.Core.Outcome

/-! A call that comes back. -/
namespace Verif.Spec.Hang

/-- The call ends: with a value, with an exception, or in undefined behaviour, but it does not run for ever. -/
structure Ends {α : Type _} (o : Outcome α) : Prop where
  back : o ≠ .diverge

end Verif.Spec.Hang
