/-!
# Results of computations that may fail
-/

namespace Cleanlab.Props

theorem ok_of_toOption {α : Type} {e : Except String α} {a : α} (h : e.toOption = some a) : e = .ok a := by
  cases e with
  | error e => cases h
  | ok b => exact congrArg _ (Option.some.inj h)

end Cleanlab.Props
