/-!
# Running a computation that may fail once per index
-/

namespace Np

/-- A loop `for k in range(K)` that stores the result of `f k` in slot `k` and stops at the first exception. -/
def collect {β : Type} : {K : Nat} → (Fin K → Except String β) → Except String (Fin K → β)
  | 0, _ => .ok (fun k => k.elim0)
  | _ + 1, f => do
    let a ← f 0
    let r ← collect (fun k => f k.succ)
    return fun k => Fin.cases a r k

theorem collect_ok_iff {β : Type} {K : Nat} (f : Fin K → Except String β) (g : Fin K → β) :
    collect f = .ok g ↔ ∀ k, f k = .ok (g k) := by
  induction K with
  | zero =>
    have : g = fun k => k.elim0 := funext (fun k => k.elim0)
    subst this
    exact ⟨fun _ k => k.elim0, fun _ => rfl⟩
  | succ K ih =>
    unfold collect
    cases h0 : f 0 with
    | error e =>
      constructor
      · intro h; cases h
      · intro h; rw [h 0] at h0; cases h0
    | ok a =>
      cases hr : collect (fun k => f k.succ) with
      | error e =>
        constructor
        · intro h; cases h
        · intro h
          have := (ih (fun k => f k.succ) (fun k => g k.succ)).mpr (fun k => h k.succ)
          rw [hr] at this; cases this
      | ok r =>
        have hr' := (ih _ _).mp hr
        constructor
        · intro h
          have h : (fun k => Fin.cases a r k) = g := Except.ok.inj h
          subst h
          intro k
          cases k using Fin.cases with
          | zero => exact h0
          | succ k => exact hr' k
        · intro h
          show Except.ok (fun k => Fin.cases a r k) = Except.ok g
          congr 1
          funext k
          cases k using Fin.cases with
          | zero =>
            have := h 0
            rw [h0] at this
            exact Except.ok.inj this
          | succ k =>
            have := h k.succ
            rw [hr' k] at this
            exact Except.ok.inj this

end Np
