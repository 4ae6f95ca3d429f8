import Verif.Py.Num

/-!
# `while` loops

One turn of a loop maps a state to an exception, a new state (`inl`) or the value after the loop (`inr`).
-/

namespace Discorpy

/-- At most `n` turns of a loop; `none` if it is still running. -/
def runFuel {σ β : Type} (step : σ → Except PyErr (σ ⊕ β)) : ℕ → σ → Option (Except PyErr β)
  | 0, _ => none
  | n + 1, s =>
    match step s with
    | .error e => some (.error e)
    | .ok (.inr b) => some (.ok b)
    | .ok (.inl s') => runFuel step n s'

open Classical in
/-- The value of a loop; `PyErr.diverges` if it never ends. -/
noncomputable def whileLoop {σ β : Type} (step : σ → Except PyErr (σ ⊕ β)) (s : σ) : Except PyErr β :=
  if h : ∃ n r, runFuel step n s = some r then h.choose_spec.choose else .error .diverges

/-- The state after `n` turns of a loop, if it is still running then. -/
def stateAfter {σ β : Type} (step : σ → Except PyErr (σ ⊕ β)) : ℕ → σ → Option σ
  | 0, s => some s
  | n + 1, s =>
    match stateAfter step n s with
    | none => none
    | some s' =>
      match step s' with
      | .ok (.inl s'') => some s''
      | _ => none

end Discorpy
