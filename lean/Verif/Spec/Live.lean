import Verif.Spec.Program

/-! # Infinite histories -/

namespace Egts

/-- The first `n` events of an infinite history. -/
def upTo (f : Nat → ProgEvent) (n : Nat) : List ProgEvent := (List.range n).map f

/-- An event is a step of the goroutine of connection `k`. -/
def IsStepOf (k : Nat) (ev : ProgEvent) : Prop := ev = .conn (.iterate k) ∨ ev = .conn (.effect k)

instance (k : Nat) (ev : ProgEvent) : Decidable (IsStepOf k ev) := by unfold IsStepOf; exact inferInstance

/-- The goroutine of connection `k` can make a step after the history `evs`. `run` says what the histories lead to. -/
def CanStep {P : Type} (run : List ProgEvent → Option P) (k : Nat) (evs : List ProgEvent) : Prop :=
  ∃ ev, IsStepOf k ev ∧ (run (evs ++ [ev])).isSome

/-- The scheduler is fair to the goroutine of connection `k`: it is not the case that from some time on the goroutine can always make a step and
never does. -/
def FairTo {P : Type} (run : List ProgEvent → Option P) (k : Nat) (f : Nat → ProgEvent) : Prop :=
  ∀ n, ∃ m ≥ n, IsStepOf k (f m) ∨ ¬ CanStep run k (upTo f m)

/-- An infinite history of the process. -/
def Forever {P : Type} (run : List ProgEvent → Option P) (f : Nat → ProgEvent) : Prop := ∀ n, (run (upTo f n)).isSome

end Egts
