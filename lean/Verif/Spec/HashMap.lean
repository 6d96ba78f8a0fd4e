import Verif.VocabMap

/-!
# Specification for C46: a finite map
-/

namespace Verif.Spec

/-- A finite map: what is stored for each key, and for how many keys something is. -/
structure FMap (κ α : Type) where
  get : κ → Option α
  size : Nat

variable {κ α : Type} [DecidableEq κ]

def FMap.empty : FMap κ α := ⟨fun _ => none, 0⟩

/-- Store a value, whatever was there. -/
def FMap.put (m : FMap κ α) (k : κ) (v : α) : FMap κ α :=
  ⟨fun k' => if k' = k then some v else m.get k', if (m.get k).isSome then m.size else m.size + 1⟩

def FMap.del (m : FMap κ α) (k : κ) : FMap κ α :=
  ⟨fun k' => if k' = k then none else m.get k', if (m.get k).isSome then m.size - 1 else m.size⟩

/-- `emplace` and `try_emplace` keep what is there, `map[k] = v` does not; `at` raises for an absent key. -/
def FMap.step (m : FMap κ α) : MapOp κ α → FMap κ α × Except Exc (MapAns α)
  | .emplace k v => if (m.get k).isSome then (m, .ok (.bool false)) else (m.put k v, .ok (.bool true))
  | .tryEmplace k v => if (m.get k).isSome then (m, .ok (.bool false)) else (m.put k v, .ok (.bool true))
  | .assign k v => (m.put k v, .ok .none)
  | .at k => (m, match m.get k with | some v => .ok (.val v) | none => .error .runtimeError)
  | .contains k => (m, .ok (.bool (m.get k).isSome))
  | .erase k => (m.del k, .ok (.num (if (m.get k).isSome then 1 else 0)))
  | .size => (m, .ok (.num m.size))
  | .clear => (FMap.empty, .ok .none)
  | .copy => (m, .ok .none)

def FMap.run : FMap κ α → List (MapOp κ α) → FMap κ α × List (Except Exc (MapAns α))
  | m, [] => (m, [])
  | m, op :: ops => ((FMap.run (m.step op).1 ops).1, (m.step op).2 :: (FMap.run (m.step op).1 ops).2)

/-- At no point of the history there are more than `c` entries. -/
def FMap.Within (c : Nat) (m : FMap κ α) (ops : List (MapOp κ α)) : Prop :=
  ∀ pre, pre <+: ops → (FMap.run m pre).1.size ≤ c

end Verif.Spec
