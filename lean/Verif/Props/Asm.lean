import Verif.Lemmas.Asm

/-!
# C45: the registry of executable functions
-/

namespace Verif.Props

open Asm

/-- C45 for the histories that free only functions that exist, with `VirtualProtect` succeeding in `freeFunction`: every
call answers exactly as specified (no call hangs, none frees something that is not a live function), and the lock is free
after every call. Missing: `freeFunction` with an unknown address or a failing `VirtualProtect`, `freeFunctionFast` with
an unknown address (negations below). `others` are the blocks allocated by the rest of the process. -/
theorem C45_history_partial (others : List Nat) (ops : List (AsmOp × Bool × AsmEnv))
    (h : Spec.AsmOk others [] ops) :
    (history ⟨[], false, others⟩ ops).map answer = (Spec.asmRun [] ops).map some ∧
      ∀ o ∈ history ⟨[], false, others⟩ ops, ∃ s', o.state? = some s' ∧ s'.locked = false :=
  history_good ops [] _ ⟨rfl, fun p => by simp [lookup], rfl, fun p hp => (by cases hp), List.nodup_nil⟩ h

example : Spec.AsmOk [16] []
    [(.make [.bytes 3], false, ⟨some 32, true, true, 4⟩), (.make [.bytes 5], false, ⟨none, true, true, 4⟩),
      (.makeFast 2, false, ⟨some 48, true, true, 4⟩), (.free [.int 32], false, ⟨none, true, true, 4⟩),
      (.freeFast (.int 48), false, ⟨none, false, true, 4⟩)] ∧
    (history ⟨[], false, [16]⟩
      [(.make [.bytes 3], false, ⟨some 32, true, true, 4⟩), (.make [.bytes 5], false, ⟨none, true, true, 4⟩),
        (.makeFast 2, false, ⟨some 48, true, true, 4⟩), (.free [.int 32], false, ⟨none, true, true, 4⟩),
        (.freeFast (.int 48), false, ⟨none, false, true, 4⟩)]).map answer =
      [some (.ok (.addr 32)), some (.error .memoryError), some (.ok (.addr 48)), some (.ok .none),
        some (.error .osError)] := by
  refine ⟨⟨fun p h => ?_, trivial, fun p h => ?_, trivial, fun p h => ?_, trivial, fun p h => ?_, ⟨⟨32, ?_⟩, rfl⟩,
    fun p h => ?_, ⟨48, ?_⟩, trivial⟩, rfl⟩
  · cases h; decide
  · cases h
  · cases h; decide
  · cases h
  · decide
  · cases h
  · decide

/-- C45, exactly: with an allocator that gives out new addresses, all calls of a history answer as specified and leave
the lock free if and only if `freeFunction` and `freeFunctionFast` are only used on functions that exist, and
`VirtualProtect` succeeds in every `freeFunction`. -/
theorem C45_history_exact (others : List Nat) (ops : List (AsmOp × Bool × AsmEnv)) (hf : Spec.AsmFresh others [] ops) :
    ((history ⟨[], false, others⟩ ops).map answer = (Spec.asmRun [] ops).map some ∧
      ∀ o ∈ history ⟨[], false, others⟩ ops, ∃ s', o.state? = some s' ∧ s'.locked = false) ↔ Spec.AsmOk others [] ops :=
  history_exact ops [] _ ⟨rfl, fun p => by simp [lookup], rfl, fun p hp => (by cases hp), List.nodup_nil⟩ hf

/-- A history with a new address that is not harmless: the function is freed twice. -/
example : Spec.AsmFresh [16] [] [(.makeFast 2, false, ⟨some 48, true, true, 4⟩), (.free [.int 48], false, ⟨none, true, true, 4⟩),
      (.free [.int 48], false, ⟨none, true, true, 4⟩)] ∧
    ¬ Spec.AsmOk [16] [] [(.makeFast 2, false, ⟨some 48, true, true, 4⟩), (.free [.int 48], false, ⟨none, true, true, 4⟩),
      (.free [.int 48], false, ⟨none, true, true, 4⟩)] := by
  refine ⟨⟨fun p h => ?_, fun p h => ?_, fun p h => ?_, trivial⟩, ?_⟩
  · cases h; decide
  · cases h
  · cases h
  · rintro ⟨_, _, _, _, _, ⟨⟨p, hp, _⟩, _⟩, _⟩
    exact absurd hp (by decide +revert)

/-- C45 is violated: freeing an unknown address (or a non-address) raises ValueError and keeps the lock. From then on
every `freeFunction`, and every `makeFunction` whose allocation succeeds, hangs. -/
theorem C45_unknown_address_blocks (s : AsmState) (a : Arg) (i : Bool) (env : AsmEnv) (h0 : s.locked = false)
    (hu : ∀ p, Spec.address a = some p → lookup s.reg p = none) (h00 : lookup s.reg 0 = none) :
    ∃ s', stepWin s (.free [a]) i env = .exc s' .valueError ∧
      (∀ b i env, stepWin s' (.free [b]) i env = .ub .neverReturns) ∧
      ∀ n i p old r, stepWin s' (.make [.bytes (n + 1)]) i ⟨some p, true, r, old⟩ = .ub .neverReturns := by
  have hl : lookup s.reg (asPtr a).1 = none := by
    cases ha : Spec.address a with
    | some p => rw [asPtr_address ha]; exact hu p ha
    | none =>
      have : (asPtr a).1 = 0 := by
        unfold Spec.address at ha
        cases a with
        | int v =>
          simp only at ha
          unfold asPtr Unsafe.asVoidPtr
          simp only
          by_cases hv : -(2 ^ 63) ≤ v ∧ v < 2 ^ 64
          · rw [if_pos hv] at ha; cases ha
          · rw [if_neg hv]
        | index v => rfl
        | other => rfl
      rw [this]; exact h00
  refine ⟨{ s with locked := true }, ?_, fun b i env => ?_, fun n i p old r => ?_⟩
  · simp only [stepWin, free, locking, h0, Bool.false_eq_true, if_false]
    rw [hl]
  · simp only [stepWin, free, locking, if_true]
  · simp only [stepWin, make, locking, if_true, Bool.not_true, Bool.false_eq_true, if_false]

example : (∀ p, Spec.address (.int 64) = some p → lookup [(32, 3, 4)] p = none) ∧ lookup [(32, 3, 4)] 0 = none := by
  refine ⟨fun p hp => ?_, rfl⟩
  have : p = 64 := by
    have : Spec.address (.int 64) = some 64 := by decide
    rw [this] at hp
    exact (Option.some.inj hp).symm
  subst this
  rfl

/-- C45 is violated: when `VirtualProtect` fails in `freeFunction` of an existing function, OSError is raised, the lock
is kept, and the next `freeFunction` hangs. -/
theorem C45_protect_failure_blocks (s : AsmState) (a : Arg) (p : Nat) (i : Bool) (env : AsmEnv)
    (h0 : s.locked = false) (ha : Spec.address a = some p) (hp : (lookup s.reg p).isSome = true)
    (hf : env.protect = false) :
    ∃ s', stepWin s (.free [a]) i env = .exc s' .osError ∧
      ∀ b i env, stepWin s' (.free [b]) i env = .ub .neverReturns := by
  obtain ⟨v, hv⟩ := Option.isSome_iff_exists.1 hp
  refine ⟨{ s with locked := true }, ?_, fun b i env => ?_⟩
  · simp only [stepWin, free, locking, h0, Bool.false_eq_true, if_false, asPtr_address ha, hv, hf, Bool.not_false,
      if_true]
  · simp only [stepWin, free, locking, if_true]

example : Spec.address (.int 32) = some 32 ∧ (lookup [(32, 3, 4)] 32).isSome = true := by decide

/-- C45 is violated: a failing `freeFunctionFast` of an address that is no function registers it; a following
`freeFunction` of that address finds it and frees memory that was never allocated. -/
theorem C45_ghost_entry (s : AsmState) (a : Arg) (p : Nat) (i : Bool) (env env' : AsmEnv) (h0 : s.locked = false)
    (ha : Spec.address a = some p) (hp0 : p ≠ 0) (hp : lookup s.reg p = none) (hb : p ∉ s.blocks)
    (hf : env.protect = false) (hs : env'.protect = true) :
    ∃ s', stepWin s (.freeFast a) i env = .exc s' .osError ∧ stepWin s' (.free [a]) i env' = .ub .invalidFree := by
  refine ⟨{ s with reg := store s.reg p (0, 0) }, ?_, ?_⟩
  · simp only [stepWin, freeFast, asPtr_address ha, hp, hf, Bool.not_false, if_true]
  · simp only [stepWin, free, asPtr_address ha, locking, h0, Bool.false_eq_true, if_false, lookup_store, if_true, hs,
      Bool.not_true]
    unfold release
    rw [if_neg hp0, if_neg hb]

example : Spec.address (.int 64) = some 64 ∧ lookup [(32, 3, 4)] 64 = none ∧ 64 ∉ [32] := by decide

end Verif.Props
