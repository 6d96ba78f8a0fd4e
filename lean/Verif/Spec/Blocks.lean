import Verif.VocabUnsafe

/-!
# Specification of raw memory: a store of separate blocks

The live blocks with their contents. `ustep` says what a call must do, given the allocator's answer; `none` means the
client breaks the rules of C (an address that is not live, overlapping `memcpy`, …) or leaves the domain named below,
and nothing is promised. Sizes and addresses are numbers below 2^64.
-/

namespace Verif.Spec

/-- Live blocks: address and contents. -/
abbrev Store := List (Nat × List Byte)

/-- A machine word. -/
def asWord : Arg → Option Nat
  | .int v => if 0 ≤ v ∧ v < 2 ^ 64 then some v.toNat else none
  | _ => none

/-- The block that contains the `n` bytes at `a`. -/
def home (st : Store) (a n : Nat) : Option (Nat × List Byte) :=
  st.find? fun b => decide (b.1 ≤ a ∧ a + n ≤ b.1 + b.2.length)

/-- Contents of the block at `p`. -/
def blockAt (st : Store) (p : Nat) : Option (List Byte) := (st.find? fun b => b.1 == p).map (·.2)

/-- The store without the block at `p`. -/
def without (st : Store) (p : Nat) : Store := st.filter fun b => b.1 != p

/-- Replace the bytes from offset `k` on. -/
def patch (bs : List Byte) (k : Nat) (xs : List Byte) : List Byte := bs.take k ++ xs ++ bs.drop (k + xs.length)

/-- Read `n` bytes at `a`. -/
def peek (st : Store) (a n : Nat) : Option (List Byte) :=
  if n = 0 then some [] else (home st a n).map fun b => (b.2.drop (a - b.1)).take n

/-- Write bytes at `a`. -/
def poke (st : Store) (a : Nat) (xs : List Byte) : Option Store :=
  if xs.length = 0 then some st
  else (home st a xs.length).map fun b => st.map fun c => if c.1 = b.1 then (c.1, patch c.2 (a - b.1) xs) else c

/-- The bytes found in a new block. -/
def found (p n : Nat) (junk : Nat → Byte) : List Byte := (List.range n).map fun i => junk (p + i)

/-- Outcome of a call. -/
abbrev URes := Store × Except Exc UVal

/-- A new block of `n` bytes. -/
def newBlock (st : Store) (ans : Alloc) (contents : Nat → (Nat → Byte) → List Byte) : URes :=
  match ans with
  | none => (st, .error .memoryError)
  | some (p, junk) => ((p, contents p junk) :: st, .ok (.addr p))

/-- What the call must do. -/
def ustep (st : Store) (op : UOp) (ans : Alloc) : Option URes :=
  match op with
  | .malloc a =>
    match a with
    | .int v =>
      match asWord (.int v) with
      | none => some (st, .error .overflowError)
      | some n => some (newBlock st ans fun p junk => found p n junk)
    | _ => some (st, .error .typeError)
  | .alignedMalloc a al =>
    match asWord a, asWord al with
    | some n, some _ => some (newBlock st ans fun p junk => found p n junk)
    | _, _ => none
  | .calloc a b =>
    match asWord a, asWord b with
    | some x, some y => some (newBlock st ans fun _ _ => List.replicate (x * y) 0)
    | _, _ => none
  | .realloc a b =>
    match asWord a, asWord b with
    | some 0, some n => some (newBlock st ans fun p junk => found p n junk)
    | some p, some n =>
      match blockAt st p with
      | none => none
      | some old =>
        if n = 0 then none
        else
          match ans with
          | none => some (st, .error .memoryError)
          | some (q, junk) => some ((q, old.take n ++ (found q n junk).drop old.length) :: without st p, .ok (.addr q))
    | _, _ => none
  | .free a | .alignedFree a =>
    match asWord a with
    | some 0 => some (st, .ok .none)
    | some p => if (blockAt st p).isSome then some (without st p, .ok .none) else none
    | none => none
  | .get a b =>
    match asWord a, asWord b with
    | some p, some n => if 2 ^ 63 - 34 < n then none else (peek st p n).map fun bs => (st, .ok (.bytes bs))
    | _, _ => none
  | .set a data =>
    match asWord a, data with
    | some p, some xs => (poke st p xs).map fun st => (st, .ok .none)
    | some _, none => some (st, .error .typeError)
    | none, _ => none
  | .memcpy a b c =>
    match asWord a, asWord b, asWord c with
    | some s, some d, some n =>
      if n = 0 ∨ s + n ≤ d ∨ d + n ≤ s then
        match peek st s n with
        | none => none
        | some bs => (poke st d bs).map fun st => (st, .ok .none)
      else none
    | _, _, _ => none
  | .memset a v c =>
    match asWord a, v, asWord c with
    | some p, .int v, some n =>
      if 0 ≤ v ∧ v < 256 then (poke st p (List.replicate n (Fin.ofNat 256 v.toNat))).map fun st => (st, .ok .none)
      else none
    | _, _, _ => none

/-- The allocator keeps its contract: a block it returns is not null, fits into the address space and lies apart from
all live blocks. `st` are the blocks live at that moment, without the one being reallocated. -/
def Fresh (st : Store) (n : Nat) (ans : Alloc) : Prop :=
  ∀ p junk, ans = some (p, junk) → 0 < p ∧ p + n ≤ 2 ^ 64 ∧
    ∀ b ∈ st, p ≠ b.1 ∧ (p + n ≤ b.1 ∨ b.1 + b.2.length ≤ p)

/-- Contract of the allocator for the request an operation makes. -/
def AllocOk (st : Store) (op : UOp) (ans : Alloc) : Prop :=
  match op with
  | .malloc a | .alignedMalloc a _ => ∀ n, asWord a = some n → Fresh st n ans
  | .calloc a b => ∀ x y, asWord a = some x → asWord b = some y → Fresh st (x * y) ans
  | .realloc a b => ∀ p n, asWord a = some p → asWord b = some n → Fresh (without st p) n ans
  | _ => True

/-- A history with its specified outcomes: allocator and client keep their contracts at every call. -/
inductive Behaves : Store → List (UOp × Alloc) → List URes → Prop
  | nil (st) : Behaves st [] []
  | cons {st st' r op ans ops rs} : AllocOk st op ans → ustep st op ans = some (st', r) → Behaves st' ops rs →
      Behaves st ((op, ans) :: ops) ((st', r) :: rs)

end Verif.Spec
