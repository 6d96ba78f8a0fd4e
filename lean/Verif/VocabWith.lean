import Verif.Vocab

/-!
# Programs that use Unsafe, SIMD, SIMDLowAVX512 and ASM objects

The vocabulary of `with` statements. Scaffolding, no code of /repo: variables and objects are numbers, an object being numbered when it is
made.
-/

namespace Verif.With

/-- The four classes of pyfastutil.unsafe (unsafe/__init__.py). -/
inductive Tool
  | unsafeTool | simd | simdLowAVX512 | asm
  deriving DecidableEq, Repr

/-- The arguments of a call, as far as the calls of this module look at them: how many are positional, which are given by name. (Scaffolding
of the model, no code of /repo.) -/
structure Shape where
  pos : Nat
  kw : List String
  deriving DecidableEq, Repr

/-- No arguments. (Scaffolding of the model, no code of /repo.) -/
def Shape.none : Shape := ⟨0, []⟩

/-- What a program raises: an exception of its own, one of a call, or NameError. (Scaffolding of the model, no code of /repo.) -/
inductive Raised
  | own (n : Nat)
  | exc (e : Exc)
  | nameError
  deriving DecidableEq, Repr

/-- Programs. `mem` says whether the machine grants the memory of a new object. (Scaffolding of the model, no code of /repo.) -/
inductive Prog
  | skip
  /-- use the object `x` is bound to; what is done is `n` -/
  | use (n x : Nat)
  | raise (n : Nat)
  | seq (p q : Prog)
  /-- `try: p` `except: q` -/
  | attempt (p q : Prog)
  /-- `x = y` -/
  | assign (x y : Nat)
  /-- `del x` -/
  | del (x : Nat)
  /-- `x = T(...)` -/
  | make (t : Tool) (a : Shape) (mem : Bool) (x : Nat)
  /-- `x = y.__enter__(...)` -/
  | callEnter (x y : Nat) (a : Shape)
  /-- `y.__exit__(...)` -/
  | callExit (y : Nat) (a : Shape)
  /-- `with T(...) as x: p` -/
  | withNew (t : Tool) (a : Shape) (mem : Bool) (x : Nat) (p : Prog)
  /-- `with y as x: p` -/
  | withOld (y x : Nat) (p : Prog)
  deriving DecidableEq, Repr

/-- What the variables are bound to: at most one entry for a variable. (Scaffolding of the model, no code of /repo.) -/
abbrev Env := List (Nat × Nat)

/-- Forget a variable. (Scaffolding of the model, no code of /repo.) -/
def Env.drop (env : Env) (x : Nat) : Env := env.filter (fun b => b.1 != x)

/-- Bind a variable. (Scaffolding of the model, no code of /repo.) -/
def Env.bind (env : Env) (x o : Nat) : Env := (x, o) :: Env.drop env x

/-- The object a variable is bound to. (Scaffolding of the model, no code of /repo.) -/
def Env.get (env : Env) (x : Nat) : Option Nat := List.lookup x env

/-- How many variables are bound to an object. (Scaffolding of the model, no code of /repo.) -/
def Env.owners (env : Env) (o : Nat) : Nat := (env.map Prod.snd).count o

/-- What a program can see: its variables, how many objects it has made, what it did with which object. (Scaffolding of the model, no code of
/repo.) -/
structure World where
  env : Env
  made : Nat
  done : List (Nat × Nat)
  deriving DecidableEq, Repr

/-- At the start. (Scaffolding of the model, no code of /repo.) -/
def World.start : World := ⟨[], 0, []⟩

end Verif.With
