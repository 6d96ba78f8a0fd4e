import Verif.VocabWith

/-!
# What `with` statements over Unsafe, SIMD, SIMDLowAVX512 and ASM objects should do

`with T() as x: p` makes an object, binds `x` to that object, and runs `p`; an exception of `p` goes on. There are no reference counts
here. The signatures are those of Unsafe.pyi 28-36, SIMD.pyi 29-38, SIMDLowAVX512.pyi 56-67 and ASM.pyi 44-53.
-/

namespace Verif.With.Spec

open Verif.With

/-- `def __init__(self)` and `def __enter__(self)` take no arguments. -/
def NoArgs (a : Shape) : Prop := a.pos = 0 ∧ a.kw = []

instance (a : Shape) : Decidable (NoArgs a) := inferInstanceAs (Decidable (_ ∧ _))

/-- The parameters of `def __exit__(self, exc_type, exc_val, exc_tb)`. -/
def exitParams : List String := ["exc_type", "exc_val", "exc_tb"]

/-- The arguments are those of `__exit__`: the positional ones come first, the others are given by name, each once. -/
def ExitArgs (a : Shape) : Prop := a.kw.Perm (exitParams.drop a.pos) ∧ a.pos ≤ 3

instance (a : Shape) : Decidable (ExitArgs a) := inferInstanceAs (Decidable (_ ∧ _))

/-- The run of a program: what it can see afterwards and what it raises. -/
def run : Prog → World → World × Option Raised
  | .skip, w => (w, none)
  | .use n x, w =>
    match w.env.get x with
    | none => (w, some .nameError)
    | some o => ({ w with done := w.done ++ [(n, o)] }, none)
  | .raise n, w => (w, some (.own n))
  | .seq p q, w =>
    match run p w with
    | (w, none) => run q w
    | (w, some e) => (w, some e)
  | .attempt p q, w =>
    match run p w with
    | (w, none) => (w, none)
    | (w, some _) => run q w
  | .assign x y, w =>
    match w.env.get y with
    | none => (w, some .nameError)
    | some o => ({ w with env := w.env.bind x o }, none)
  | .del x, w =>
    match w.env.get x with
    | none => (w, some .nameError)
    | some _ => ({ w with env := w.env.drop x }, none)
  | .make _ a mem x, w =>
    if ¬ NoArgs a then (w, some (.exc .typeError))
    else if mem then (⟨w.env.bind x w.made, w.made + 1, w.done⟩, none)
    else (w, some (.exc .memoryError))
  | .callEnter x y a, w =>
    match w.env.get y with
    | none => (w, some .nameError)
    | some o => if ¬ NoArgs a then (w, some (.exc .typeError)) else ({ w with env := w.env.bind x o }, none)
  | .callExit y a, w =>
    match w.env.get y with
    | none => (w, some .nameError)
    | some _ => (w, if ExitArgs a then none else some (.exc .typeError))
  | .withNew _ a mem x p, w =>
    if ¬ NoArgs a then (w, some (.exc .typeError))
    else if mem then run p ⟨w.env.bind x w.made, w.made + 1, w.done⟩
    else (w, some (.exc .memoryError))
  | .withOld y x p, w =>
    match w.env.get y with
    | none => (w, some .nameError)
    | some o => run p { w with env := w.env.bind x o }

/-- The program passes no arguments to the constructors, and to `__exit__` three by position or what it must refuse for
being given by name. -/
def Regular : Prog → Prop
  | .seq p q | .attempt p q => Regular p ∧ Regular q
  | .make _ a _ _ => NoArgs a
  | .callExit _ a => if a.kw = [] then a.pos = 3 else ¬ ExitArgs a
  | .withNew _ a _ _ p => NoArgs a ∧ Regular p
  | .withOld _ _ p => Regular p
  | _ => True

/-- `Regular` can be decided. -/
def regularDec : (p : Prog) → Decidable (Regular p)
  | .skip | .use _ _ | .raise _ | .assign _ _ | .del _ | .callEnter _ _ _ => isTrue trivial
  | .seq p q => @instDecidableAnd _ _ (regularDec p) (regularDec q)
  | .attempt p q => @instDecidableAnd _ _ (regularDec p) (regularDec q)
  | .make _ a _ _ => inferInstanceAs (Decidable (NoArgs a))
  | .callExit _ a => inferInstanceAs (Decidable (if a.kw = [] then a.pos = 3 else ¬ ExitArgs a))
  | .withNew _ _ _ _ p => @instDecidableAnd _ _ inferInstance (regularDec p)
  | .withOld _ _ p => regularDec p

instance (p : Prog) : Decidable (Regular p) := regularDec p

end Verif.With.Spec
