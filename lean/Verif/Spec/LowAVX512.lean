import Verif.VocabLow
import Verif.Spec.Vec

/-!
# What the stub file promises about the AVX-512 bindings

The form of an entry of pyfastutil/unsafe/SIMDLowAVX512.pyi and its meaning, from the text of the class comment (lines
17-57): "All methods in this class map directly to C intrinsics"; "Non-POD types are mapped via pointers"; "the return
value is mapped to the first argument `__result`, which must be a pointer to memory with the appropriate alignment".
-/

namespace Verif.Spec.Low

/-- Type annotation of a Python parameter. -/
inductive Hint
  | ptr | int | enum
  deriving DecidableEq, Repr

/-- One method: its name, the annotations of its parameters, whether it is marked `RaisesNotImplementedError`, and the
C prototype in its comment (`ret = none` for `void`). -/
structure Stub where
  method : Ident
  hints : List Hint
  raises : Bool
  proto : Ident
  params : List CTy
  ret : Option CTy
  deriving DecidableEq, Repr

/-- A parameter that must be a compile-time constant. -/
def isImm (t : CTy) : Bool := t == .constInt || t == .enum

/-- The intrinsic takes a compile-time constant: it says so in the prototype, or is one of two rotations whose
prototype in the stub says `int`. -/
def needsConst (s : Stub) : Bool :=
  s.params.any isImm || Nat.beq s.method (id! "mm512_ror_epi32") || Nat.beq s.method (id! "mm512_maskz_ror_epi32")

/-- Passed by address: vectors and masks. -/
def boxed : CTy → Bool
  | .m128 | .m128d | .m128i | .m256 | .m256d | .m256i | .m512 | .m512d | .m512i | .mask8 | .mask16 => true
  | _ => false

/-- Signed integer types. -/
def signed : CTy → Bool
  | .char | .short | .int | .llong => true
  | _ => false

/-- Unsigned integer types. -/
def unsigned : CTy → Bool
  | .uint | .ullong => true
  | _ => false

/-- Floating point types. -/
def floating : CTy → Bool
  | .float | .double => true
  | _ => false

/-- `p` is a valid, aligned address of an object of type `t`. -/
def At (m : Mem) (t : CTy) (p : Nat) : Prop :=
  0 < p ∧ p < 2 ^ 64 ∧ p % t.size = 0 ∧ ∃ b ∈ m.blocks, b.1 ≤ p ∧ p + t.size ≤ b.1 + b.2

/-- The `n` bytes at `p`. -/
def bytesAt (m : Mem) (p n : Nat) : List Byte := (List.range n).map fun i => m.byte (p + i)

/-- The bytes are exactly the value `v` of the signed or unsigned integer type. -/
def Encodes (t : CTy) (v : Int) (bs : List Byte) : Prop :=
  bs.length = t.size ∧ (if signed t then leInt bs = v else (leNat bs : Int) = v)

/-- The argument `a` stands for a C value of type `t` with the bytes `bs`: the object at the address for vectors and
masks, the number itself for integers, pointers and floats. With `indirect`, a pointer parameter is not given by the
address itself but by the address of a cell that holds it. -/
inductive Denotes (indirect : Bool) (f32 : List Byte → List Byte) (m : Mem) : CTy → LArg → List Byte → Prop
  | boxed {t : CTy} {p : Nat} (ht : boxed t = true) (h : At m t p) :
      Denotes indirect f32 m t (.obj (.int p)) (bytesAt m p t.size)
  | integer {t : CTy} {v : Int} {bs : List Byte} (ht : signed t = true ∨ unsigned t = true) (h : Encodes t v bs) :
      Denotes indirect f32 m t (.obj (.int v)) bs
  | pointer {p : Nat} {bs : List Byte} (hi : indirect = false) (h : Encodes .ptr p bs) :
      Denotes indirect f32 m .ptr (.obj (.int p)) bs
  | cell {p : Nat} (hi : indirect = true) (h : At m .ptr p) :
      Denotes indirect f32 m .ptr (.obj (.int p)) (bytesAt m p 8)
  | double {bs : List Byte} : Denotes indirect f32 m .double (.float bs) bs
  | float {bs : List Byte} : Denotes indirect f32 m .float (.float bs) (f32 bs)

/-- The arguments stand for the values, one by one. -/
inductive DenoteAll (indirect : Bool) (f32 : List Byte → List Byte) (m : Mem) :
    List CTy → List LArg → List (List Byte) → Prop
  | nil : DenoteAll indirect f32 m [] [] []
  | cons {t ts a as v vs} (h : Denotes indirect f32 m t a v) (hs : DenoteAll indirect f32 m ts as vs) :
      DenoteAll indirect f32 m (t :: ts) (a :: as) (v :: vs)

/-- Memory after the bytes were stored at `p`. -/
def stored (m : Mem) (p : Nat) (bs : List Byte) : Mem :=
  { blocks := m.blocks, byte := fun x => if h : p ≤ x ∧ x < p + bs.length then bs[x - p] else m.byte x }

/-- The documented effect of calling the method with these arguments in memory `m`: the intrinsic of the prototype is
called with the values the arguments stand for, and its result is stored at `__result`. -/
inductive Effect (indirect : Bool) (f32 : List Byte → List Byte) (I : Intrinsics) (s : Stub) (m : Mem) :
    List LArg → Mem → Prop
  | void {args vals v m'} (hr : s.ret = none) (hd : DenoteAll indirect f32 m s.params args vals)
      (hI : I s.proto vals m = some (v, m')) : Effect indirect f32 I s m args m'
  | result {t p args vals v m'} (hr : s.ret = some t) (hd : DenoteAll indirect f32 m s.params args vals)
      (hI : I s.proto vals m = some (v, m')) (ha : At m' t p) :
      Effect indirect f32 I s m (.obj (.int p) :: args) (stored m' p v)

end Verif.Spec.Low
